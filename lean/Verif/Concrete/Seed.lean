import Verif.Concrete.FastPbkdf
import Verif.Concrete.Seed0
import Verif.Concrete.Seed1
import Verif.Concrete.Seed2
import Verif.Concrete.Seed3
import Verif.VectorsWallet

/-! # The seed of the phrase of the repository's tests

All 2048 iterations of PBKDF2, evaluated by the kernel. So there is a phrase of which every theorem about
wallets can be applied (`Verif/Props/WalletCases.lean`). -/

namespace Stacks.Concrete.Seed
open FastPbkdf

/-- The phrase, as the key of HMAC. -/
def key : Bytes := Vectors.phrase.bytes

theorem start_inner : start key 0x36 = [9503529611295081011, 13610700109180017949, 13012709391070369546,
    16328868990151669596, 6054922978750273969, 16515145918237665102, 8011240328576485666, 4380018986550406399] :=
  eq_of_beq (by decide +kernel)

theorem start_outer : start key 0x5c = [9496247687216563808, 6112414131427042894, 2490186441560391138,
    16414591847729112294, 14561817319521754167, 1671029649924405483, 9225207703627018412, 14127692286001667436] :=
  eq_of_beq (by decide +kernel)

theorem reach {n u a u' a' : Nat} (h : iter inner outer u' a' n u a = true) : Reaches key n u a u' a' :=
  reaches_of_iter key _ _ _ _ _ _ _ _ _ _ _ _ _ _ _ _ start_inner (by rw [start_inner]; unfold Words; decide)
    start_outer (by rw [start_outer]; unfold Words; decide) u' a' n u a h

theorem reach_all : Reaches key 2047
    0x42473e9f98b6b4f1daddc9a75a82a9cf5fb6df1c616984fd8394ebbb32729ce130a56860cd7af8a709a2ab220924ff5e3fcbec59c78c37c832ab40135ffa89a7
    0x42473e9f98b6b4f1daddc9a75a82a9cf5fb6df1c616984fd8394ebbb32729ce130a56860cd7af8a709a2ab220924ff5e3fcbec59c78c37c832ab40135ffa89a7
    0xfa83c5a196c84d633825f2996b9150512665fe8993e47da263530145d1160733a164d3fbc2230ac7f434a008f219734b5d8d5dfc73bc83ab999d4d7f0822a12c
    0xf3068d6e795db1545d5067caf0b48b042de533a233ebb402846c2afe54bb1c2c9d927ee1cd057c56e7ca1af65021152f6264c317d744005604afee363e238265 :=
  ((reach run0).trans ((reach run1).trans ((reach run2).trans ((reach run3).trans ((reach run4).trans ((reach run5).trans 
  ((reach run6).trans ((reach run7).trans ((reach run8).trans ((reach run9).trans ((reach run10).trans ((reach run11).trans 
  ((reach run12).trans ((reach run13).trans ((reach run14).trans ((reach run15).trans ((reach run16).trans ((reach run17).trans 
  ((reach run18).trans ((reach run19).trans ((reach run20).trans ((reach run21).trans ((reach run22).trans ((reach run23).trans 
  ((reach run24).trans ((reach run25).trans ((reach run26).trans ((reach run27).trans ((reach run28).trans ((reach run29).trans 
  ((reach run30).trans (reach run31))))))))))))))))))))))))))))))))

/-- The words of the first code. -/
def first : List Nat := [3651082374872730023, 4597027715005822920, 694305455239135070, 3505322649951336615, 9481462304759520481, 6896945192350876925, 15770983190736579023, 4775854785032533233]

/-- The words of the seed. -/
def last : List Nat := [337750413814235749, 7090006220551225430, 16702191813265528111, 11354277118826871894, 9542048982322846764, 3307106273122300930, 6723988364983569156, 17511839706698854740]

/-- The seed of the phrase. -/
theorem toSeed_phrase : Bip32.toSeed Vectors.phrase [] = Vectors.seed := by
  have hd : ∀ l : List Nat, l.length = 8 → (l.all fun x => decide (x < 2 ^ 64)) = true → Digest l := by
    intro l h1 h2
    exact ⟨h1, fun x hx => of_decide_eq_true (List.all_eq_true.1 h2 x hx)⟩
  have h1 : Bip32.hmac512 key (Str.bytes ("mnemonic".toList ++ []) ++ [0, 0, 0, 1]) = bytes first :=
    eq_of_beq (by decide +kernel)
  have hf : pack first = 0x42473e9f98b6b4f1daddc9a75a82a9cf5fb6df1c616984fd8394ebbb32729ce130a56860cd7af8a709a2ab220924ff5e3fcbec59c78c37c832ab40135ffa89a7 := by decide +kernel
  have hl : pack last = 0xf3068d6e795db1545d5067caf0b48b042de533a233ebb402846c2afe54bb1c2c9d927ee1cd057c56e7ca1af65021152f6264c317d744005604afee363e238265 := by decide +kernel
  have h := reach_all
  rw [← hl, ← hf] at h
  have := pbkdf2_of_reaches key (Str.bytes ("mnemonic".toList ++ [])) 2047 first last _ (hd _ rfl (by decide))
    (hd _ rfl (by decide)) h1 h
  have hs : bytes last = Vectors.seed := eq_of_beq (by decide +kernel)
  rw [← hs, ← this]
  rfl

end Stacks.Concrete.Seed

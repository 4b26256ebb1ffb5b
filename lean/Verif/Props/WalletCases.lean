import Verif.Concrete.Seed
import Verif.VectorsWallet0
import Verif.VectorsWallet1
import Verif.Props.WalletAddress
import Verif.Props.Separate
import Verif.Props.EndToEnd
import Verif.Props.Payments

/-! # The theorems about wallets, applied to the wallet of the repository's tests

The phrase of `/repo/stacks/src/wallet.rs:153` and the addresses of `/repo/stacks/src/wallet.rs:143-189`, with the real
hash functions, the real curve, the real lists of words and all iterations: nothing about them is assumed. -/

namespace Stacks.WalletCases
open Stacks.Spec Stacks.Wallet Stacks.Concrete Stacks.Vectors Stacks.Rpc Stacks.Tx
open Stacks.Concrete.Ecdsa (G)

attribute [local instance] realHashes Ecdsa.realSecp toyHttp
@[reducible] def phrases : Bip32.Phrases := Bip32.bip39Phrases id Words.english
local instance : Bip := Bip32.realBip phrases
local instance : Bip.Lawful := Bip32.realBipLawful phrases
local instance : Secp.Lawful := Ecdsa.realLawful

theorem derived : Bip32.deriveFromPath Vectors.seed [2 ^ 31 + 44, 2 ^ 31 + 5757, 2 ^ 31, 0] = .ok root := by
  have h := root_derived
  rw [show stxDerivationPath = "m/44'/5757'/0'/0".toList from rfl, parse_stxPath] at h
  simp only [] at h
  generalize Bip32.deriveFromPath Vectors.seed [2 ^ 31 + 44, 2 ^ 31 + 5757, 2 ^ 31, 0] = r at h
  cases r with
  | error e => cases h
  | ok x =>
    obtain ⟨⟨k, hk⟩, c, d⟩ := x
    simp only [Prod.mk.injEq] at h
    obtain ⟨rfl, rfl, rfl⟩ := h
    rfl

/-- C102, C59: the phrase makes a wallet, and this is its key. -/
theorem wallet : StacksWallet.fromSecretKey phrase = .ok ⟨root, []⟩ := by
  obtain ⟨m, h1, h2⟩ := phrase_parses
  refine ((C59_root_key phrase).1 _).2 ⟨m, _, root, h1, parse_stxPath, ?_, rfl⟩
  show Bip32.deriveFromPath (Bip32.toSeed (Mnemonic.unwords (Mnemonic.wordIter Words.english m)) []) _ = _
  rw [h2, Seed.toSeed_phrase]
  exact derived

/-- The texts of the addresses of an account, if they are evaluated. -/
theorem account_of {i : UInt32} {a b c d : Str} (h : addresses i = [some a, some b, some c, some d]) :
    ∃ acc : StacksAccount, (StacksWallet.getAccount ⟨root, []⟩ i).1 = .ok acc ∧
      acc.getAddress .mainnetP2PKH = .ok a ∧ acc.getAddress .mainnetP2SH = .ok b ∧
      acc.getAddress .testnetP2PKH = .ok c ∧ acc.getAddress .testnetP2SH = .ok d := by
  have key : ∀ (o : Outcome Wallet.Error Str) (t : Str),
      (match o with | .ok s => some s | _ => none) = some t → o = .ok t := by
    intro o t ho
    cases o with
    | ok s => simp only [Option.some.injEq] at ho; rw [ho]
    | err e => cases ho
    | panic => cases ho
  unfold addresses at h
  generalize (StacksWallet.getAccount ⟨root, []⟩ i).1 = o at h ⊢
  cases o with
  | ok acc =>
    simp only [List.map_cons, List.map_nil, List.cons.injEq, and_true] at h
    refine ⟨acc, rfl, ?_⟩
    generalize acc.getAddress .mainnetP2PKH = o1 at h ⊢
    generalize acc.getAddress .mainnetP2SH = o2 at h ⊢
    generalize acc.getAddress .testnetP2PKH = o3 at h ⊢
    generalize acc.getAddress .testnetP2SH = o4 at h ⊢
    exact ⟨key _ _ h.1, key _ _ h.2.1, key _ _ h.2.2.1, key _ _ h.2.2.2⟩
  | err e => cases h
  | panic => cases h

/-- The words kept for the phrase. -/
theorem parsed : ∃ m, phrases.parse phrase = .ok m ∧ phrases.text m = phrase ∧ (phrases.text m).bytes.length < 2 ^ 124 := by
  obtain ⟨m, h1, h2⟩ := phrase_parses
  refine ⟨m, h1, h2, ?_⟩
  rw [show phrases.text m = phrase from h2]
  exact lt_of_le_of_lt (b := 200) (by decide +kernel) (by decide)

/-- C104: the seed of the phrase by the standard is the one computed, and the key of the wallet is the one at the
path of the standard. -/
example : IsSeed phrase Vectors.seed ∧ AtPath G Vectors.seed stacksPath (ext root) := by
  obtain ⟨m, h1, h2, h3⟩ := parsed
  have hs : ∀ seed, IsSeed phrase seed → seed = Vectors.seed := by
    intro seed h
    rw [(seed_iff phrase (h2 ▸ h3) seed).1 h, Seed.toSeed_phrase]
  obtain ⟨seed, g1, g2⟩ := (C104_wallet phrases phrase m h1 h3 (ext root)).1 ⟨_, wallet, rfl⟩
  rw [h2] at g1
  obtain rfl := hs seed g1
  exact ⟨g1, g2⟩

/-- C106: by the standards alone, the address of the first account of the phrase in each version, in any order of
calls. These are the texts of the repository's test. -/
example : ∃ y bytes, AtPath G Vectors.seed (stacksPath ++ [0]) y ∧ IsCompressed (y.key • G) bytes ∧
    IsAddressOf 22 bytes "SP384CVPNDTYA0E92TKJZQTYXQHNZSWGCAG7SAPVB".toList ∧
    IsAddressOf 20 bytes "SM384CVPNDTYA0E92TKJZQTYXQHNZSWGCAGRD22C9".toList ∧
    IsAddressOf 26 bytes "ST384CVPNDTYA0E92TKJZQTYXQHNZSWGCAH0ER64E".toList ∧
    IsAddressOf 21 bytes "SN384CVPNDTYA0E92TKJZQTYXQHNZSWGCAKNRHMGW".toList := by
  obtain ⟨m, h1, h2, h3⟩ := parsed
  obtain ⟨acc, ha, a1, a2, a3, a4⟩ := account_of addresses0
  obtain ⟨c1, c2⟩ := C104_account phrases phrase m h1 h3 _ wallet [] 0
  by_cases hn : ∃ seed y, IsSeed (phrases.text m) seed ∧ AtPath G seed (stacksPath ++ [(0 : UInt32).toNat]) y
  · obtain ⟨seed, y, g1, g2⟩ := hn
    obtain ⟨_, d, q, bytes, -, -, -, -, -, -, e7, -⟩ := c1 seed y g1 g2
    have hw := C106_wallet_address phrases phrase m h1 h3 _ wallet [] 0
    have he : ∀ v t, acc.getAddress v = .ok t → IsAddressOf (versionByte v) bytes t := by
      intro v t ht
      refine (hw v seed y bytes g1 g2 e7 t).1 ?_
      show ((StacksWallet.getAccount ⟨root, []⟩ 0).1 >>= _) = _
      rw [ha]
      exact ht
    have hs : seed = Vectors.seed := by
      rw [h2] at g1
      rw [(seed_iff phrase (h2 ▸ h3) seed).1 g1, Seed.toSeed_phrase]
    subst hs
    exact ⟨y, bytes, g2, e7, he _ _ a1, he _ _ a2, he _ _ a3, he _ _ a4⟩
  · exact nomatch ha.symm.trans (c2 hn)

/-- C130: the first two accounts. -/
example : ∃ a b : StacksAccount, (StacksWallet.getAccount ⟨root, []⟩ 0).1 = .ok a ∧
    (StacksWallet.getAccount ⟨root, []⟩ 1).1 = .ok b ∧
    (a.privateKey = b.privateKey → ∃ m m', LeftHalvesMeet (ext root).chain m (ext root).chain m') := by
  obtain ⟨m, h1, -, h3⟩ := parsed
  obtain ⟨a, ha, -⟩ := account_of addresses0
  obtain ⟨b, hb, -⟩ := account_of addresses1
  exact ⟨a, b, ha, hb, (C130_accounts phrases phrase m h1 h3 _ wallet [] [] 0 1 (by decide) a b ha hb).1⟩

/-- C102: with other spaces it is the same wallet. -/
example : StacksWallet.fromSecretKey ("\t ".toList ++ phrase ++ "\n".toList) = .ok ⟨root, []⟩ := by
  rw [← wallet]
  have hw : ∀ w ∈ testPhrase, IsWord w := fun w hw => C103_english.word w (test_positions.1 w hw)
  have hp : Spaced (id phrase) testPhrase := by
    rw [phrase_words, id]
    exact Mnemonic.spaced_unwords hw
  exact C102_spacing id C103_english _ _ testPhrase ((C102_words _ _).1 (by decide +kernel)) hp

theorem any_order (r : Bip32.XPrv) (history : List UInt32) (i : UInt32) :
    ((afterCalls (⟨r, []⟩ : StacksWallet) (history.map .get)).getAccount i).1 = (StacksWallet.getAccount ⟨r, []⟩ i).1 :=
  (Wallet.C59_transparent r history i).trans (Wallet.C59_transparent r [] i).symm

/-- C87: the second account of the phrase pays, after others were asked for: what the node gets is a transaction
from the account. -/
example : ∃ (a : StacksAccount) (k : Ecdsa.SK) (t tx : Transaction),
    ((afterCalls ⟨root, []⟩ ([0, 7].map .get)).getAccount 1).1 = .ok a ∧ a.privateKey = .ok k ∧
    a.getAddress .mainnetP2PKH = .ok "SP23K7K2V45JFZVBMQBE8R0PP8SQG7HZF9473KBD".toList ∧
    (STXTokenTransfer.transaction { exRealTransfer with sender := k } >>= fun t => t.sign k) = .ok t ∧
    Delivers parseKey "http://n".toList kindNode (StacksRPC.broadcast ⟨"http://n".toList⟩ kindNode t) tx ∧
    SentFrom a exRealTransfer.fee exRealTransfer.nonce tx := by
  obtain ⟨a, ha, h1, -⟩ := account_of addresses1
  have hh : ((afterCalls (⟨root, []⟩ : StacksWallet) ([0, 7].map .get)).getAccount 1).1 = .ok a := (any_order root [0, 7] 1).trans ha
  obtain ⟨-, k, hk, h⟩ := C87_real_transfer phrases phrase _ wallet [0, 7] 1 a hh
  obtain ⟨t, tx, g1, g2, g3, -⟩ := h { exRealTransfer with sender := k } ⟨"http://n".toList⟩ kindNode rfl rfl
    ⟨exBody.1, exBody.2.1, ⟨testnetAddr_canonical, (by decide +kernel : (Str.bytes "hello".toList).length ≤ 34)⟩,
      .inl ⟨_, rfl⟩⟩
  exact ⟨a, k, t, tx, hh, hk, h1, g1, g2, g3⟩

end Stacks.WalletCases

import Verif.Concrete.Bip32
import Verif.Concrete.EcdsaLawful
import Verif.Spec.Wallet

/-! # Keys of BIP 32 satisfy `Bip.Lawful` -/

namespace Stacks.Concrete.Bip32
open Stacks.Concrete.Ecdsa

theorem skFromSlice_eq (d : SK) : skFromSlice (beBytes 32 d.1) = .ok d := by
  have hlt : n < 256 ^ 32 := by decide
  have h : beVal (beBytes 32 d.1) = d.1 := beVal_beBytes (lt_trans d.2.2 hlt)
  unfold skFromSlice
  rw [if_pos (by simp), dif_pos (by rw [h]; exact d.2)]
  congr 1
  exact Subtype.ext h

theorem pkFromSlice_eq (d : SK) : pkFromSlice (serialize (pub d)).1 = .ok (pub d) := by
  have hrep := pub_rep d
  generalize pub d = q at hrep
  obtain ⟨⟨x, y⟩, hq⟩ := q
  obtain ⟨hx, hy, -⟩ := id hq
  dsimp only at hx hy hrep
  have hy0 := ne_zero_of_order d.2.1 d.2.2 hrep
  have hlt : p < 256 ^ 32 := by decide
  have hl := liftX_eq hx hy hy0 ((valid_iff hx hy).1 hq)
  simp only [pkFromSlice, serialize, beVal_beBytes (lt_trans hx hlt), beBytes_length, true_and]
  rw [if_pos (by split <;> simp)]
  have ht : ((if y % 2 = 0 then (2 : UInt8) else 3) == 3) = (y % 2 == 1) := by
    rcases Nat.mod_two_eq_zero_or_one y with h | h <;> simp [h]
  rw [ht, hl]
  dsimp only
  rw [dif_pos hq]

/-- The facts about hierarchical keys that theorems take as hypotheses hold of BIP 32. -/
theorem realBipLawful (phrases : Phrases) : @Bip.Lawful realSecp (realBip phrases) :=
  letI := realSecp
  letI := realBip phrases
  { key := fun x => ⟨x.key, skFromSlice_eq x.key, rfl, pkFromSlice_eq x.key⟩ }

end Stacks.Concrete.Bip32

import Verif.Proofs.HashValue
import Verif.Props.Hex
import Verif.Props.Hash

/-! # Property C90: hashes and signatures as values -/

namespace Stacks
open Spec

/-- **C90** Hashes and signatures are ordered as the numbers their bytes write. -/
theorem C90_order {n : Nat} (a b : Arr n) :
    HashValue.cmp a b = compare (numValue 256 (a.1.map UInt8.toNat)) (numValue 256 (b.1.map UInt8.toNat)) := by
  unfold HashValue.cmp
  rw [← beVal_eq_numValue, ← beVal_eq_numValue]
  exact cmpBytes_beVal _ _ (a.2.trans b.2.symm)

/-- **C90** Sorting by the hexadecimal text is sorting by the value. -/
theorem C90_order_hex {n : Nat} (a b : Arr n) : cmpStr (HashValue.hex a) (HashValue.hex b) = HashValue.cmp a b :=
  cmpBytes_hex a.1 b.1

/-- **C90** Two hashes compare as equal exactly when they are the same. -/
theorem C90_order_eq {n : Nat} (a b : Arr n) : HashValue.cmp a b = .eq ↔ a = b := by
  rw [C90_order, Nat.compare_eq_eq]
  constructor
  · intro h
    rw [← beVal_eq_numValue, ← beVal_eq_numValue] at h
    apply Subtype.ext
    have ha := beBytes_beVal' a.2
    rw [h, beBytes_beVal' b.2] at ha
    exact ha.symm
  · rintro rfl; rfl

/-- **C90** The texts `hex()` and `{:?}` are the same, have two digits per byte, and `hex_to_bytes` gives
the bytes back. -/
theorem C90_text {n : Nat} (a : Arr n) :
    HashValue.debug a = HashValue.hex a ∧ (HashValue.hex a).length = 2 * n ∧
      Hex.hexToBytes (HashValue.hex a) = .ok a.1 := by
  refine ⟨?_, ?_, (Hex.C01_hex_roundtrip a.1).1⟩
  · unfold HashValue.debug
    rw [HashValue.debugLoop_eq]
    rfl
  · unfold HashValue.hex
    rw [(Hex.C01_hex_roundtrip a.1).2.1, a.2]

/-- **C90** Different values have different texts. -/
theorem C90_text_injective {n : Nat} (a b : Arr n) : HashValue.hex a = HashValue.hex b ↔ a = b := by
  constructor
  · intro h
    have ha := (C90_text a).2.2
    rw [h, (C90_text b).2.2] at ha
    exact (Subtype.ext (Outcome.ok.inj ha)).symm
  · rintro rfl; rfl

/-- **C90** `Hash160::new` takes exactly 20 bytes and `MessageSignature::new` exactly 65; on any other
number they panic. -/
theorem C90_new {ε : Type} (bs : Bytes) :
    (∀ h : bs.length = 20, (hash160New bs : Outcome ε (Arr 20)) = .ok ⟨bs, h⟩) ∧
    (bs.length ≠ 20 → (hash160New bs : Outcome ε (Arr 20)) = .panic) ∧
    (∀ h : bs.length = 65, (HashValue.messageSigNew bs : Outcome ε (Arr 65)) = .ok ⟨bs, h⟩) ∧
    (bs.length ≠ 65 → (HashValue.messageSigNew bs : Outcome ε (Arr 65)) = .panic) := by
  unfold hash160New HashValue.messageSigNew copyFromSlice
  exact ⟨fun h => dif_pos h, fun h => dif_neg h, fun h => dif_pos h, fun h => dif_neg h⟩

/-- **C90** `new` and `from_slice` of a message signature agree, except that the first panics where the
second reports the length. -/
theorem C90_new_from_slice [Secp] (bs : Bytes) :
    (bs.length = 65 → HashValue.messageSigNew bs = messageSigFromSlice bs) ∧
    (bs.length ≠ 65 → (HashValue.messageSigNew bs : Outcome (HashError Secp.Err) (Arr 65)) = .panic ∧
      messageSigFromSlice bs = .err (.invalidMessageSigLength bs.length)) := by
  refine ⟨fun h => ?_, fun h => ⟨(C90_new bs).2.2.2 h, (C19_message_signature_from_slice bs).2 h⟩⟩
  rw [(C90_new bs).2.2.1 h, (C19_message_signature_from_slice bs).1 h]

/-- **C90** `checksum` returns the first four bytes, for hashes of at least four. -/
theorem C90_checksum {ε : Type} {n : Nat} (a : Arr n) (hn : 4 ≤ n) :
    ∃ c : Arr 4, (HashValue.checksum a : Outcome ε (Arr 4)) = .ok c ∧ c.1 = a.1.take 4 := by
  have ha := a.2
  have hl : (a.1.take 4).length = 4 := by rw [List.length_take]; omega
  refine ⟨⟨a.1.take 4, hl⟩, ?_, rfl⟩
  unfold HashValue.checksum slice copyFromSlice
  rw [if_pos ⟨by omega, by omega⟩]
  simp only [List.drop_zero, Outcome.ok_bind]
  rw [dif_pos hl]

/-- **C90** The default value is all zeros and the least. -/
theorem C90_default {n : Nat} (a : Arr n) :
    (∀ b ∈ (HashValue.default n).1, b = 0) ∧ HashValue.cmp (HashValue.default n) a ≠ .gt := by
  have hz : ∀ b ∈ (HashValue.default n).1, b = 0 := fun b hb => List.eq_of_mem_replicate hb
  refine ⟨hz, ?_⟩
  rw [C90_order, ne_eq, Nat.compare_eq_gt]
  have : numValue 256 ((HashValue.default n).1.map UInt8.toNat) = 0 := by
    unfold HashValue.default zeros numValue
    induction n with
    | zero => rfl
    | succ n ih => simpa [List.replicate_succ] using ih (zeros n) (fun b hb => List.eq_of_mem_replicate hb)
  omega

example : HashValue.cmp ⟨[0x01, 0xff], rfl⟩ (⟨[0x02, 0x00], rfl⟩ : Arr 2) = .lt ∧
    HashValue.hex (⟨[0x01, 0xff], rfl⟩ : Arr 2) = "01ff".toList ∧
    HashValue.debug (⟨[0x01, 0xff], rfl⟩ : Arr 2) = "01ff".toList := by decide +kernel
example : (HashValue.checksum (⟨[1, 2, 3, 4, 5], rfl⟩ : Arr 5) : Outcome Unit (Arr 4)) = .ok ⟨[1, 2, 3, 4], rfl⟩ := by
  decide +kernel

example := C90_checksum (ε := Unit) (⟨[1, 2, 3, 4, 5], rfl⟩ : Arr 5) (by decide)

end Stacks

import Verif.Model.HashValue
import Verif.Proofs.Hex
import Verif.Spec.Num

/-! # Lemmas about hash values: order and text -/

namespace Stacks
open Spec

theorem beVal_eq_numValue (bs : Bytes) : beVal bs = numValue 256 (bs.map UInt8.toNat) := by
  unfold beVal numValue
  rw [List.foldl_map]

theorem cmpBytes_beVal : ∀ (as bs : Bytes), as.length = bs.length → cmpBytes as bs = compare (beVal as) (beVal bs)
  | [], [], _ => by simp [cmpBytes]
  | [], _ :: _, h => by simp at h
  | _ :: _, [], h => by simp at h
  | a :: as, b :: bs, h => by
    have hl : as.length = bs.length := by simpa using h
    have ha := beVal_lt as
    have hb := beVal_lt bs
    rw [beVal_cons, beVal_cons, hl]
    rw [hl] at ha
    generalize 256 ^ bs.length = p at ha hb
    unfold cmpBytes
    split
    · rename_i hab
      have hab : a.toNat + 1 ≤ b.toNat := UInt8.lt_iff_toNat_lt.1 hab
      symm
      rw [Nat.compare_eq_lt]
      calc a.toNat * p + beVal as < (a.toNat + 1) * p := by rw [Nat.add_mul]; omega
        _ ≤ b.toNat * p := Nat.mul_le_mul_right _ hab
        _ ≤ _ := Nat.le_add_right ..
    · split
      · rename_i hab
        have hab : b.toNat + 1 ≤ a.toNat := UInt8.lt_iff_toNat_lt.1 hab
        symm
        rw [Nat.compare_eq_gt]
        calc b.toNat * p + beVal bs < (b.toNat + 1) * p := by rw [Nat.add_mul]; omega
          _ ≤ a.toNat * p := Nat.mul_le_mul_right _ hab
          _ ≤ _ := Nat.le_add_right ..
      · rename_i h1 h2
        have hab : a = b := by
          apply UInt8.toNat_inj.1
          rw [UInt8.lt_iff_toNat_lt] at h1 h2
          omega
        subst hab
        rw [cmpBytes_beVal as bs hl]
        simp only [Nat.compare_eq_ite_lt, Nat.add_lt_add_iff_left]

/-- The byte of a hexadecimal digit. -/
def digitByte (n : Nat) : UInt8 := UInt8.ofNat (Hex.digitChar n).toNat

theorem digitByte_lt : ∀ a b : Fin 16, (digitByte a.1 < digitByte b.1) ↔ a.1 < b.1 := by decide +kernel

theorem digitByte_lt' {a b : Nat} (ha : a < 16) (hb : b < 16) : (digitByte a < digitByte b) ↔ a < b :=
  digitByte_lt ⟨a, ha⟩ ⟨b, hb⟩

theorem bytesToHex_ascii (bs : Bytes) : ∀ c ∈ Hex.bytesToHex bs, c.toNat < 128 := by
  intro c hc
  obtain ⟨b, _, hc⟩ := List.mem_flatMap.1 hc
  obtain ⟨_, _, _, h4, h5⟩ := Hex.nibble_hi_lo b
  simp only [List.mem_cons, List.not_mem_nil, or_false] at hc
  rcases hc with rfl | rfl
  · exact Hex.hexDigits_ascii h4
  · exact Hex.hexDigits_ascii h5

theorem bytesToHex_bytes_cons (b : UInt8) (bs : Bytes) : (Hex.bytesToHex (b :: bs)).bytes =
    digitByte (b.toNat / 16) :: digitByte (b.toNat % 16) :: (Hex.bytesToHex bs).bytes := by
  rw [Str.bytes_of_ascii (bytesToHex_ascii _), Str.bytes_of_ascii (bytesToHex_ascii _)]
  rfl

theorem cmpBytes_hex : ∀ (as bs : Bytes),
    cmpBytes (Hex.bytesToHex as).bytes (Hex.bytesToHex bs).bytes = cmpBytes as bs
  | [], [] => rfl
  | [], b :: bs => by rw [bytesToHex_bytes_cons]; rfl
  | a :: as, [] => by rw [bytesToHex_bytes_cons]; rfl
  | a :: as, b :: bs => by
    rw [bytesToHex_bytes_cons, bytesToHex_bytes_cons]
    have ha := a.toNat_lt
    have hb := b.toNat_lt
    simp only [cmpBytes, digitByte_lt' (show a.toNat / 16 < 16 by omega) (show b.toNat / 16 < 16 by omega),
      digitByte_lt' (show b.toNat / 16 < 16 by omega) (show a.toNat / 16 < 16 by omega),
      digitByte_lt' (show a.toNat % 16 < 16 by omega) (show b.toNat % 16 < 16 by omega),
      digitByte_lt' (show b.toNat % 16 < 16 by omega) (show a.toNat % 16 < 16 by omega), cmpBytes_hex as bs,
      UInt8.lt_iff_toNat_lt]
    split_ifs <;> first | rfl | omega

theorem HashValue.debugLoop_eq : ∀ (bs : Bytes) (f : Str), HashValue.debugLoop f bs = f ++ Hex.bytesToHex bs
  | [], f => by simp [HashValue.debugLoop, Hex.bytesToHex]
  | b :: bs, f => by
    rw [HashValue.debugLoop, HashValue.debugLoop_eq bs, List.append_assoc]
    rfl

end Stacks

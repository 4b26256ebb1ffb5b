import Verif.Model.HexIter
import Verif.Proofs.Hex

/-! # Lemmas about `HexIterator` -/

namespace Stacks.Hex
open Stacks.Spec
namespace HexIterator

theorem next_pair {a b hi lo : UInt8} (rest : Bytes) (ha : nibble a = some hi) (hb : nibble b = some lo) :
    next ⟨a :: b :: rest⟩ = (some (.ok ((hi <<< 4) ||| lo)), ⟨rest⟩) := by
  simp only [next, ha, hb]

theorem next_bad {a : UInt8} (rest : Bytes) (ha : nibble a = none) :
    next ⟨a :: rest⟩ = (some (.error .badChar), ⟨rest⟩) := by
  simp only [next, ha]

theorem next_bad_second {a b hi : UInt8} (rest : Bytes) (ha : nibble a = some hi) (hb : nibble b = none) :
    next ⟨a :: b :: rest⟩ = (some (.error .badChar), ⟨rest⟩) := by
  simp only [next, ha, hb]

theorem next_single {a hi : UInt8} (ha : nibble a = some hi) : next ⟨[a]⟩ = (none, ⟨[]⟩) := by
  simp only [next, ha]

theorem next_nil : next ⟨[]⟩ = (none, ⟨[]⟩) := rfl

theorem call_zero (it : HexIterator) : it.call 0 = it.next.1 := rfl

theorem call_succ (it : HexIterator) (n : Nat) : it.call (n + 1) = it.next.2.call n := rfl

theorem call_nil (n : Nat) : call ⟨[]⟩ n = none := by
  induction n with
  | zero => rfl
  | succ n ih => rw [call_succ, next_nil]; exact ih

/-- After a call that returned `None` nothing is left. -/
theorem next_none {it : HexIterator} (h : it.next.1 = none) : it.next.2 = ⟨[]⟩ := by
  obtain ⟨l⟩ := it
  rcases l with _ | ⟨a, _ | ⟨b, rest⟩⟩
  · rfl
  · rcases ha : nibble a with _ | hi
    · rw [next_bad _ ha] at h; cases h
    · rw [next_single ha]
  · rcases ha : nibble a with _ | hi
    · rw [next_bad _ ha] at h; cases h
    · rcases hb : nibble b with _ | lo
      · rw [next_bad_second _ ha hb] at h; cases h
      · rw [next_pair _ ha hb] at h; cases h

theorem ends (k : Nat) : ∀ (it : HexIterator), it.iter.length ≤ k →
    ∃ n ≤ it.iter.length, ∀ m, it.call m = none ↔ n ≤ m := by
  induction k with
  | zero =>
    rintro ⟨l⟩ h
    have : l = [] := by simpa using h
    subst this
    exact ⟨0, Nat.zero_le _, fun m => by simp [call_nil]⟩
  | succ k ih =>
    intro it h
    rcases hn : it.next.1 with _ | x
    · refine ⟨0, Nat.zero_le _, fun m => ?_⟩
      cases m with
      | zero => simp [call_zero, hn]
      | succ m => rw [call_succ, next_none hn, call_nil]; simp
    · have hs := next_shorter hn
      obtain ⟨n, h1, h2⟩ := ih it.next.2 (by omega)
      refine ⟨n + 1, by omega, fun m => ?_⟩
      cases m with
      | zero => simp [call_zero, hn]
      | succ m => rw [call_succ, h2]; omega

/-- Calls on the bytes of a string of digit pairs, with anything after it. -/
theorem call_hexBytes? : ∀ {s : Str} {ns : List Nat} (rest : Bytes), hexBytes? s = some ns → ∀ n,
    call ⟨s.map (fun c => UInt8.ofNat c.toNat) ++ rest⟩ n =
      if n < ns.length then ns[n]?.map (fun v => .ok (UInt8.ofNat v)) else call ⟨rest⟩ (n - ns.length)
  | [], ns, rest, h, n => by
    simp only [hexBytes?, Option.some.injEq] at h
    subst h
    simp
  | [_], _, _, h, _ => by simp [hexBytes?] at h
  | a :: b :: s, ns, rest, h, n => by
    simp only [hexBytes?, Option.bind_eq_bind, Option.bind_eq_some_iff] at h
    obtain ⟨hv, h1, lv, h2, ms, h3, h4⟩ := h
    have hh := nibble_eq_hexValue (hexValue_ascii h1)
    have hl := nibble_eq_hexValue (hexValue_ascii h2)
    rw [h1] at hh
    rw [h2] at hl
    rcases hn : nibble (UInt8.ofNat a.toNat) with _ | hi
    · rw [hn] at hh; cases hh
    rcases ln : nibble (UInt8.ofNat b.toNat) with _ | lo
    · rw [ln] at hl; cases hl
    rw [hn] at hh
    rw [ln] at hl
    simp only [Option.map_some, Option.some.injEq] at hh hl
    have hns : ns = (16 * hv + lv) :: ms := by cases h4; rfl
    subst hns
    have hnext := next_pair (s.map (fun c => UInt8.ofNat c.toNat) ++ rest) hn ln
    have hval : (hi <<< 4 ||| lo) = UInt8.ofNat (16 * hv + lv) := by
      apply UInt8.toNat_inj.1
      rw [combine_nibbles (nibble_lt hn) (nibble_lt ln), hh, hl, UInt8.toNat_ofNat', Nat.mod_eq_of_lt]
      have := hexValue_lt h1
      have := hexValue_lt h2
      omega
    simp only [List.map_cons, List.cons_append]
    cases n with
    | zero => rw [call_zero, hnext]; simp [hval]
    | succ n =>
      rw [call_succ, hnext, call_hexBytes? rest h3 n]
      simp only [List.length_cons, List.getElem?_cons_succ, Nat.add_lt_add_iff_right, Nat.add_sub_add_right]

end HexIterator

theorem forLoop_eq (k : Nat) : ∀ (bs buff : Bytes), bs.length ≤ k →
    forLoop ⟨bs⟩ buff = (do let r ← decodeLoop bs; pure (buff ++ r)) := by
  induction k with
  | zero =>
    intro bs buff h
    have : bs = [] := by simpa using h
    subst this
    unfold forLoop
    simp [HexIterator.next_nil, decodeLoop]
  | succ k ih =>
    intro bs buff h
    rcases bs with _ | ⟨a, _ | ⟨b, rest⟩⟩
    · unfold forLoop
      simp [HexIterator.next_nil, decodeLoop]
    · rcases ha : nibble a with _ | hi
      · unfold forLoop
        rw [HexIterator.next_bad _ ha]
        simp [decodeLoop, ha]
      · unfold forLoop
        rw [HexIterator.next_single ha]
        simp [decodeLoop, ha]
    · rcases ha : nibble a with _ | hi
      · unfold forLoop
        rw [HexIterator.next_bad _ ha]
        simp [decodeLoop, ha]
      · rcases hb : nibble b with _ | lo
        · unfold forLoop
          rw [HexIterator.next_bad_second _ ha hb]
          simp [decodeLoop, ha, hb]
        · unfold forLoop
          rw [HexIterator.next_pair _ ha hb]
          simp only [List.length_cons] at h
          simp only [ih rest _ (by omega), decodeLoop, ha, hb, bind_assoc, Outcome.pure_def, Outcome.ok_bind,
            List.append_assoc, List.singleton_append]

end Stacks.Hex

import Verif.Concrete.Words
import Verif.Spec.Mnemonic
import Mathlib.Data.List.Sort

/-! # The English words can be used by BIP 39 -/

namespace Stacks.Concrete.Words
open Stacks.Spec

/-- A word as a number: eight letters in base 32. -/
def code (w : Str) : Nat := (w ++ List.replicate (8 - w.length) '`').foldl (fun a c => a * 32 + (c.toNat - 96)) 0

/-- Each number is less than the next. -/
def increasing : List Nat → Bool
  | x :: y :: l => decide (x < y) && increasing (y :: l)
  | _ => true

theorem pairwise_of_increasing : ∀ {l : List Nat}, increasing l = true → l.Pairwise (· < ·)
  | [], _ => .nil
  | [x], _ => List.pairwise_singleton _ _
  | x :: y :: l, h => by
    rw [increasing, Bool.and_eq_true, decide_eq_true_eq] at h
    have ih := pairwise_of_increasing h.2
    refine .cons (fun z hz => ?_) ih
    rcases List.mem_cons.1 hz with rfl | hz
    · exact h.1
    · exact h.1.trans (List.rel_of_pairwise_cons ih hz)

set_option maxRecDepth 100000 in
theorem english_length : english.length = 2048 := by decide +kernel

set_option maxRecDepth 100000 in
theorem english_sorted : increasing (english.map code) = true := by decide +kernel

set_option maxRecDepth 100000 in
theorem english_letters : (english.all fun w => !w.isEmpty && w.all fun c => 97 ≤ c.toNat && c.toNat ≤ 122) = true := by
  decide +kernel

/-- The words are made of small letters. -/
theorem english_ascii {w : Str} (hw : w ∈ english) : w ≠ [] ∧ ∀ c ∈ w, 97 ≤ c.toNat ∧ c.toNat ≤ 122 := by
  have h := List.all_eq_true.1 english_letters w hw
  simp only [Bool.and_eq_true, List.all_eq_true, decide_eq_true_eq, Bool.not_eq_true', List.isEmpty_eq_false_iff] at h
  exact h

theorem english_words : WordList english where
  length := english_length
  nodup := List.Nodup.of_map code ((pairwise_of_increasing english_sorted).imp fun h => Nat.ne_of_lt h)
  word := fun w hw => ⟨(english_ascii hw).1, fun c hc h => by
    have := (english_ascii hw).2 c hc
    simp only [WhiteSpace, List.mem_cons, List.not_mem_nil, or_false] at h
    omega⟩

end Stacks.Concrete.Words

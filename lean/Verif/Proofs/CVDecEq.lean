import Verif.Model.Clarity

/-! Decidable equality of Clarity values (used by the concrete examples only). -/

namespace Stacks.Clarity

mutual
/-- Structural equality test. -/
def CV.same : CV → CV → Bool
  | .int x, .int y => x == y
  | .uint x, .uint y => x == y
  | .buffer x, .buffer y => x == y
  | .tru, .tru => true
  | .fls, .fls => true
  | .principalStd x, .principalStd y => x == y
  | .principalCon x n, .principalCon y m => x == y && n == m
  | .respOk x, .respOk y => x.same y
  | .respErr x, .respErr y => x.same y
  | .optNone, .optNone => true
  | .optSome x, .optSome y => x.same y
  | .list x, .list y => CV.sameAll x y
  | .tuple x, .tuple y => CV.sameEntries x y
  | .strAscii x, .strAscii y => x == y
  | .strUtf8 x, .strUtf8 y => x == y
  | .lps x, .lps y => x == y
  | .fnArgs x, .fnArgs y => CV.sameAll x y
  | _, _ => false
def CV.sameAll : List CV → List CV → Bool
  | [], [] => true
  | x :: xs, y :: ys => x.same y && CV.sameAll xs ys
  | _, _ => false
def CV.sameEntries : List (Str × CV) → List (Str × CV) → Bool
  | [], [] => true
  | (k, x) :: xs, (l, y) :: ys => k == l && x.same y && CV.sameEntries xs ys
  | _, _ => false
end

mutual
theorem CV.same_refl : (x : CV) → x.same x = true
  | .int x | .uint x | .buffer x | .principalStd x | .strAscii x | .strUtf8 x | .lps x => by simp [CV.same]
  | .tru | .fls | .optNone => rfl
  | .principalCon x n => by simp [CV.same]
  | .respOk x | .respErr x | .optSome x => by simp [CV.same, CV.same_refl x]
  | .list xs | .fnArgs xs => by simp [CV.same, CV.sameAll_refl xs]
  | .tuple xs => by simp [CV.same, CV.sameEntries_refl xs]
theorem CV.sameAll_refl : (x : List CV) → CV.sameAll x x = true
  | [] => rfl
  | x :: xs => by simp [CV.sameAll, CV.same_refl x, CV.sameAll_refl xs]
theorem CV.sameEntries_refl : (x : List (Str × CV)) → CV.sameEntries x x = true
  | [] => rfl
  | (k, x) :: xs => by simp [CV.sameEntries, CV.same_refl x, CV.sameEntries_refl xs]
end

mutual
theorem CV.eq_of_same : (x y : CV) → x.same y = true → x = y
  | .respOk x, y, h => by cases y <;> simp_all [CV.same] ; exact CV.eq_of_same x _ h
  | .respErr x, y, h => by cases y <;> simp_all [CV.same] ; exact CV.eq_of_same x _ h
  | .optSome x, y, h => by cases y <;> simp_all [CV.same] ; exact CV.eq_of_same x _ h
  | .list xs, y, h => by cases y <;> simp_all [CV.same] ; exact CV.eq_of_sameAll xs _ h
  | .fnArgs xs, y, h => by cases y <;> simp_all [CV.same] ; exact CV.eq_of_sameAll xs _ h
  | .tuple xs, y, h => by cases y <;> simp_all [CV.same] ; exact CV.eq_of_sameEntries xs _ h
  | .int x, y, h => by cases y <;> simp_all [CV.same]
  | .uint x, y, h => by cases y <;> simp_all [CV.same]
  | .buffer x, y, h => by cases y <;> simp_all [CV.same]
  | .principalStd x, y, h => by cases y <;> simp_all [CV.same]
  | .principalCon x n, y, h => by cases y <;> simp_all [CV.same]
  | .strAscii x, y, h => by cases y <;> simp_all [CV.same]
  | .strUtf8 x, y, h => by cases y <;> simp_all [CV.same]
  | .lps x, y, h => by cases y <;> simp_all [CV.same]
  | .tru, y, h => by cases y <;> simp_all [CV.same]
  | .fls, y, h => by cases y <;> simp_all [CV.same]
  | .optNone, y, h => by cases y <;> simp_all [CV.same]
theorem CV.eq_of_sameAll : (x y : List CV) → CV.sameAll x y = true → x = y
  | [], [], _ => rfl
  | [], _ :: _, h => by simp [CV.sameAll] at h
  | _ :: _, [], h => by simp [CV.sameAll] at h
  | x :: xs, y :: ys, h => by
    simp only [CV.sameAll, Bool.and_eq_true] at h
    rw [CV.eq_of_same x y h.1, CV.eq_of_sameAll xs ys h.2]
theorem CV.eq_of_sameEntries : (x y : List (Str × CV)) → CV.sameEntries x y = true → x = y
  | [], [], _ => rfl
  | [], _ :: _, h => by simp [CV.sameEntries] at h
  | _ :: _, [], h => by simp [CV.sameEntries] at h
  | (k, x) :: xs, (l, y) :: ys, h => by
    simp only [CV.sameEntries, Bool.and_eq_true, beq_iff_eq] at h
    rw [h.1.1, CV.eq_of_same x y h.1.2, CV.eq_of_sameEntries xs ys h.2]
end

instance : DecidableEq CV := fun x y =>
  if h : x.same y = true then isTrue (CV.eq_of_same x y h)
  else isFalse (fun e => h (e ▸ CV.same_refl x))

end Stacks.Clarity

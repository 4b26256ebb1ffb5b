import Verif.Spec.Num
import Mathlib.Data.Nat.Digits.Lemmas
import Mathlib.Data.List.DropRight
import Mathlib.Tactic.Ring

/-! Helper lemmas about positional numerals. -/

namespace Stacks.Spec

theorem numValue_eq_ofDigits (b : Nat) (ds : List Nat) :
    numValue b ds = Nat.ofDigits b ds.reverse := by
  have key : ∀ (ds : List Nat) (a : Nat),
      ds.foldl (fun a d => a * b + d) a = a * b ^ ds.length + Nat.ofDigits b ds.reverse := by
    intro ds
    induction ds with
    | nil => intro a; simp
    | cons d ds ih =>
      intro a
      rw [List.foldl_cons, ih, List.reverse_cons, Nat.ofDigits_append, List.length_cons,
        Nat.ofDigits_singleton, List.length_reverse]
      ring
  unfold numValue
  rw [key]; simp

theorem numValue_numDigits (b n : Nat) : numValue b (numDigits b n) = n := by
  rw [numValue_eq_ofDigits, numDigits, List.reverse_reverse, Nat.ofDigits_digits]

theorem numValue_replicate_zero_append (b k : Nat) (ds : List Nat) :
    numValue b (List.replicate k 0 ++ ds) = numValue b ds := by
  induction k with
  | zero => rfl
  | succ k ih =>
    rw [List.replicate_succ, List.cons_append]
    show numValue b (0 :: _) = _
    rw [← ih]
    simp [numValue]

theorem leadingZeros_replicate_append (k : Nat) (ds : List Nat) :
    leadingZeros (List.replicate k 0 ++ ds) = k + leadingZeros ds := by
  induction k with
  | zero => simp
  | succ k ih =>
    rw [List.replicate_succ, List.cons_append]
    unfold leadingZeros at *
    rw [List.takeWhile_cons_of_pos (by rfl), List.length_cons, ih]; omega

theorem numDigits_head_ne {b n : Nat} {d : Nat} {ds : List Nat} (h : numDigits b n = d :: ds) : d ≠ 0 := by
  unfold numDigits at h
  have hne : Nat.digits b n ≠ [] := by
    intro h0; rw [h0] at h; simp at h
  have hn : n ≠ 0 := fun h0 => hne (by rw [h0]; simp)
  have := Nat.getLast_digit_ne_zero b hn
  have h2 : (Nat.digits b n).getLast hne = d := by
    have h3 : Nat.digits b n = ds.reverse ++ [d] := by
      have := congrArg List.reverse h
      simpa using this
    simp [h3]
  rwa [h2] at this

theorem leadingZeros_numDigits (b n : Nat) : leadingZeros (numDigits b n) = 0 := by
  rcases h : numDigits b n with _ | ⟨d, ds⟩
  · rfl
  · have := numDigits_head_ne h
    unfold leadingZeros
    rw [List.takeWhile_cons_of_neg (by simpa using this)]; rfl

theorem numDigits_lt {b n d : Nat} (hb : 1 < b) (h : d ∈ numDigits b n) : d < b := by
  unfold numDigits at h
  exact Nat.digits_lt_base hb (List.mem_reverse.1 h)

/-- A digit list without leading zero is the digit list of its value. -/
theorem numDigits_numValue {b : Nat} (hb : 1 < b) {ds : List Nat} (hd : ∀ d ∈ ds, d < b)
    (hz : leadingZeros ds = 0) : numDigits b (numValue b ds) = ds := by
  unfold numDigits
  rw [numValue_eq_ofDigits, Nat.digits_ofDigits b hb]
  · simp
  · intro d h; exact hd d (List.mem_reverse.1 h)
  · intro hne
    rcases ds with _ | ⟨d, ds⟩
    · simp at hne
    · simp only [List.reverse_cons, List.getLast_append_singleton]
      intro h0
      subst h0
      unfold leadingZeros at hz
      rw [List.takeWhile_cons_of_pos (by rfl)] at hz
      simp at hz

theorem replicate_leadingZeros (ds : List Nat) :
    ds = List.replicate (leadingZeros ds) 0 ++ ds.dropWhile (· == 0) := by
  induction ds with
  | nil => rfl
  | cons d ds ih =>
    by_cases h : d = 0
    · subst h
      rw [List.dropWhile_cons_of_pos (by rfl)]
      unfold leadingZeros at *
      rw [List.takeWhile_cons_of_pos (by rfl), List.length_cons, List.replicate_succ, List.cons_append, ← ih]
    · rw [List.dropWhile_cons_of_neg (by simpa using h)]
      unfold leadingZeros
      rw [List.takeWhile_cons_of_neg (by simpa using h)]; rfl

theorem leadingZeros_dropWhile (ds : List Nat) : leadingZeros (ds.dropWhile (· == 0)) = 0 := by
  have h1 := replicate_leadingZeros ds
  have h2 := congrArg leadingZeros h1
  rw [leadingZeros_replicate_append] at h2
  omega

/-- Canonical form: dropping leading zeros gives the digits of the value. -/
theorem dropWhile_zero_eq {b : Nat} (hb : 1 < b) {ds : List Nat} (hd : ∀ d ∈ ds, d < b) :
    ds.dropWhile (· == 0) = numDigits b (numValue b ds) := by
  have h1 := replicate_leadingZeros ds
  have h2 : numValue b ds = numValue b (ds.dropWhile (· == 0)) := by
    conv_lhs => rw [h1]
    rw [numValue_replicate_zero_append]
  rw [h2, numDigits_numValue hb _ (leadingZeros_dropWhile ds)]
  intro d h
  exact hd d ((List.dropWhile_sublist _).subset h)

theorem rebase_self {b : Nat} (hb : 1 < b) {ds : List Nat} (hd : ∀ d ∈ ds, d < b) :
    rebase b b ds = ds := by
  unfold rebase
  rw [← dropWhile_zero_eq hb hd, ← replicate_leadingZeros]

theorem leadingZeros_rebase (b c : Nat) (ds : List Nat) :
    leadingZeros (rebase b c ds) = leadingZeros ds := by
  unfold rebase
  rw [leadingZeros_replicate_append, leadingZeros_numDigits]; rfl

theorem numValue_rebase (b c : Nat) (ds : List Nat) :
    numValue c (rebase b c ds) = numValue b ds := by
  unfold rebase
  rw [numValue_replicate_zero_append, numValue_numDigits]

theorem rebase_rebase {b : Nat} (c : Nat) (hb : 1 < b) {ds : List Nat} (hd : ∀ d ∈ ds, d < b) :
    rebase c b (rebase b c ds) = ds := by
  have : rebase c b (rebase b c ds) = rebase b b ds := by
    unfold rebase
    have h1 := leadingZeros_rebase b c ds
    have h2 := numValue_rebase b c ds
    unfold rebase at h1 h2
    rw [h1, h2]
  rw [this, rebase_self hb hd]

theorem rebase_lt {b c : Nat} (hc : 1 < c) {ds : List Nat} {d : Nat} (h : d ∈ rebase b c ds) : d < c := by
  unfold rebase at h
  rw [List.mem_append] at h
  rcases h with h | h
  · rw [List.mem_replicate] at h; omega
  · exact numDigits_lt hc h

theorem numValue_lt {b : Nat} (hb : 0 < b) {ds : List Nat} (hd : ∀ d ∈ ds, d < b) :
    numValue b ds < b ^ ds.length := by
  rcases Nat.lt_or_ge 1 b with h1 | h1
  · rw [numValue_eq_ofDigits, ← List.length_reverse]
    exact Nat.ofDigits_lt_base_pow_length h1 (fun d h => hd d (List.mem_reverse.1 h))
  · have : b = 1 := by omega
    subst this
    rw [numValue_eq_ofDigits, Nat.one_pow]
    have : ∀ d ∈ ds.reverse, d = 0 := fun d h => by
      have := hd d (List.mem_reverse.1 h); omega
    have h2 : ds.reverse = List.replicate ds.reverse.length 0 := List.eq_replicate_of_mem this
    rw [h2]
    simp

theorem numValue_append (b : Nat) (xs ys : List Nat) :
    numValue b (xs ++ ys) = numValue b xs * b ^ ys.length + numValue b ys := by
  rw [numValue_eq_ofDigits, numValue_eq_ofDigits, numValue_eq_ofDigits, List.reverse_append,
    Nat.ofDigits_append, List.length_reverse]
  ring

theorem numValue_cons (b d : Nat) (ds : List Nat) :
    numValue b (d :: ds) = d * b ^ ds.length + numValue b ds := by
  have := numValue_append b [d] ds
  simpa [numValue] using this

theorem numDigits_length_le {c n k : Nat} (hc : 1 < c) (h : n < c ^ k) : (numDigits c n).length ≤ k := by
  unfold numDigits
  rw [List.length_reverse]
  exact (Nat.digits_length_le_iff hc n).2 h

/-- Going to a larger base does not lengthen a numeral. -/
theorem rebase_length_le_of_le {b c : Nat} (hb : 1 < b) (hbc : b ≤ c) {ds : List Nat}
    (hd : ∀ d ∈ ds, d < b) : (rebase b c ds).length ≤ ds.length := by
  have h1 := replicate_leadingZeros ds
  have h2 : numValue b ds < b ^ (ds.dropWhile (· == 0)).length := by
    conv_lhs => rw [h1]
    rw [numValue_replicate_zero_append]
    apply numValue_lt (by omega)
    intro d h
    exact hd d ((List.dropWhile_sublist _).subset h)
  have h3 := numDigits_length_le (c := c) (by omega)
    (lt_of_lt_of_le h2 (Nat.pow_le_pow_left hbc _))
  have h4 := congrArg List.length h1
  rw [List.length_append, List.length_replicate] at h4
  unfold rebase
  rw [List.length_append, List.length_replicate]
  omega

end Stacks.Spec

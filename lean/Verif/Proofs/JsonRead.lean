import Verif.Model.JsonRead
import Verif.Spec.JsonRead
import Verif.Proofs.JsonText
import Verif.Proofs.Num
import Verif.Proofs.Hex

/-! # The reader of JSON reads what the grammar says -/

namespace Stacks.Rpc.Read
open Stacks.Spec

/-! ## White space -/

theorem isWs_iff (c : Char) : isWs c = true ↔ c ∈ [' ', '\t', '\n', '\r'] := by
  simp [isWs, or_assoc]

theorem skipWs_ws {a : Str} (ha : Ws a) (x : Str) : skipWs (a ++ x) = skipWs x := by
  unfold skipWs
  induction a with
  | nil => rfl
  | cons c a ih =>
    rw [List.cons_append, List.dropWhile_cons, if_pos ((isWs_iff c).2 (ha c (by simp)))]
    exact ih fun d hd => ha d (by simp [hd])

theorem skipWs_stop {c : Char} (hc : NotWs c) (x : Str) : skipWs (c :: x) = c :: x := by
  unfold skipWs
  rw [List.dropWhile_cons, if_neg]
  exact fun h => hc ((isWs_iff c).1 h)

theorem skipWs_nil : skipWs [] = [] := rfl

theorem skipWs_all {a : Str} (ha : Ws a) : skipWs a = [] := by
  have := skipWs_ws ha []
  rw [List.append_nil] at this
  rw [this]; rfl

theorem skipWs_split (t : Str) : ∃ a, Ws a ∧ t = a ++ skipWs t ∧ ∀ c r, skipWs t = c :: r → NotWs c := by
  induction t with
  | nil => exact ⟨[], nofun, rfl, nofun⟩
  | cons c t ih =>
    by_cases h : isWs c = true
    · obtain ⟨a, h1, h2, h3⟩ := ih
      have e : skipWs (c :: t) = skipWs t := by
        unfold skipWs; rw [List.dropWhile_cons, if_pos h]
      rw [e]
      refine ⟨c :: a, ?_, by rw [List.cons_append, ← h2], h3⟩
      intro d hd
      rcases List.mem_cons.1 hd with rfl | hd
      · exact (isWs_iff _).1 h
      · exact h1 d hd
    · have hc : NotWs c := fun hc => h ((isWs_iff c).2 hc)
      rw [skipWs_stop hc]
      refine ⟨[], nofun, rfl, ?_⟩
      intro d r e
      rw [← (List.cons.inj e).1]; exact hc

/-! ## Strings -/

theorem hexDigit_table : ∀ n : Fin 128, hexDigit (Char.ofNat n.1) = hexValue (Char.ofNat n.1) := by decide +kernel

theorem hexDigit_eq (c : Char) : hexDigit c = hexValue c := by
  by_cases h : c.toNat < 128
  · have := hexDigit_table ⟨c.toNat, h⟩
    simpa [Hex.charOfNat_self] using this
  · rw [Hex.hexValue_nonascii (by omega)]
    unfold hexDigit
    have h0 : '0'.toNat = 48 := rfl
    have h9 : '9'.toNat = 57 := rfl
    have ha : 'a'.toNat = 97 := rfl
    have hf : 'f'.toNat = 102 := rfl
    have hA : 'A'.toNat = 65 := rfl
    have hF : 'F'.toNat = 70 := rfl
    rw [if_neg (by omega), if_neg (by omega), if_neg (by omega)]

theorem hex4_iff (a b c d : Char) (n : Nat) : hex4 a b c d = some n ↔ Hex4 n [a, b, c, d] := by
  unfold hex4
  simp only [hexDigit_eq, Option.bind_eq_bind, Option.bind_eq_some_iff, Option.pure_def, Option.some.injEq]
  constructor
  · rintro ⟨i, hi, j, hj, k, hk, l, hl, rfl⟩
    exact .mk hi hj hk hl
  · intro h
    cases h with
    | mk h1 h2 h3 h4 => exact ⟨_, h1, _, h2, _, h3, _, h4, rfl⟩

theorem hex4_shape {n : Nat} {h : Str} (a : Hex4 n h) : ∃ p q r s, h = [p, q, r, s] := by
  cases a; exact ⟨_, _, _, _, rfl⟩

theorem shortEscape_iff (e c : Char) : shortEscape e = some c ↔ (e, c) ∈ shortEscapes := by
  unfold shortEscape shortEscapes
  constructor
  · intro h
    split at h
    · next he => rw [he, ← Option.some.inj h]; decide
    split at h
    · next he => rw [he, ← Option.some.inj h]; decide
    split at h
    · next he => rw [he, ← Option.some.inj h]; decide
    split at h
    · next he => rw [he, ← Option.some.inj h]; decide
    split at h
    · next he => rw [he, ← Option.some.inj h]; decide
    split at h
    · next he => rw [he, ← Option.some.inj h]; decide
    split at h
    · next he => rw [he, ← Option.some.inj h]; decide
    split at h
    · next he => rw [he, ← Option.some.inj h]; decide
    · cases h
  · intro h
    simp only [List.mem_cons, Prod.mk.injEq, List.not_mem_nil, or_false] at h
    rcases h with ⟨rfl, rfl⟩ | ⟨rfl, rfl⟩ | ⟨rfl, rfl⟩ | ⟨rfl, rfl⟩ | ⟨rfl, rfl⟩ | ⟨rfl, rfl⟩ | ⟨rfl, rfl⟩ | ⟨rfl, rfl⟩ <;>
      decide

theorem unitChar_iff (n : Nat) (c : Char) : unitChar n = some c ↔ c.toNat = n := by
  unfold unitChar
  constructor
  · intro h
    split at h
    · next hn =>
      rw [← Option.some.inj h]
      have hv : n.isValidChar := by
        rcases hn with h | h
        · exact .inl h
        · exact .inr ⟨by omega, h.2⟩
      rw [Char.ofNat, dif_pos hv]
      rfl
    · cases h
  · rintro rfl
    have h := c.valid
    simp only [UInt32.isValidChar, Nat.isValidChar] at h
    have e : c.toNat = c.val.toNat := rfl
    rw [if_pos (by omega), Char.ofNat_toNat]

theorem char1_ok {c : Char} {w : Str} (h : CharText c w) (x : Str) : char1 (w ++ x) = some (c, x) := by
  cases h with
  | plain a b d =>
    have hn : ¬ c.toNat < 0x20 := by omega
    simp only [List.cons_append, List.nil_append, char1, if_neg d, if_neg hn]
  | @short e a =>
    have he : e ≠ 'u' := shortEscapes_u _ a
    simp only [List.cons_append, List.nil_append, char1, if_true, if_neg he, (shortEscape_iff e c).2 a, Option.map_some]
  | @unit h a =>
    obtain ⟨p, q, r, s, rfl⟩ := hex4_shape a
    have hs := char_not_surrogate c
    simp only [List.cons_append, List.nil_append, char1, if_true, (hex4_iff _ _ _ _ _).2 a, if_neg hs,
      (unitChar_iff _ c).2 rfl, Option.map_some]
  | @pair hi lo h l a b h1 h2 h3 h4 h5 =>
    obtain ⟨p, q, r, s, rfl⟩ := hex4_shape a
    obtain ⟨p', q', r', s', rfl⟩ := hex4_shape b
    simp only [List.cons_append, List.nil_append, char1, if_true, (hex4_iff _ _ _ _ _).2 a, if_pos (And.intro h1 h2),
      (hex4_iff _ _ _ _ _).2 b, if_pos (And.intro h3 h4), (unitChar_iff _ c).2 h5, Option.map_some, and_self]

theorem char1_sound {t r : Str} {c : Char} (h : char1 t = some (c, r)) (hq : t.head? ≠ some '"') :
    ∃ w, CharText c w ∧ t = w ++ r := by
  unfold char1 at h
  split at h
  · cases h
  next c' t' =>
  by_cases hb : c' = '\\'
  · rw [if_pos hb] at h
    subst hb
    split at h
    · cases h
    next e t' =>
    by_cases hu : e = 'u'
    · rw [if_pos hu] at h
      subst hu
      split at h
      · next a b c0 d t' =>
        split at h
        · cases h
        next n hn =>
        have hn' := (hex4_iff _ _ _ _ _).1 hn
        by_cases hs : 0xd800 ≤ n ∧ n < 0xdc00
        · rw [if_pos hs] at h
          split at h
          · next x y a' b' c1 d' t' =>
            by_cases hxy : x = '\\' ∧ y = 'u'
            · rw [if_pos hxy] at h
              obtain ⟨rfl, rfl⟩ := hxy
              split at h
              · cases h
              next m hm =>
              have hm' := (hex4_iff _ _ _ _ _).1 hm
              by_cases hl : 0xdc00 ≤ m ∧ m < 0xe000
              · rw [if_pos hl] at h
                simp only [Option.map_eq_some_iff, Prod.mk.injEq] at h
                obtain ⟨c2, h1, rfl, rfl⟩ := h
                exact ⟨_, .pair hn' hm' hs.1 hs.2 hl.1 hl.2 ((unitChar_iff _ _).1 h1), by simp⟩
              · rw [if_neg hl] at h; cases h
            · rw [if_neg hxy] at h; cases h
          · cases h
        · rw [if_neg hs] at h
          simp only [Option.map_eq_some_iff, Prod.mk.injEq] at h
          obtain ⟨c2, h1, rfl, rfl⟩ := h
          rw [← (unitChar_iff _ _).1 h1] at hn'
          exact ⟨_, .unit hn', by simp⟩
      · cases h
    · rw [if_neg hu] at h
      simp only [Option.map_eq_some_iff, Prod.mk.injEq] at h
      obtain ⟨c2, h1, rfl, rfl⟩ := h
      exact ⟨_, .short ((shortEscape_iff _ _).1 h1), rfl⟩
  · rw [if_neg hb] at h
    split at h
    · cases h
    · next hc =>
      cases h
      exact ⟨[c], .plain (by omega) (by simpa using hq) hb, rfl⟩

theorem chars_ok {s w : Str} (h : CharsText s w) : ∀ (fuel : Nat) (x : Str), w.length < fuel →
    chars fuel (w ++ '"' :: x) = some (s, x) := by
  induction h with
  | nil =>
    intro fuel x hf
    obtain ⟨f, rfl⟩ : ∃ f, fuel = f + 1 := ⟨fuel - 1, by omega⟩
    simp [chars]
  | @cons c v s t hc _ ih =>
    intro fuel x hf
    obtain ⟨f, rfl⟩ : ∃ f, fuel = f + 1 := ⟨fuel - 1, by omega⟩
    obtain ⟨d, r, hv, hd⟩ := charText_head hc
    rw [List.length_append] at hf
    have h1 := char1_ok hc (t ++ '"' :: x)
    have h2 := ih f x (by rw [hv, List.length_cons] at hf; omega)
    rw [List.append_assoc]
    generalize ht : v ++ (t ++ '"' :: x) = u at h1
    have hu : u = d :: (r ++ (t ++ '"' :: x)) := by rw [← ht, hv]; rfl
    unfold chars
    rw [hu] at h1 ⊢
    simp only [if_neg hd, h1, h2]

theorem chars_sound : ∀ (fuel : Nat) {t s r : Str}, chars fuel t = some (s, r) →
    ∃ w, CharsText s w ∧ t = w ++ '"' :: r
  | 0, t, s, r, h => by cases h
  | fuel + 1, t, s, r, h => by
    unfold chars at h
    split at h
    · cases h
    next c q =>
    by_cases hc : c = '"'
    · rw [if_pos hc] at h
      cases h
      exact ⟨[], .nil, by rw [hc]; rfl⟩
    · rw [if_neg hc] at h
      split at h
      · cases h
      next d r1 h1 =>
      split at h
      · cases h
      next s1 r2 h2 =>
      cases h
      obtain ⟨w, hw, e⟩ := char1_sound h1 (by simpa using hc)
      obtain ⟨w', hw', e'⟩ := chars_sound fuel h2
      exact ⟨w ++ w', .cons hw hw', by rw [e, e', List.append_assoc]⟩

/-! ## Numbers -/

theorem isDigit_iff (c : Char) : isDigit c = true ↔ c ∈ "0123456789".toList := by
  have hd : ∀ c ∈ "0123456789".toList, c.toNat < 128 := by decide
  have ht : ∀ n : Fin 128, isDigit (Char.ofNat n.1) = true ↔ Char.ofNat n.1 ∈ "0123456789".toList := by decide +kernel
  by_cases h : c.toNat < 128
  · have := ht ⟨c.toNat, h⟩
    rwa [Hex.charOfNat_self] at this
  · constructor
    · intro h'
      simp only [isDigit, Bool.and_eq_true, decide_eq_true_eq] at h'
      have h9 : '9'.toNat = 57 := rfl
      omega
    · intro h'
      exact absurd (hd c h') h

theorem digits_iff (s : Str) : Digits s ↔ s.isEmpty = false ∧ s.all isDigit = true := by
  unfold Digits
  rw [List.all_eq_true]
  simp only [isDigit_iff, List.isEmpty_eq_false_iff]

theorem isExponent_iff (s : Str) : isExponent s = true ↔
    (s = [] ∨ ∃ x g d, (x = 'e' ∨ x = 'E') ∧ (g = [] ∨ g = ['+'] ∨ g = ['-']) ∧ Digits d ∧ s = x :: g ++ d) := by
  cases s with
  | nil => simp [isExponent]
  | cons x r =>
    have hne : x :: r ≠ [] := by simp
    simp only [isExponent, hne, false_or, Bool.and_eq_true, Bool.or_eq_true, decide_eq_true_eq,
      Bool.not_eq_true']
    constructor
    · rintro ⟨hx, hd⟩
      rw [← digits_iff] at hd
      cases r with
      | nil => exact absurd rfl hd.1
      | cons c q =>
        by_cases hc : c = '+' ∨ c = '-'
        · simp only [if_pos hc] at hd
          refine ⟨x, [c], q, hx, ?_, hd, rfl⟩
          rcases hc with rfl | rfl <;> simp
        · simp only [if_neg hc] at hd
          exact ⟨x, [], c :: q, hx, .inl rfl, hd, rfl⟩
    · rintro ⟨x', g, d, hx, hg, hd, e⟩
      obtain ⟨rfl, rfl⟩ := List.cons.inj e
      refine ⟨hx, ?_⟩
      rw [← digits_iff]
      rcases hg with rfl | rfl | rfl
      · cases d with
        | nil => exact absurd rfl hd.1
        | cons c q =>
          have : ¬ (c = '+' ∨ c = '-') := by
            have := hd.2 c (by simp)
            rintro (rfl | rfl) <;> revert this <;> decide
          show Digits (if c = '+' ∨ c = '-' then q else c :: q)
          rw [if_neg this]
          exact hd
      · simpa using hd
      · simpa using hd

theorem takeWhile_digits {d x : Str} (hd : ∀ c ∈ d, c ∈ "0123456789".toList)
    (hx : ∀ c r, x = c :: r → isDigit c = false) :
    (d ++ x).takeWhile isDigit = d ∧ (d ++ x).dropWhile isDigit = x := by
  induction d with
  | nil =>
    cases x with
    | nil => exact ⟨rfl, rfl⟩
    | cons c r => simp [hx c r rfl]
  | cons c d ih =>
    have hc := (isDigit_iff c).2 (hd c (by simp))
    obtain ⟨h1, h2⟩ := ih fun e he => hd e (by simp [he])
    simp [hc, h1, h2]

theorem takeWhile_all (r : Str) : ∀ c ∈ r.takeWhile isDigit, c ∈ "0123456789".toList := fun c hc =>
  (isDigit_iff c).1 (List.mem_takeWhile_imp hc)

theorem digits_takeWhile (r : Str) : Digits (r.takeWhile isDigit) ↔ (r.takeWhile isDigit).isEmpty = false := by
  unfold Digits
  rw [List.isEmpty_eq_false_iff]
  exact ⟨fun h => h.1, fun h => ⟨h, takeWhile_all r⟩⟩

theorem exponent_head {s : Str}
    (h : s = [] ∨ ∃ x g d, (x = 'e' ∨ x = 'E') ∧ (g = [] ∨ g = ['+'] ∨ g = ['-']) ∧ Digits d ∧ s = x :: g ++ d) :
    ∀ c r, s = c :: r → isDigit c = false ∧ c ≠ '.' := by
  intro c r e
  rcases h with h | ⟨x, g, d, hx, -, -, h⟩
  · rw [h] at e; cases e
  · rw [h] at e
    rw [← (List.cons.inj e).1]
    rcases hx with rfl | rfl <;> decide

theorem isFraction_iff (s : Str) : isFraction s = true ↔ ∃ f e, s = f ++ e ∧
    (f = [] ∨ ∃ d, Digits d ∧ f = '.' :: d) ∧
    (e = [] ∨ ∃ x g d, (x = 'e' ∨ x = 'E') ∧ (g = [] ∨ g = ['+'] ∨ g = ['-']) ∧ Digits d ∧ e = x :: g ++ d) := by
  unfold isFraction
  constructor
  · intro h
    split at h
    · exact ⟨[], [], rfl, .inl rfl, .inl rfl⟩
    next c q =>
    by_cases hc : c = '.'
    · rw [if_pos hc, Bool.and_eq_true, Bool.not_eq_true'] at h
      refine ⟨'.' :: q.takeWhile isDigit, q.dropWhile isDigit, ?_, .inr ⟨_, (digits_takeWhile q).2 h.1, rfl⟩,
        (isExponent_iff _).1 h.2⟩
      rw [hc, List.cons_append, List.takeWhile_append_dropWhile]
    · rw [if_neg hc] at h
      exact ⟨[], c :: q, rfl, .inl rfl, (isExponent_iff _).1 h⟩
  · rintro ⟨f, e, rfl, hf, he⟩
    rcases hf with rfl | ⟨d, hd, rfl⟩
    · rw [List.nil_append]
      have hh := exponent_head he
      split
      · rfl
      next c q =>
      rw [if_neg (hh c q rfl).2]
      exact (isExponent_iff _).2 he
    · simp only [List.cons_append, if_true]
      obtain ⟨h1, h2⟩ := takeWhile_digits (x := e) hd.2 (fun c r hr => (exponent_head he c r hr).1)
      rw [h1, h2, Bool.and_eq_true, Bool.not_eq_true']
      exact ⟨((digits_iff d).1 hd).1, (isExponent_iff _).2 he⟩

theorem isNumber_iff (s : Str) : isNumber s = true ↔ NumberText s := by
  have key : ∀ r : Str, (!(r.takeWhile isDigit).isEmpty && ((r.takeWhile isDigit).head? ≠ some '0' ||
      r.takeWhile isDigit = ['0']) && isFraction (r.dropWhile isDigit)) = true ↔
      ∃ i f e, r = i ++ f ++ e ∧ Digits i ∧ (i.head? = some '0' → i = ['0']) ∧
        (f = [] ∨ ∃ d, Digits d ∧ f = '.' :: d) ∧
        (e = [] ∨ ∃ x g d, (x = 'e' ∨ x = 'E') ∧ (g = [] ∨ g = ['+'] ∨ g = ['-']) ∧ Digits d ∧ e = x :: g ++ d) := by
    intro r
    rw [Bool.and_eq_true, Bool.and_eq_true, Bool.not_eq_true', isFraction_iff]
    constructor
    · rintro ⟨⟨h1, h2⟩, f, e, h3, h4, h5⟩
      refine ⟨_, f, e, ?_, (digits_takeWhile r).2 h1, ?_, h4, h5⟩
      · rw [List.append_assoc, ← h3, List.takeWhile_append_dropWhile]
      · simp only [Bool.or_eq_true, decide_eq_true_eq] at h2
        tauto
    · rintro ⟨i, f, e, rfl, h1, h2, h4, h5⟩
      have hfe : ∀ c q, f ++ e = c :: q → isDigit c = false := by
        intro c q hq
        rcases h4 with rfl | ⟨d, -, rfl⟩
        · exact (exponent_head h5 c q hq).1
        · rw [← (List.cons.inj hq).1]; decide
      obtain ⟨g1, g2⟩ := takeWhile_digits h1.2 hfe
      rw [List.append_assoc, g1, g2]
      refine ⟨⟨((digits_iff i).1 h1).1, ?_⟩, f, e, rfl, h4, h5⟩
      simp only [Bool.or_eq_true, decide_eq_true_eq]
      tauto
  unfold isNumber
  simp only []
  rw [key]
  constructor
  · rintro ⟨i, f, e, h, h1, h2, h3, h4⟩
    cases s with
    | nil =>
      simp only [] at h
      exfalso
      have : i = [] := by
        cases i with
        | nil => rfl
        | cons => cases h
      exact h1.1 this
    | cons c q =>
      by_cases hc : c = '-'
      · simp only [if_pos hc] at h
        rw [h, hc]
        have := NumberText.mk (m := ['-']) (.inr rfl) h1 h2 h3 h4
        simpa using this
      · simp only [if_neg hc] at h
        rw [h]
        have := NumberText.mk (m := []) (.inl rfl) h1 h2 h3 h4
        simpa using this
  · intro h
    cases h with
    | @mk m i f e hm h1 h2 h3 h4 =>
      refine ⟨i, f, e, ?_, h1, h2, h3, h4⟩
      rcases hm with rfl | rfl
      · cases i with
        | nil => exact absurd rfl h1.1
        | cons c i =>
          have : c ≠ '-' := by
            have := h1.2 c (by simp)
            rintro rfl; revert this; decide
          simp only [List.nil_append, List.cons_append, if_neg this]
      · simp

theorem digitsVal_eq {s : Str} (h : ∀ c ∈ s, c ∈ "0123456789".toList) :
    digitsVal s = numValue 10 (s.map (fun c => "0123456789".toList.idxOf c)) := by
  have tab : ∀ c ∈ "0123456789".toList, c.toNat - '0'.toNat = "0123456789".toList.idxOf c := by decide
  have : ∀ (s : Str) (n : Nat), (∀ c ∈ s, c ∈ "0123456789".toList) →
      s.foldl (fun n c => n * 10 + (c.toNat - '0'.toNat)) n =
      (s.map (fun c => "0123456789".toList.idxOf c)).foldl (fun a d => a * 10 + d) n := by
    intro s
    induction s with
    | nil => intro n _; rfl
    | cons c s ih =>
      intro n hs
      rw [List.foldl_cons, List.map_cons, List.foldl_cons, tab c (hs c (by simp))]
      exact ih _ fun d hd => hs d (by simp [hd])
  exact this s 0 h

theorem decimal_iff (s : Str) (n : Nat) : Decimal s n ↔ isNumber s = true ∧ s.all isDigit = true ∧ digitsVal s = n := by
  constructor
  · rintro ⟨h1, h2, h3, h4⟩
    refine ⟨(isNumber_iff s).2 ?_, ((digits_iff s).1 ⟨h1, h2⟩).2, by rw [digitsVal_eq h2, h4]⟩
    have := NumberText.mk (m := []) (i := s) (f := []) (e := []) (.inl rfl) ⟨h1, h2⟩ h3 (.inl rfl) (.inl rfl)
    simpa using this
  · rintro ⟨h1, h2, h3⟩
    rw [List.all_eq_true] at h2
    have h2' : ∀ c ∈ s, c ∈ "0123456789".toList := fun c hc => (isDigit_iff c).1 (h2 c hc)
    rw [digitsVal_eq h2'] at h3
    have hn := (isNumber_iff s).1 h1
    cases hn with
    | @mk m i f e hm hi h0 hf he =>
      have hm' : m = [] := by
        rcases hm with rfl | rfl
        · rfl
        · exact absurd (h2 '-' (by simp)) (by decide)
      have hf' : f = [] := by
        rcases hf with rfl | ⟨d, -, rfl⟩
        · rfl
        · exact absurd (h2 '.' (by simp)) (by decide)
      have he' : e = [] := by
        rcases he with rfl | ⟨x, g, d, hx, -, -, rfl⟩
        · rfl
        · exact absurd (h2 x (by simp)) (by rcases hx with rfl | rfl <;> decide)
      subst hm' hf' he'
      simp only [List.nil_append, List.append_nil] at h3 h2' ⊢
      exact ⟨hi.1, h2', h0, h3⟩

section
variable {F : Type} (float : Str → Option F)

theorem number_iff (s : Str) (j : Json F) : number float s = some j ↔ ReadNumber float s j := by
  have tailNumber : ∀ t : Str, isNumber ('-' :: t) = true → t.all isDigit = true → isNumber t = true := by
    intro t h hd
    have e : isNumber ('-' :: t) = (!(t.takeWhile isDigit).isEmpty && ((t.takeWhile isDigit).head? ≠ some '0' ||
      t.takeWhile isDigit = ['0']) && isFraction (t.dropWhile isDigit)) := by
      simp only [isNumber, if_true]
    rw [e] at h
    cases t with
    | nil => simp at h
    | cons c q =>
      have hc : c ≠ '-' := by
        rw [List.all_cons, Bool.and_eq_true] at hd
        rintro rfl
        exact absurd hd.1 (by decide)
      unfold isNumber
      simp only [if_neg hc]
      exact h
  unfold number
  constructor
  · intro h
    split at h
    · cases h
    next hn =>
    rw [Bool.not_eq_false] at hn
    split at h
    · next hd =>
      rw [← Option.some.inj h]
      exact .nat ((decimal_iff s _).2 ⟨hn, hd.1, rfl⟩) hd.2
    next hd =>
    split at h
    · next ht =>
      rw [← Option.some.inj h]
      obtain ⟨h1, h2, h3, h4⟩ := ht
      cases s with
      | nil => cases h2
      | cons c t =>
        cases h2
        exact .neg ((decimal_iff t _).2 ⟨tailNumber t hn h1, h1, rfl⟩) h3 h4
    next ht =>
    rw [Option.map_eq_some_iff] at h
    obtain ⟨f, hf, rfl⟩ := h
    refine .float ((isNumber_iff s).1 hn) (fun n hdn => ?_) (fun t n e hdn => ?_) hf
    · obtain ⟨-, g2, g3⟩ := (decimal_iff s n).1 hdn
      by_contra hlt
      exact hd ⟨g2, by rw [g3]; omega⟩
    · obtain ⟨-, g2, g3⟩ := (decimal_iff t n).1 hdn
      by_contra hlt
      refine ht ?_
      rw [e]
      refine ⟨g2, rfl, ?_⟩
      simp only [List.tail_cons, g3]
      omega
  · intro h
    cases h with
    | nat h1 h2 =>
      obtain ⟨g1, g2, g3⟩ := (decimal_iff s _).1 h1
      rw [if_neg (by rw [g1]; decide), if_pos ⟨g2, by rw [g3]; exact h2⟩, g3]
    | @neg t n h1 h2 h3 =>
      obtain ⟨g1, g2, g3⟩ := (decimal_iff t n).1 h1
      have hn : isNumber ('-' :: t) = true := by
        rw [isNumber_iff]
        have := NumberText.mk (m := ['-']) (i := t) (f := []) (e := []) (.inr rfl) ⟨h1.1, h1.2.1⟩ h1.2.2.1 (.inl rfl) (.inl rfl)
        simpa using this
      rw [if_neg (by rw [hn]; decide), if_neg, if_pos]
      · rw [List.tail_cons, g3]
      · rw [List.tail_cons, g3]
        exact ⟨g2, rfl, h2, h3⟩
      · rintro ⟨hd, -⟩
        rw [List.all_cons, Bool.and_eq_true] at hd
        exact absurd hd.1 (by decide)
    | float h1 h2 h3 h4 =>
      have hn := (isNumber_iff s).2 h1
      rw [if_neg (by rw [hn]; decide), if_neg, if_neg, h4]
      · rfl
      · rintro ⟨g1, g2, g3, g4⟩
        cases s with
        | nil => cases g2
        | cons c t =>
          cases g2
          simp only [List.tail_cons] at g1 g3 g4
          have := h3 t _ rfl ((decimal_iff t _).2 ⟨tailNumber t hn g1, g1, rfl⟩)
          omega
      · rintro ⟨g1, g2⟩
        have := h2 _ ((decimal_iff s _).2 ⟨hn, g1, rfl⟩)
        omega

theorem isNumberChar_iff (c : Char) : isNumberChar c = true ↔ c ∈ numberChars := by
  have hd : ∀ c ∈ numberChars, c.toNat < 128 := by decide
  have ht : ∀ n : Fin 128, isNumberChar (Char.ofNat n.1) = true ↔ Char.ofNat n.1 ∈ numberChars := by decide +kernel
  by_cases h : c.toNat < 128
  · have := ht ⟨c.toNat, h⟩
    rwa [Hex.charOfNat_self] at this
  · constructor
    · intro h'
      simp only [isNumberChar, Bool.or_eq_true, decide_eq_true_eq, or_assoc] at h'
      rcases h' with h' | rfl | rfl | rfl | rfl | rfl
      · have := (isDigit_iff c).1 h'
        exact absurd ((by decide : ∀ c ∈ "0123456789".toList, c.toNat < 128) c this) h
      all_goals exact absurd (by decide) h
    · intro h'
      exact absurd (hd c h') h

theorem span_number {s x : Str} (hs : ∀ c ∈ s, c ∈ numberChars) (hx : Stop x) :
    (s ++ x).takeWhile isNumberChar = s ∧ (s ++ x).dropWhile isNumberChar = x := by
  induction s with
  | nil =>
    cases x with
    | nil => exact ⟨rfl, rfl⟩
    | cons c r =>
      have : isNumberChar c = false := by
        rw [← Bool.not_eq_true, isNumberChar_iff]; exact hx c r rfl
      simp [this]
  | cons c s ih =>
    have hc := (isNumberChar_iff c).2 (hs c (by simp))
    obtain ⟨h1, h2⟩ := ih fun e he => hs e (by simp [he])
    simp [hc, h1, h2]

theorem start_iff (c : Char) : (c = '-' ∨ isDigit c = true) ↔ c ∈ "-0123456789".toList := by
  rw [isDigit_iff]
  simp

/-! ## Values -/

theorem text_pos {v : JsonVal} {t : Str} (h : JsonText v t) : 0 < t.length := by
  obtain ⟨c, r, rfl, _⟩ := text_head h
  simp

theorem value_string (f d : Nat) (r : Str) : value float (f + 1) d ('"' :: r) =
    match chars (f + 1) r with
    | none => none
    | some (s, r) => some (.str s, r) := rfl

theorem value_array (f d : Nat) (r : Str) : value float (f + 1) d ('[' :: r) =
    if d ≤ 1 then none
    else match skipWs r with
      | [] => none
      | e :: u => if e = ']' then some (.arr [], u)
        else match items float f (d - 1) (e :: u) with
          | none => none
          | some (xs, r) => some (.arr xs, r) := rfl

theorem value_object (f d : Nat) (r : Str) : value float (f + 1) d ('{' :: r) =
    if d ≤ 1 then none
    else match skipWs r with
      | [] => none
      | e :: u => if e = '}' then some (.obj [], u)
        else match members float f (d - 1) (e :: u) with
          | none => none
          | some (es, r) => some (.obj es, r) := rfl

theorem value_number (f d : Nat) (c : Char) (r : Str) (hc : c ∈ "-0123456789".toList) :
    value float (f + 1) d (c :: r) =
      (number float ((c :: r).takeWhile isNumberChar)).map (·, (c :: r).dropWhile isNumberChar) := by
  have h : ∀ c ∈ "-0123456789".toList, c ≠ 'n' ∧ c ≠ 't' ∧ c ≠ 'f' ∧ c ≠ '"' ∧ c ≠ '[' ∧ c ≠ '{' := by decide
  obtain ⟨h1, h2, h3, h4, h5, h6⟩ := h c hc
  unfold value
  simp only [if_neg h1, if_neg h2, if_neg h3, if_neg h4, if_neg h5, if_neg h6, if_pos ((start_iff c).2 hc)]

theorem items_step (f d : Nat) (t : Str) : items float (f + 1) d t =
    match value float f d t with
    | none => none
    | some (x, r) =>
      match skipWs r with
      | [] => none
      | c :: u =>
        if c = ']' then some ([x], u)
        else if c = ',' then
          match items float f d (skipWs u) with
          | none => none
          | some (xs, r) => some (x :: xs, r)
        else none := by
  conv => lhs; unfold items
  rfl

theorem members_step (f d : Nat) (r : Str) : members float (f + 1) d ('"' :: r) =
    match chars (f + 1) r with
    | none => none
    | some (k, r) =>
      match skipWs r with
      | [] => none
      | c :: u =>
        if c ≠ ':' then none
        else
          match value float f d (skipWs u) with
          | none => none
          | some (x, r) =>
            match skipWs r with
            | [] => none
            | c :: u =>
              if c = '}' then some ([(k, x)], u)
              else if c = ',' then
                match members float f d (skipWs u) with
                | none => none
                | some (es, r) => some ((k, x) :: es, r)
              else none := rfl

theorem items_head {vs : List JsonVal} {t : Str} (h : ItemsText vs t) (x : Str) :
    ∃ c r, skipWs (t ++ ']' :: x) = c :: r ∧ c ≠ ']' := by
  have key : ∀ {a s y : Str} {v : JsonVal}, Ws a → JsonText v s → ∃ c r, skipWs (a ++ s ++ y) = c :: r ∧ c ≠ ']' := by
    intro a s y v ha hv
    obtain ⟨c, r, rfl, hc⟩ := text_head hv
    have hn := head_notWs hc
    refine ⟨c, r ++ y, ?_, ?_⟩
    · rw [List.append_assoc, skipWs_ws ha, List.cons_append, skipWs_stop hn]
    · rintro rfl
      have : charKind ']' = 7 := by decide
      have := kind_lt v
      omega
  cases h with
  | one a1 a2 a3 => rw [List.append_assoc]; exact key a1 a2
  | more a1 a2 a3 a4 => rw [List.append_assoc, List.append_assoc]; exact key a1 a2

theorem members_head {es : List (Str × JsonVal)} {t : Str} (h : MembersText es t) (x : Str) :
    ∃ r, skipWs (t ++ '}' :: x) = '"' :: r := by
  have key : ∀ {a s y k : Str}, Ws a → StringText k s → ∃ r, skipWs (a ++ s ++ y) = '"' :: r := by
    intro a s y k ha hk
    obtain ⟨r, rfl⟩ := stringText_head hk
    exact ⟨r ++ y, by rw [List.append_assoc, skipWs_ws ha, List.cons_append, skipWs_stop nw_quote]⟩
  cases h with
  | one a1 a2 a3 a4 a5 a6 => rw [List.append_assoc, List.append_assoc]; exact key a1 a2
  | more a1 a2 a3 a4 a5 a6 a7 => rw [List.append_assoc, List.append_assoc]; exact key a1 a2

theorem skip_ws_char {b : Str} (hb : Ws b) {c : Char} (hc : NotWs c) (x : Str) : skipWs (b ++ c :: x) = c :: x := by
  rw [skipWs_ws hb, skipWs_stop hc]

theorem skip_ws_text {a t : Str} (ha : Ws a) {v : JsonVal} (hv : JsonText v t) (x : Str) :
    skipWs (a ++ (t ++ x)) = t ++ x := by
  obtain ⟨c, r, rfl, hc⟩ := text_head hv
  rw [skipWs_ws ha, List.cons_append, skipWs_stop (head_notWs hc)]

mutual
theorem value_ok {v : JsonVal} {w : Str} : JsonText v w → ∀ {d : Nat} {j : Json F} {fuel : Nat} {x : Str},
    Reads float d v j → w.length ≤ fuel → Stop x → value float fuel (d + 1) (w ++ x) = some (j, x)
  | .null, d, j, fuel, x, hr, hf, _ => by
    cases hr
    obtain ⟨f, rfl⟩ : ∃ f, fuel = f + 1 := ⟨fuel - 1, by simp at hf; omega⟩
    rfl
  | .tru, d, j, fuel, x, hr, hf, _ => by
    cases hr
    obtain ⟨f, rfl⟩ : ∃ f, fuel = f + 1 := ⟨fuel - 1, by simp at hf; omega⟩
    rfl
  | .fls, d, j, fuel, x, hr, hf, _ => by
    cases hr
    obtain ⟨f, rfl⟩ : ∃ f, fuel = f + 1 := ⟨fuel - 1, by simp at hf; omega⟩
    rfl
  | .number ht, d, j, fuel, x, hr, hf, hx => by
    cases hr with
    | number hn =>
    obtain ⟨c, r, rfl, hc⟩ := number_head ht
    obtain ⟨f, rfl⟩ : ∃ f, fuel = f + 1 := ⟨fuel - 1, by simp at hf; omega⟩
    obtain ⟨h1, h2⟩ := span_number (number_chars ht) hx
    rw [List.cons_append] at h1 h2 ⊢
    rw [value_number float f _ c _ hc, h1, h2, (number_iff float _ j).2 hn]
    rfl
  | .string ht, d, j, fuel, x, hr, hf, _ => by
    cases hr
    cases ht with
    | mk hc =>
    obtain ⟨f, rfl⟩ : ∃ f, fuel = f + 1 := ⟨fuel - 1, by simp at hf; omega⟩
    rw [cons_app, value_string]
    have := chars_ok hc (f + 1) x (by simp at hf; omega)
    rw [List.singleton_append, this]
  | .noItems hw, d, j, fuel, x, hr, hf, _ => by
    cases hr with
    | array ha =>
    cases ha
    obtain ⟨f, rfl⟩ : ∃ f, fuel = f + 1 := ⟨fuel - 1, by simp at hf; omega⟩
    rw [cons_app, value_array, if_neg (by omega), List.singleton_append, skip_ws_char hw nw_sq]
    rfl
  | .array hi, d, j, fuel, x, hr, hf, _ => by
    cases hr with
    | @array d _ xs ha =>
    obtain ⟨f, rfl⟩ : ∃ f, fuel = f + 1 := ⟨fuel - 1, by simp at hf; omega⟩
    rw [cons_app, value_array, if_neg (by omega), List.singleton_append]
    have h1 := items_ok hi (x := x) (fuel := f) ha (by simp at hf; omega)
    obtain ⟨c, r, h2, h3⟩ := items_head hi x
    rw [h2] at h1 ⊢
    simp only [if_neg h3, Nat.add_sub_cancel, h1]
  | .noMembers hw, d, j, fuel, x, hr, hf, _ => by
    cases hr with
    | object ha =>
    cases ha
    obtain ⟨f, rfl⟩ : ∃ f, fuel = f + 1 := ⟨fuel - 1, by simp at hf; omega⟩
    rw [cons_app, value_object, if_neg (by omega), List.singleton_append, skip_ws_char hw nw_br]
    rfl
  | .object hm, d, j, fuel, x, hr, hf, _ => by
    cases hr with
    | @object d _ xs ha =>
    obtain ⟨f, rfl⟩ : ∃ f, fuel = f + 1 := ⟨fuel - 1, by simp at hf; omega⟩
    rw [cons_app, value_object, if_neg (by omega), List.singleton_append]
    have h1 := members_ok hm (x := x) (fuel := f) ha (by simp at hf; omega)
    obtain ⟨r, h2⟩ := members_head hm x
    have h3 : '"' ≠ '}' := by decide
    rw [h2] at h1 ⊢
    simp only [if_neg h3, Nat.add_sub_cancel, h1]
theorem items_ok {vs : List JsonVal} {t : Str} : ItemsText vs t → ∀ {d : Nat} {xs : List (Json F)} {fuel : Nat}
    {x : Str}, ReadsAll float d vs xs → t.length < fuel →
    items float fuel (d + 1) (skipWs (t ++ ']' :: x)) = some (xs, x)
  | .one (t := s) ha hv hb, d, xs, fuel, x, hr, hf => by
    cases hr with
    | cons h1 h2 =>
    cases h2
    obtain ⟨f, rfl⟩ : ∃ f, fuel = f + 1 := ⟨fuel - 1, by omega⟩
    have h := value_ok hv (fuel := f) h1 (by simp at hf; omega) (ws_stop (x := x) hb (by decide : ']' ∉ numberChars))
    rw [List.append_assoc, List.append_assoc, skip_ws_text ha hv, items_step, h]
    simp only [skip_ws_char hb nw_sq, if_true]
  | .more (t := s) (u := u) ha hv hb hi, d, xs, fuel, x, hr, hf => by
    cases hr with
    | cons h1 h2 =>
    obtain ⟨f, rfl⟩ : ∃ f, fuel = f + 1 := ⟨fuel - 1, by omega⟩
    have hp := text_pos hv
    have h := value_ok hv (fuel := f) h1 (by simp at hf; omega)
      (ws_stop (x := u ++ ']' :: x) hb (by decide : ',' ∉ numberChars))
    have h' := items_ok hi (fuel := f) (x := x) h2 (by simp at hf; omega)
    have hne : ',' ≠ ']' := by decide
    rw [List.append_assoc, List.append_assoc, List.append_assoc, skip_ws_text ha hv, List.cons_append, items_step, h]
    simp only [skip_ws_char hb nw_comma, if_neg hne, if_true, h']
theorem members_ok {es : List (Str × JsonVal)} {t : Str} : MembersText es t → ∀ {d : Nat} {js : List (Str × Json F)}
    {fuel : Nat} {x : Str}, ReadsMembers float d es js → t.length < fuel →
    members float fuel (d + 1) (skipWs (t ++ '}' :: x)) = some (js, x)
  | .one (t := s) ha hk hb hc hv hd, d, js, fuel, x, hr, hf => by
    cases hr with
    | cons h1 h2 =>
    cases h2
    obtain ⟨f, rfl⟩ : ∃ f, fuel = f + 1 := ⟨fuel - 1, by omega⟩
    have h := value_ok hv (fuel := f) h1 (by simp at hf; omega) (ws_stop (x := x) hd (by decide : '}' ∉ numberChars))
    cases hk with
    | mk hk =>
    simp only [List.append_assoc, List.cons_append, List.nil_append]
    rw [skip_ws_char ha nw_quote, members_step, chars_ok hk _ _ (by simp at hf; omega)]
    have hne : ¬ (':' ≠ ':') := by decide
    simp only [skip_ws_char hb nw_colon, if_neg hne, skip_ws_text hc hv, h, skip_ws_char hd nw_br, if_true]
  | .more (t := s) (u := u) ha hk hb hc hv hd hm, d, js, fuel, x, hr, hf => by
    cases hr with
    | cons h1 h2 =>
    obtain ⟨f, rfl⟩ : ∃ f, fuel = f + 1 := ⟨fuel - 1, by omega⟩
    have hp := text_pos hv
    have h := value_ok hv (fuel := f) h1 (by simp at hf; omega)
      (ws_stop (x := u ++ '}' :: x) hd (by decide : ',' ∉ numberChars))
    have h' := members_ok hm (fuel := f) (x := x) h2 (by simp at hf; omega)
    cases hk with
    | mk hk =>
    simp only [List.append_assoc, List.cons_append, List.nil_append]
    rw [skip_ws_char ha nw_quote, members_step, chars_ok hk _ _ (by simp at hf; omega)]
    have hne : ¬ (':' ≠ ':') := by decide
    have hne' : ',' ≠ '}' := by decide
    simp only [skip_ws_char hb nw_colon, if_neg hne, skip_ws_text hc hv, h, skip_ws_char hd nw_comma, if_neg hne',
      if_true, h']
end

theorem number_text {s : Str} {j : Json F} (h : number float s = some j) : NumberText s := by
  unfold number at h
  split at h
  · cases h
  · next hn =>
    rw [Bool.not_eq_false] at hn
    exact (isNumber_iff s).1 hn

theorem ws_nil' : Ws [] := nofun

theorem skip_cons {t : Str} {c : Char} {u : Str} (h : skipWs t = c :: u) : ∃ a, Ws a ∧ t = a ++ c :: u := by
  obtain ⟨a, h1, h2, -⟩ := skipWs_split t
  exact ⟨a, h1, by rw [← h]; exact h2⟩

theorem items_ws {vs : List JsonVal} {t a : Str} (ha : Ws a) (h : ItemsText vs t) : ItemsText vs (a ++ t) := by
  have app : ∀ {b : Str}, Ws b → Ws (a ++ b) := fun hb c hc => by
    rcases List.mem_append.1 hc with h | h
    · exact ha c h
    · exact hb c h
  cases h with
  | one a1 a2 a3 => rw [← List.append_assoc, ← List.append_assoc]; exact .one (app a1) a2 a3
  | more a1 a2 a3 a4 => rw [← List.append_assoc, ← List.append_assoc, ← List.append_assoc]; exact .more (app a1) a2 a3 a4

theorem members_ws {es : List (Str × JsonVal)} {t a : Str} (ha : Ws a) (h : MembersText es t) : MembersText es (a ++ t) := by
  have app : ∀ {b : Str}, Ws b → Ws (a ++ b) := fun hb c hc => by
    rcases List.mem_append.1 hc with h | h
    · exact ha c h
    · exact hb c h
  cases h with
  | one a1 a2 a3 a4 a5 a6 =>
    rw [← List.append_assoc, ← List.append_assoc, ← List.append_assoc]; exact .one (app a1) a2 a3 a4 a5 a6
  | more a1 a2 a3 a4 a5 a6 a7 =>
    rw [← List.append_assoc, ← List.append_assoc, ← List.append_assoc]; exact .more (app a1) a2 a3 a4 a5 a6 a7

mutual
theorem value_sound : ∀ (fuel : Nat) {depth : Nat} {t : Str} {j : Json F} {r : Str},
    value float fuel depth t = some (j, r) → ∃ v w, JsonText v w ∧ Reads float (depth - 1) v j ∧ t = w ++ r
  | 0, depth, t, j, r, h => by cases h
  | fuel + 1, depth, t, j, r, h => by
    cases t with
    | nil => cases h
    | cons c u =>
    by_cases c1 : c = 'n'
    · subst c1
      have h : (if u.take 3 = "ull".toList then some (Json.null, u.drop 3) else none) = some (j, r) := h
      split at h
      · next hu =>
        cases h
        exact ⟨_, _, .null, .null, by
          have e := List.take_append_drop 3 u
          rw [hu] at e
          exact congrArg ('n' :: ·) e.symm⟩
      · cases h
    by_cases c2 : c = 't'
    · subst c2
      have h : (if u.take 3 = "rue".toList then some (Json.bool true, u.drop 3) else none) = some (j, r) := h
      split at h
      · next hu =>
        cases h
        exact ⟨_, _, .tru, .bool _, by
          have e := List.take_append_drop 3 u
          rw [hu] at e
          exact congrArg ('t' :: ·) e.symm⟩
      · cases h
    by_cases c3 : c = 'f'
    · subst c3
      have h : (if u.take 4 = "alse".toList then some (Json.bool false, u.drop 4) else none) = some (j, r) := h
      split at h
      · next hu =>
        cases h
        exact ⟨_, _, .fls, .bool _, by
          have e := List.take_append_drop 4 u
          rw [hu] at e
          exact congrArg ('f' :: ·) e.symm⟩
      · cases h
    by_cases c4 : c = '"'
    · subst c4
      rw [value_string] at h
      split at h
      · cases h
      next s r' hs =>
      cases h
      obtain ⟨w, hw, rfl⟩ := chars_sound _ hs
      exact ⟨_, _, .string (.mk hw), .string s, by simp⟩
    by_cases c5 : c = '['
    · subst c5
      rw [value_array] at h
      split at h
      · cases h
      next hd =>
      split at h
      · cases h
      next e x he =>
      obtain ⟨a, ha, rfl⟩ := skip_cons he
      split at h
      · next hs =>
        cases h
        rw [hs]
        refine ⟨_, _, .noItems ha, ?_, by simp⟩
        rw [show depth - 1 = depth - 2 + 1 by omega]
        exact .array .nil
      · split at h
        · cases h
        next xs r' hi =>
        cases h
        obtain ⟨vs, w, h1, h2, h3⟩ := items_sound fuel hi
        refine ⟨_, _, .array (items_ws ha h1), ?_, ?_⟩
        · rw [show depth - 1 = depth - 1 - 1 + 1 by omega]
          exact .array h2
        · rw [h3]; simp
    by_cases c6 : c = '{'
    · subst c6
      rw [value_object] at h
      split at h
      · cases h
      next hd =>
      split at h
      · cases h
      next e x he =>
      obtain ⟨a, ha, rfl⟩ := skip_cons he
      split at h
      · next hs =>
        cases h
        rw [hs]
        refine ⟨_, _, .noMembers ha, ?_, by simp⟩
        rw [show depth - 1 = depth - 2 + 1 by omega]
        exact .object .nil
      · split at h
        · cases h
        next xs r' hi =>
        cases h
        obtain ⟨vs, w, h1, h2, h3⟩ := members_sound fuel hi
        refine ⟨_, _, .object (members_ws ha h1), ?_, ?_⟩
        · rw [show depth - 1 = depth - 1 - 1 + 1 by omega]
          exact .object h2
        · rw [h3]; simp
    by_cases c7 : c ∈ "-0123456789".toList
    · rw [value_number float fuel depth c u c7, Option.map_eq_some_iff] at h
      obtain ⟨x, hx, e⟩ := h
      cases e
      refine ⟨_, _, .number (number_text float hx), .number ((number_iff float _ _).1 hx), ?_⟩
      rw [List.takeWhile_append_dropWhile]
    · exfalso
      rw [← start_iff] at c7
      unfold value at h
      simp only [if_neg c1, if_neg c2, if_neg c3, if_neg c4, if_neg c5, if_neg c6, if_neg c7] at h
      cases h
theorem items_sound : ∀ (fuel : Nat) {depth : Nat} {t : Str} {xs : List (Json F)} {r : Str},
    items float fuel depth t = some (xs, r) →
    ∃ vs w, ItemsText vs w ∧ ReadsAll float (depth - 1) vs xs ∧ t = w ++ ']' :: r
  | 0, depth, t, xs, r, h => by cases h
  | fuel + 1, depth, t, xs, r, h => by
    rw [items_step] at h
    split at h
    · cases h
    next x r1 hv =>
    obtain ⟨v, w, h1, h2, rfl⟩ := value_sound fuel hv
    split at h
    · cases h
    next c u hc =>
    obtain ⟨a, ha, rfl⟩ := skip_cons hc
    split at h
    · next he =>
      cases h
      rw [he]
      refine ⟨_, _, .one ws_nil' h1 ha, .cons h2 .nil, by simp⟩
    split at h
    · next he =>
      rw [he]
      split at h
      · cases h
      next ys r2 hi =>
      cases h
      obtain ⟨vs, w', h3, h4, h5⟩ := items_sound fuel hi
      obtain ⟨b, hb, h6, -⟩ := skipWs_split u
      refine ⟨_, _, .more ws_nil' h1 ha (items_ws hb h3), .cons h2 h4, ?_⟩
      rw [h6, h5]; simp
    · cases h
theorem members_sound : ∀ (fuel : Nat) {depth : Nat} {t : Str} {es : List (Str × Json F)} {r : Str},
    members float fuel depth t = some (es, r) →
    ∃ fs w, MembersText fs w ∧ ReadsMembers float (depth - 1) fs es ∧ t = w ++ '}' :: r
  | 0, depth, t, es, r, h => by cases h
  | fuel + 1, depth, t, es, r, h => by
    cases t with
    | nil => cases h
    | cons q t =>
    by_cases hq : q = '"'
    · subst hq
      rw [members_step] at h
      split at h
      · cases h
      next k r0 hk =>
      obtain ⟨wk, hwk, rfl⟩ := chars_sound _ hk
      split at h
      · cases h
      next c u hc =>
      obtain ⟨a, ha, rfl⟩ := skip_cons hc
      split at h
      · cases h
      next hcol =>
      rw [not_not] at hcol
      subst hcol
      split at h
      · cases h
      next x r1 hv =>
      obtain ⟨v, w, h1, h2, h3⟩ := value_sound fuel hv
      obtain ⟨b, hb, h4, -⟩ := skipWs_split u
      split at h
      · cases h
      next c u' hc' =>
      obtain ⟨a', ha', rfl⟩ := skip_cons hc'
      split at h
      · next he =>
        cases h
        rw [he] at h3
        refine ⟨_, _, .one ws_nil' (.mk hwk) ha hb h1 ha', .cons h2 .nil, ?_⟩
        rw [h4, h3]; simp
      split at h
      · next he =>
        rw [he] at h3
        split at h
        · cases h
        next ys r2 hi =>
        cases h
        obtain ⟨vs, w', h5, h6, h7⟩ := members_sound fuel hi
        obtain ⟨b', hb', h8, -⟩ := skipWs_split u'
        refine ⟨_, _, .more ws_nil' (.mk hwk) ha hb h1 ha' (members_ws hb' h5), .cons h2 h6, ?_⟩
        rw [h4, h3, h8, h7]; simp
      · cases h
    · exfalso
      unfold members at h
      simp only [if_pos hq] at h
      cases h
end

/-- The reader accepts the documents of the grammar whose values can be read. -/
theorem document_iff (t : Str) (j : Json F) :
    document float t = some j ↔ ∃ v, Document v t ∧ Reads float 127 v j := by
  unfold document
  constructor
  · intro h
    split at h
    · cases h
    next j' r hv =>
    obtain ⟨v, w, h1, h2, h3⟩ := value_sound float _ hv
    split at h
    · next hr =>
      cases h
      obtain ⟨a, ha, h4, -⟩ := skipWs_split t
      obtain ⟨b, hb, h5, -⟩ := skipWs_split r
      rw [hr, List.append_nil] at h5
      refine ⟨v, ⟨a, w, b, ha, h1, hb, ?_⟩, h2⟩
      conv => lhs; rw [h4, h3, h5]
      rw [List.append_assoc]
    · cases h
  · rintro ⟨v, ⟨a, w, b, ha, hw, hb, rfl⟩, hr⟩
    have hs : Stop b := by
      intro c r e
      have : ∀ c ∈ [' ', '\t', '\n', '\r'], c ∉ numberChars := by decide
      exact this c (hb c (by rw [e]; simp))
    have h := value_ok float hw (fuel := (a ++ w ++ b).length + 1) (x := b) hr (by simp; omega) hs
    rw [List.append_assoc] at h ⊢
    rw [skip_ws_text ha hw, h]
    simp only [skipWs_all hb, if_true]

end

end Stacks.Rpc.Read

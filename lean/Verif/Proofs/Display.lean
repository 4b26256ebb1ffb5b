import Verif.Spec.ClarityText
import Verif.Props.Hex
import Mathlib.Tactic.NormNum

/-! # The text form of Clarity values determines plain values -/

set_option linter.unusedSimpArgs false

namespace Stacks.Clarity
open Stacks.Spec

/-- What can follow a value inside a larger text. -/
def Delim (r : Str) : Prop := r = [] ∨ (∃ t, r = ' ' :: t) ∨ ∃ t, r = ')' :: t

/-- Characters of atoms. -/
def Tok (c : Char) : Prop := c ≠ ' ' ∧ c ≠ ')' ∧ c ≠ '"'

theorem tok_split {a b r1 r2 : Str} (ha : ∀ c ∈ a, Tok c) (hb : ∀ c ∈ b, Tok c)
    (h1 : Delim r1) (h2 : Delim r2) (h : a ++ r1 = b ++ r2) : a = b ∧ r1 = r2 := by
  induction a generalizing b with
  | nil =>
    match b with
    | [] => exact ⟨rfl, h⟩
    | y :: b =>
      have hy := hb y (by simp)
      rcases h1 with rfl | ⟨t, rfl⟩ | ⟨t, rfl⟩ <;> simp at h
      · exact absurd h.1.symm hy.1
      · exact absurd h.1.symm hy.2.1
  | cons x a ih =>
    match b with
    | [] =>
      have hx := ha x (by simp)
      rcases h2 with rfl | ⟨t, rfl⟩ | ⟨t, rfl⟩ <;> simp at h
      · exact absurd h.1 hx.1
      · exact absurd h.1 hx.2.1
    | y :: b =>
      simp only [List.cons_append, List.cons.injEq] at h
      obtain ⟨rfl, h⟩ := h
      obtain ⟨rfl, rfl⟩ := ih (fun c hc => ha c (by simp [hc])) (fun c hc => hb c (by simp [hc])) h
      exact ⟨rfl, rfl⟩

/-- Splitting at the first occurrence of a character. -/
theorem split_at_char {q : Char} {a b r1 r2 : Str} (ha : q ∉ a) (hb : q ∉ b)
    (h : a ++ q :: r1 = b ++ q :: r2) : a = b ∧ r1 = r2 := by
  induction a generalizing b with
  | nil =>
    match b with
    | [] => simpa using h
    | y :: b => simp at h; simp at hb; exact absurd h.1 hb.1
  | cons x a ih =>
    match b with
    | [] => simp at h; simp at ha; exact absurd h.1.symm ha.1
    | y :: b =>
      simp only [List.cons_append, List.cons.injEq] at h
      obtain ⟨rfl, h⟩ := h
      obtain ⟨rfl, rfl⟩ := ih (fun hc => ha (by simp [hc])) (fun hc => hb (by simp [hc])) h
      exact ⟨rfl, rfl⟩

theorem digits_inj {m n : Nat} (h : Nat.toDigits 10 m = Nat.toDigits 10 n) : m = n := by
  rw [← Nat.ofDigitChars_ten_toDigits (n := m), h, Nat.ofDigitChars_ten_toDigits]

theorem digits_isDigit {c : Char} {n : Nat} (h : c ∈ Nat.toDigits 10 n) : c.isDigit = true :=
  Nat.isDigit_of_mem_toDigits (by decide) (by decide) h

theorem digits_cons (n : Nat) : ∃ c t, Nat.toDigits 10 n = c :: t ∧ c.isDigit = true := by
  match h : Nat.toDigits 10 n with
  | [] => exact absurd h Nat.toDigits_ne_nil
  | c :: t => exact ⟨c, t, rfl, digits_isDigit (n := n) (by simp [h])⟩

theorem showInt_inj {i j : Int} (h : showInt i = showInt j) : i = j := by
  unfold showInt at h
  split at h <;> split at h
  · have := digits_inj (List.cons.inj h).2; omega
  · obtain ⟨c, t, e, hd⟩ := digits_cons j.natAbs
    rw [e] at h; rw [← (List.cons.inj h).1] at hd; exact absurd hd (by decide)
  · obtain ⟨c, t, e, hd⟩ := digits_cons i.natAbs
    rw [e] at h; rw [(List.cons.inj h).1] at hd; exact absurd hd (by decide)
  · have := digits_inj h; omega

theorem hex_inj {a b : Bytes} (h : Hex.bytesToHex a = Hex.bytesToHex b) : a = b := by
  have h1 := (Hex.C01_hex_roundtrip a).1
  rw [h, (Hex.C01_hex_roundtrip b).1] at h1
  exact (Outcome.ok.inj h1).symm

/-- The characters of a signed number. -/
theorem showInt_chars {i : Int} {c : Char} (h : c ∈ showInt i) : c = '-' ∨ c.isDigit = true := by
  unfold showInt at h
  split at h
  · rcases List.mem_cons.1 h with rfl | h
    · exact Or.inl rfl
    · exact Or.inr (digits_isDigit h)
  · exact Or.inr (digits_isDigit h)

theorem showInt_cons (i : Int) : ∃ c t, showInt i = c :: t ∧ (c = '-' ∨ c.isDigit = true) := by
  match h : showInt i with
  | [] =>
    unfold showInt at h
    split at h
    · cases h
    · exact absurd h Nat.toDigits_ne_nil
  | c :: t => exact ⟨c, t, rfl, showInt_chars (i := i) (by simp [h])⟩

theorem tok_of_digit {c : Char} (h : c.isDigit = true) : Tok c := by
  refine ⟨?_, ?_, ?_⟩ <;> rintro rfl <;> exact absurd h (by decide)

theorem tok_of_alphanum {c : Char} (h : c.isAlphanum = true) : Tok c := by
  refine ⟨?_, ?_, ?_⟩ <;> rintro rfl <;> exact absurd h (by decide)

theorem hex_tok {bs : Bytes} {c : Char} (h : c ∈ Hex.bytesToHex bs) : Tok c := by
  unfold Hex.bytesToHex at h
  rw [List.mem_flatMap] at h
  obtain ⟨b, _, h⟩ := h
  have key : ∀ n : Fin 16, Tok (Hex.digitChar n.1) := by unfold Tok; decide
  have := b.toNat_lt
  simp only [List.mem_cons, List.not_mem_nil, or_false] at h
  rcases h with rfl | rfl
  · exact key ⟨b.toNat / 16, by omega⟩
  · exact key ⟨b.toNat % 16, by omega⟩

/-! The defining equations of the text form (stated here because Lean's automatic equation lemmas
for this definition are too slow). -/

theorem disp_int (x : BitVec 128) : (CV.int x).display = showInt x.toInt := rfl
theorem disp_uint (x : BitVec 128) : (CV.uint x).display = 'u' :: Nat.toDigits 10 x.toNat := rfl
theorem disp_buffer (bs : Bytes) : (CV.buffer bs).display = ['0', 'x'] ++ Hex.bytesToHex bs := rfl
theorem disp_tru : CV.tru.display = "true".toList := rfl
theorem disp_fls : CV.fls.display = "false".toList := rfl
theorem disp_none : CV.optNone.display = "none".toList := rfl
theorem disp_std (a : Str) : (CV.principalStd a).display = a := rfl
theorem disp_con (a n : Str) : (CV.principalCon a n).display = a ++ '.' :: n := rfl
theorem disp_ok (v : CV) : (CV.respOk v).display = "(ok ".toList ++ v.display ++ [')'] := rfl
theorem disp_err (v : CV) : (CV.respErr v).display = "(err ".toList ++ v.display ++ [')'] := rfl
theorem disp_some (v : CV) : (CV.optSome v).display = "(some ".toList ++ v.display ++ [')'] := rfl
theorem disp_list (vs : List CV) : (CV.list vs).display = "(list ".toList ++ CV.displayAll vs ++ [')'] := rfl
theorem disp_tuple (es : List (Str × CV)) :
    (CV.tuple es).display = "(tuple ".toList ++ CV.displayEntries es ++ [')'] := rfl
theorem disp_ascii (s : Str) : (CV.strAscii s).display = '"' :: s ++ ['"'] := rfl
theorem disp_utf8 (s : Str) : (CV.strUtf8 s).display = ['u', '"'] ++ s ++ ['"'] := rfl
theorem dispAll_nil : CV.displayAll [] = [] := rfl
theorem dispAll_cons (v : CV) (vs : List CV) :
    CV.displayAll (v :: vs) = v.display ++ (if vs.isEmpty then [] else ' ' :: CV.displayAll vs) := rfl
theorem dispEntries_nil : CV.displayEntries [] = [] := rfl
theorem dispEntries_cons (k : Str) (v : CV) (es : List (Str × CV)) :
    CV.displayEntries ((k, v) :: es) = '(' :: k ++ ' ' :: v.display ++ [')'] ++
      (if es.isEmpty then [] else ' ' :: CV.displayEntries es) := rfl

/-- Values written as one word. -/
def IsAtom : CV → Prop
  | .int _ | .uint _ | .buffer _ | .tru | .fls | .optNone | .principalStd _ | .principalCon _ _ => True
  | _ => False

theorem atom_tok {v : CV} (hp : PlainText v) (ha : IsAtom v) : ∀ c ∈ v.display, Tok c := by
  cases v with
  | int x =>
    intro c hc
    rw [disp_int] at hc
    rcases showInt_chars hc with rfl | h
    · unfold Tok; decide
    · exact tok_of_digit h
  | uint x =>
    intro c hc
    rw [disp_uint] at hc
    rcases List.mem_cons.1 hc with rfl | h
    · unfold Tok; decide
    · exact tok_of_digit (digits_isDigit h)
  | buffer bs =>
    intro c hc
    rw [disp_buffer, List.mem_append] at hc
    rcases hc with h | h
    · simp at h; rcases h with rfl | rfl <;> (unfold Tok; decide)
    · exact hex_tok h
  | tru => unfold Tok; decide
  | fls => unfold Tok; decide
  | optNone => unfold Tok; decide
  | principalStd a =>
    obtain ⟨t, rfl, ht⟩ := hp
    intro c hc
    rcases List.mem_cons.1 hc with rfl | h
    · unfold Tok; decide
    · exact tok_of_alphanum (ht c h)
  | principalCon a n =>
    obtain ⟨⟨t, rfl, ht⟩, h1, h2, h3⟩ := hp
    intro c hc
    rw [disp_con, List.cons_append, List.mem_cons, List.mem_append, List.mem_cons] at hc
    rcases hc with rfl | h | rfl | h
    · unfold Tok; decide
    · exact tok_of_alphanum (ht c h)
    · unfold Tok; decide
    · exact ⟨fun e => h1 (e ▸ h), fun e => h2 (e ▸ h), fun e => h3 (e ▸ h)⟩
  | _ => exact absurd ha id

/-- The first two characters of an atom. -/
theorem atom_head {v : CV} (hp : PlainText v) (ha : IsAtom v) : ∃ c t, v.display = c :: t ∧ c ≠ '(' := by
  cases v with
  | int x =>
    obtain ⟨c, t, e, h⟩ := showInt_cons x.toInt
    refine ⟨c, t, by rw [disp_int, e], ?_⟩
    rintro rfl; revert h; decide
  | uint x => exact ⟨'u', _, by rw [disp_uint], by decide⟩
  | buffer bs => exact ⟨'0', _, rfl, by decide⟩
  | tru => exact ⟨'t', _, rfl, by decide⟩
  | fls => exact ⟨'f', _, rfl, by decide⟩
  | optNone => exact ⟨'n', _, rfl, by decide⟩
  | principalStd a => obtain ⟨t, rfl, _⟩ := hp; exact ⟨'S', t, rfl, by decide⟩
  | principalCon a n => obtain ⟨⟨t, rfl, _⟩, _⟩ := hp; exact ⟨'S', _, rfl, by decide⟩
  | _ => exact absurd ha id

/-- A class of first characters that separates the atoms, except integers from buffers and the
two kinds of principal. -/
def headClass (s : Str) : Nat :=
  match s with
  | 'u' :: _ => 1
  | 't' :: _ => 2
  | 'f' :: _ => 3
  | 'n' :: _ => 4
  | 'S' :: _ => 5
  | _ => 0

theorem headClass_digit {c : Char} {t : Str} (h : c = '-' ∨ c.isDigit = true) : headClass (c :: t) = 0 := by
  unfold headClass
  split
  all_goals first
    | rfl
    | (rename_i e; injection e with e _; subst e; revert h; decide)

theorem int_class (x : BitVec 128) : headClass (CV.int x).display = 0 := by
  obtain ⟨c, t, e, h⟩ := showInt_cons x.toInt
  rw [disp_int, e, headClass_digit h]

theorem dot_not_alphanum {t : Str} (h : ∀ c ∈ t, c.isAlphanum) : '.' ∉ t :=
  fun hm => absurd (h _ hm) (by decide)

theorem int_ne_buffer (x : BitVec 128) (bs : Bytes) : (CV.int x).display ≠ (CV.buffer bs).display := by
  intro h
  have hx : 'x' ∈ showInt x.toInt := by
    rw [disp_int, disp_buffer] at h; rw [h, List.mem_append]; exact Or.inl (by decide)
  rcases showInt_chars hx with h | h
  · exact absurd h (by decide)
  · exact absurd h (by decide)

theorem std_ne_con {a b n : Str} (ha : AddressShaped a) : a ≠ b ++ '.' :: n := by
  obtain ⟨t, rfl, ht⟩ := ha
  intro h
  have : '.' ∈ 'S' :: t := by rw [h]; simp
  rcases List.mem_cons.1 this with h | h
  · exact absurd h (by decide)
  · exact dot_not_alphanum ht h

theorem addr_no_dot {a : Str} (ha : AddressShaped a) : '.' ∉ a := by
  obtain ⟨t, rfl, ht⟩ := ha
  intro h
  rcases List.mem_cons.1 h with h | h
  · exact absurd h (by decide)
  · exact dot_not_alphanum ht h

theorem atom_inj {v w : CV} (pv : PlainText v) (pw : PlainText w) (av : IsAtom v) (aw : IsAtom w)
    (h : v.display = w.display) : v = w := by
  have hc := congrArg headClass h
  cases v with
  | int x =>
    rw [int_class] at hc
    cases w with
    | int y =>
      rw [disp_int, disp_int] at h
      have := showInt_inj h
      rw [BitVec.eq_of_toInt_eq this]
    | buffer bs => exact absurd h (int_ne_buffer x bs)
    | uint y => simp [disp_int, disp_uint, disp_buffer, disp_tru, disp_fls, disp_none, disp_std, disp_con, headClass] at hc
    | tru => simp [disp_int, disp_uint, disp_buffer, disp_tru, disp_fls, disp_none, disp_std, disp_con, headClass] at hc
    | fls => simp [disp_int, disp_uint, disp_buffer, disp_tru, disp_fls, disp_none, disp_std, disp_con, headClass] at hc
    | optNone => simp [disp_int, disp_uint, disp_buffer, disp_tru, disp_fls, disp_none, disp_std, disp_con, headClass] at hc
    | principalStd a => obtain ⟨t, rfl, _⟩ := pw; simp [disp_int, disp_uint, disp_buffer, disp_tru, disp_fls, disp_none, disp_std, disp_con, headClass] at hc
    | principalCon a n => obtain ⟨⟨t, rfl, _⟩, _⟩ := pw; simp [disp_int, disp_uint, disp_buffer, disp_tru, disp_fls, disp_none, disp_std, disp_con, headClass] at hc
    | _ => exact absurd aw id
  | buffer bs =>
    cases w with
    | int y => exact absurd h.symm (int_ne_buffer y bs)
    | buffer bs' =>
      rw [disp_buffer, disp_buffer, List.append_cancel_left_eq] at h
      rw [hex_inj h]
    | uint y => simp [disp_int, disp_uint, disp_buffer, disp_tru, disp_fls, disp_none, disp_std, disp_con, headClass] at hc
    | tru => simp [disp_int, disp_uint, disp_buffer, disp_tru, disp_fls, disp_none, disp_std, disp_con, headClass] at hc
    | fls => simp [disp_int, disp_uint, disp_buffer, disp_tru, disp_fls, disp_none, disp_std, disp_con, headClass] at hc
    | optNone => simp [disp_int, disp_uint, disp_buffer, disp_tru, disp_fls, disp_none, disp_std, disp_con, headClass] at hc
    | principalStd a => obtain ⟨t, rfl, _⟩ := pw; simp [disp_int, disp_uint, disp_buffer, disp_tru, disp_fls, disp_none, disp_std, disp_con, headClass] at hc
    | principalCon a n => obtain ⟨⟨t, rfl, _⟩, _⟩ := pw; simp [disp_int, disp_uint, disp_buffer, disp_tru, disp_fls, disp_none, disp_std, disp_con, headClass] at hc
    | _ => exact absurd aw id
  | uint x =>
    cases w with
    | int y => rw [int_class] at hc; simp [disp_int, disp_uint, disp_buffer, disp_tru, disp_fls, disp_none, disp_std, disp_con, headClass] at hc
    | uint y =>
      rw [disp_uint, disp_uint] at h
      rw [BitVec.eq_of_toNat_eq (digits_inj (List.cons.inj h).2)]
    | principalStd a => obtain ⟨t, rfl, _⟩ := pw; simp [disp_int, disp_uint, disp_buffer, disp_tru, disp_fls, disp_none, disp_std, disp_con, headClass] at hc
    | principalCon a n => obtain ⟨⟨t, rfl, _⟩, _⟩ := pw; simp [disp_int, disp_uint, disp_buffer, disp_tru, disp_fls, disp_none, disp_std, disp_con, headClass] at hc
    | buffer y => simp [disp_int, disp_uint, disp_buffer, disp_tru, disp_fls, disp_none, disp_std, disp_con, headClass] at hc
    | tru => simp [disp_int, disp_uint, disp_buffer, disp_tru, disp_fls, disp_none, disp_std, disp_con, headClass] at hc
    | fls => simp [disp_int, disp_uint, disp_buffer, disp_tru, disp_fls, disp_none, disp_std, disp_con, headClass] at hc
    | optNone => simp [disp_int, disp_uint, disp_buffer, disp_tru, disp_fls, disp_none, disp_std, disp_con, headClass] at hc
    | _ => exact absurd aw id
  | tru =>
    cases w with
    | int y => rw [int_class] at hc; simp [disp_int, disp_uint, disp_buffer, disp_tru, disp_fls, disp_none, disp_std, disp_con, headClass] at hc
    | principalStd a => obtain ⟨t, rfl, _⟩ := pw; simp [disp_int, disp_uint, disp_buffer, disp_tru, disp_fls, disp_none, disp_std, disp_con, headClass] at hc
    | principalCon a n => obtain ⟨⟨t, rfl, _⟩, _⟩ := pw; simp [disp_int, disp_uint, disp_buffer, disp_tru, disp_fls, disp_none, disp_std, disp_con, headClass] at hc
    | tru => rfl
    | _ => first | exact absurd aw id | simp [disp_int, disp_uint, disp_buffer, disp_tru, disp_fls, disp_none, disp_std, disp_con, headClass] at hc
  | fls =>
    cases w with
    | int y => rw [int_class] at hc; simp [disp_int, disp_uint, disp_buffer, disp_tru, disp_fls, disp_none, disp_std, disp_con, headClass] at hc
    | principalStd a => obtain ⟨t, rfl, _⟩ := pw; simp [disp_int, disp_uint, disp_buffer, disp_tru, disp_fls, disp_none, disp_std, disp_con, headClass] at hc
    | principalCon a n => obtain ⟨⟨t, rfl, _⟩, _⟩ := pw; simp [disp_int, disp_uint, disp_buffer, disp_tru, disp_fls, disp_none, disp_std, disp_con, headClass] at hc
    | fls => rfl
    | _ => first | exact absurd aw id | simp [disp_int, disp_uint, disp_buffer, disp_tru, disp_fls, disp_none, disp_std, disp_con, headClass] at hc
  | optNone =>
    cases w with
    | int y => rw [int_class] at hc; simp [disp_int, disp_uint, disp_buffer, disp_tru, disp_fls, disp_none, disp_std, disp_con, headClass] at hc
    | principalStd a => obtain ⟨t, rfl, _⟩ := pw; simp [disp_int, disp_uint, disp_buffer, disp_tru, disp_fls, disp_none, disp_std, disp_con, headClass] at hc
    | principalCon a n => obtain ⟨⟨t, rfl, _⟩, _⟩ := pw; simp [disp_int, disp_uint, disp_buffer, disp_tru, disp_fls, disp_none, disp_std, disp_con, headClass] at hc
    | optNone => rfl
    | _ => first | exact absurd aw id | simp [disp_int, disp_uint, disp_buffer, disp_tru, disp_fls, disp_none, disp_std, disp_con, headClass] at hc
  | principalStd a =>
    cases w with
    | principalStd b => rw [disp_std, disp_std] at h; rw [h]
    | principalCon b n => exact absurd h (std_ne_con pv)
    | int y => obtain ⟨t, rfl, _⟩ := pv; rw [int_class] at hc; simp [disp_int, disp_uint, disp_buffer, disp_tru, disp_fls, disp_none, disp_std, disp_con, headClass] at hc
    | _ => first | exact absurd aw id | (obtain ⟨t, rfl, _⟩ := pv; simp [disp_int, disp_uint, disp_buffer, disp_tru, disp_fls, disp_none, disp_std, disp_con, headClass] at hc)
  | principalCon a n =>
    cases w with
    | principalStd b => exact absurd h.symm (std_ne_con pw)
    | principalCon b m =>
      obtain ⟨rfl, rfl⟩ := split_at_char (addr_no_dot pv.1) (addr_no_dot pw.1) h
      rfl
    | int y =>
      obtain ⟨⟨t, rfl, _⟩, _⟩ := pv; rw [int_class] at hc; simp [disp_int, disp_uint, disp_buffer, disp_tru, disp_fls, disp_none, disp_std, disp_con, headClass] at hc
    | _ => first | exact absurd aw id | (obtain ⟨⟨t, rfl, _⟩, _⟩ := pv; simp [disp_int, disp_uint, disp_buffer, disp_tru, disp_fls, disp_none, disp_std, disp_con, headClass] at hc)
  | _ => exact absurd av id

/-- The non-atoms start with one of these, none of which starts an atom followed by a delimiter. -/
def Opens (s : Str) : Prop := (∃ t, s = '(' :: t) ∨ (∃ t, s = '"' :: t) ∨ ∃ t, s = 'u' :: '"' :: t

theorem atom_not_opens {v : CV} (hp : PlainText v) (ha : IsAtom v) {r : Str} (hr : Delim r) :
    ¬ Opens (v.display ++ r) := by
  have ht := atom_tok hp ha
  obtain ⟨c, t, e, hc⟩ := atom_head hp ha
  rw [e] at ht ⊢
  rintro (⟨u, h⟩ | ⟨u, h⟩ | ⟨u, h⟩)
  · exact hc (List.cons.inj h).1
  · exact (ht c (by simp)).2.2 (List.cons.inj h).1
  · have h2 := (List.cons.inj h).2
    match t with
    | [] =>
      rcases hr with rfl | ⟨_, rfl⟩ | ⟨_, rfl⟩ <;> simp at h2
    | d :: t => exact (ht d (by simp)).2.2 (List.cons.inj h2).1

theorem opens_of_not_atom {v : CV} (hp : PlainText v) (ha : ¬ IsAtom v) (r : Str) : Opens (v.display ++ r) := by
  cases v with
  | int _ => exact absurd trivial ha
  | uint _ => exact absurd trivial ha
  | buffer _ => exact absurd trivial ha
  | tru => exact absurd trivial ha
  | fls => exact absurd trivial ha
  | optNone => exact absurd trivial ha
  | principalStd _ => exact absurd trivial ha
  | principalCon _ _ => exact absurd trivial ha
  | strAscii s => exact Or.inr (Or.inl ⟨_, rfl⟩)
  | strUtf8 s => exact Or.inr (Or.inr ⟨_, rfl⟩)
  | lps _ => exact absurd hp id
  | fnArgs _ => exact absurd hp id
  | _ => exact Or.inl ⟨_, rfl⟩

theorem display_ne_nil {v : CV} (hp : PlainText v) : v.display ≠ [] := by
  by_cases ha : IsAtom v
  · obtain ⟨c, t, e, _⟩ := atom_head hp ha; rw [e]; simp
  · have := opens_of_not_atom hp ha []
    rw [List.append_nil] at this
    rcases this with ⟨t, h⟩ | ⟨t, h⟩ | ⟨t, h⟩ <;> rw [h] <;> simp

/-- No text of a plain value starts with a delimiter. -/
theorem display_not_delim {v : CV} (hp : PlainText v) {r t : Str} : v.display ++ r ≠ ')' :: t := by
  intro h
  by_cases ha : IsAtom v
  · obtain ⟨c, t', e, _⟩ := atom_head hp ha
    have := atom_tok hp ha c (by simp [e])
    rw [e] at h
    exact this.2.1 (List.cons.inj h).1
  · rcases opens_of_not_atom hp ha r with ⟨t', h'⟩ | ⟨t', h'⟩ | ⟨t', h'⟩ <;> rw [h'] at h <;> simp at h

mutual
theorem display_inj : (v w : CV) → PlainText v → PlainText w → ∀ r1 r2, Delim r1 → Delim r2 →
    v.display ++ r1 = w.display ++ r2 → v = w ∧ r1 = r2 := by
  intro v w pv pw r1 r2 d1 d2 h
  by_cases av : IsAtom v
  · by_cases aw : IsAtom w
    · obtain ⟨e, er⟩ := tok_split (atom_tok pv av) (atom_tok pw aw) d1 d2 h
      exact ⟨atom_inj pv pw av aw e, er⟩
    · exact absurd (h ▸ opens_of_not_atom pw aw r2) (atom_not_opens pv av d1)
  · by_cases aw : IsAtom w
    · exact absurd (h ▸ opens_of_not_atom pv av r1) (atom_not_opens pw aw d2)
    · cases v with
      | respOk v =>
        cases w with
        | respOk w =>
          have h' : v.display ++ ')' :: r1 = w.display ++ ')' :: r2 := by simpa [disp_ok, disp_err, disp_some, disp_list, disp_tuple, disp_ascii, disp_utf8] using h
          obtain ⟨rfl, e⟩ := display_inj v w pv pw _ _ (.inr (.inr ⟨_, rfl⟩)) (.inr (.inr ⟨_, rfl⟩)) h'
          exact ⟨rfl, (List.cons.inj e).2⟩
        | _ => first | exact absurd trivial aw | exact absurd pw id | (simp [disp_ok, disp_err, disp_some, disp_list, disp_tuple, disp_ascii, disp_utf8] at h)
      | respErr v =>
        cases w with
        | respErr w =>
          have h' : v.display ++ ')' :: r1 = w.display ++ ')' :: r2 := by simpa [disp_ok, disp_err, disp_some, disp_list, disp_tuple, disp_ascii, disp_utf8] using h
          obtain ⟨rfl, e⟩ := display_inj v w pv pw _ _ (.inr (.inr ⟨_, rfl⟩)) (.inr (.inr ⟨_, rfl⟩)) h'
          exact ⟨rfl, (List.cons.inj e).2⟩
        | _ => first | exact absurd trivial aw | exact absurd pw id | (simp [disp_ok, disp_err, disp_some, disp_list, disp_tuple, disp_ascii, disp_utf8] at h)
      | optSome v =>
        cases w with
        | optSome w =>
          have h' : v.display ++ ')' :: r1 = w.display ++ ')' :: r2 := by simpa [disp_ok, disp_err, disp_some, disp_list, disp_tuple, disp_ascii, disp_utf8] using h
          obtain ⟨rfl, e⟩ := display_inj v w pv pw _ _ (.inr (.inr ⟨_, rfl⟩)) (.inr (.inr ⟨_, rfl⟩)) h'
          exact ⟨rfl, (List.cons.inj e).2⟩
        | _ => first | exact absurd trivial aw | exact absurd pw id | (simp [disp_ok, disp_err, disp_some, disp_list, disp_tuple, disp_ascii, disp_utf8] at h)
      | list v =>
        cases w with
        | list w =>
          have h' : CV.displayAll v ++ ')' :: r1 = CV.displayAll w ++ ')' :: r2 := by
            simpa [disp_ok, disp_err, disp_some, disp_list, disp_tuple, disp_ascii, disp_utf8] using h
          obtain ⟨rfl, e⟩ := displayAll_inj v w pv pw _ _ h'
          exact ⟨rfl, e⟩
        | _ => first | exact absurd trivial aw | exact absurd pw id | (simp [disp_ok, disp_err, disp_some, disp_list, disp_tuple, disp_ascii, disp_utf8] at h)
      | tuple v =>
        cases w with
        | tuple w =>
          have h' : CV.displayEntries v ++ ')' :: r1 = CV.displayEntries w ++ ')' :: r2 := by
            simpa [disp_ok, disp_err, disp_some, disp_list, disp_tuple, disp_ascii, disp_utf8] using h
          obtain ⟨rfl, e⟩ := displayEntries_inj v w pv pw _ _ h'
          exact ⟨rfl, e⟩
        | _ => first | exact absurd trivial aw | exact absurd pw id | (simp [disp_ok, disp_err, disp_some, disp_list, disp_tuple, disp_ascii, disp_utf8] at h)
      | strAscii v =>
        cases w with
        | strAscii w =>
          have h' : v ++ '"' :: r1 = w ++ '"' :: r2 := by simpa [disp_ok, disp_err, disp_some, disp_list, disp_tuple, disp_ascii, disp_utf8] using h
          obtain ⟨rfl, rfl⟩ := split_at_char pv pw h'
          exact ⟨rfl, rfl⟩
        | _ => first | exact absurd trivial aw | exact absurd pw id | (simp [disp_ok, disp_err, disp_some, disp_list, disp_tuple, disp_ascii, disp_utf8] at h)
      | strUtf8 v =>
        cases w with
        | strUtf8 w =>
          have h' : v ++ '"' :: r1 = w ++ '"' :: r2 := by simpa [disp_ok, disp_err, disp_some, disp_list, disp_tuple, disp_ascii, disp_utf8] using h
          obtain ⟨rfl, rfl⟩ := split_at_char pv pw h'
          exact ⟨rfl, rfl⟩
        | _ => first | exact absurd trivial aw | exact absurd pw id | (simp [disp_ok, disp_err, disp_some, disp_list, disp_tuple, disp_ascii, disp_utf8] at h)
      | _ => first | exact absurd trivial av | exact absurd pv id
termination_by v => sizeOf v
theorem displayAll_inj : (vs ws : List CV) → PlainTextAll vs → PlainTextAll ws → ∀ r1 r2,
    CV.displayAll vs ++ ')' :: r1 = CV.displayAll ws ++ ')' :: r2 → vs = ws ∧ r1 = r2
  | [], [], _, _, r1, r2, h => by simpa [dispAll_nil] using h
  | [], w :: ws, _, pw, r1, r2, h => by
    rw [dispAll_nil, dispAll_cons, List.append_assoc] at h
    exact absurd h.symm (display_not_delim pw.1)
  | v :: vs, [], pv, _, r1, r2, h => by
    rw [dispAll_nil, dispAll_cons, List.append_assoc] at h
    exact absurd h (display_not_delim pv.1)
  | v :: vs, w :: ws, pv, pw, r1, r2, h => by
    rw [dispAll_cons, dispAll_cons, List.append_assoc, List.append_assoc] at h
    have dl : ∀ (xs : List CV) (r : Str),
        Delim ((if xs.isEmpty then [] else ' ' :: CV.displayAll xs) ++ ')' :: r) := by
      intro xs r
      match xs with
      | [] => exact .inr (.inr ⟨_, rfl⟩)
      | _ :: _ => exact .inr (.inl ⟨_, rfl⟩)
    obtain ⟨rfl, e⟩ := display_inj v w pv.1 pw.1 _ _ (dl vs r1) (dl ws r2) h
    have ih := displayAll_inj vs ws pv.2 pw.2 r1 r2
    match vs, ws, ih, e with
    | [], [], _, e => simpa using e
    | [], _ :: _, _, e => simp at e
    | _ :: _, [], _, e => simp at e
    | a :: vs, b :: ws, ih, e =>
      have e' : CV.displayAll (a :: vs) ++ ')' :: r1 = CV.displayAll (b :: ws) ++ ')' :: r2 := by
        simpa using e
      obtain ⟨e1, rfl⟩ := ih e'
      rw [e1]; exact ⟨rfl, rfl⟩
termination_by vs => sizeOf vs
theorem displayEntries_inj : (es fs : List (Str × CV)) → PlainTextEntries es → PlainTextEntries fs →
    ∀ r1 r2, CV.displayEntries es ++ ')' :: r1 = CV.displayEntries fs ++ ')' :: r2 → es = fs ∧ r1 = r2
  | [], [], _, _, r1, r2, h => by simpa [dispEntries_nil, dispEntries_cons] using h
  | [], (k, w) :: ws, _, pw, r1, r2, h => by simp [dispEntries_nil, dispEntries_cons] at h
  | (k, v) :: vs, [], pv, _, r1, r2, h => by simp [dispEntries_nil, dispEntries_cons] at h
  | (k, v) :: vs, (l, w) :: ws, pv, pw, r1, r2, h => by
    have h1 : k ++ ' ' :: (v.display ++ ')' :: ((if vs.isEmpty then [] else ' ' :: CV.displayEntries vs) ++ ')' :: r1)) =
        l ++ ' ' :: (w.display ++ ')' :: ((if ws.isEmpty then [] else ' ' :: CV.displayEntries ws) ++ ')' :: r2)) := by
      simpa [dispEntries_nil, dispEntries_cons] using h
    obtain ⟨rfl, h2⟩ := split_at_char pv.1 pw.1 h1
    obtain ⟨rfl, e⟩ := display_inj v w pv.2.1 pw.2.1 _ _ (.inr (.inr ⟨_, rfl⟩)) (.inr (.inr ⟨_, rfl⟩)) h2
    replace e := (List.cons.inj e).2
    have ih := displayEntries_inj vs ws pv.2.2 pw.2.2 r1 r2
    match vs, ws, ih, e with
    | [], [], _, e => simpa using e
    | [], _ :: _, _, e => simp at e
    | _ :: _, [], _, e => simp at e
    | a :: vs, b :: ws, ih, e =>
      have e' : CV.displayEntries (a :: vs) ++ ')' :: r1 = CV.displayEntries (b :: ws) ++ ')' :: r2 := by
        simpa using e
      obtain ⟨e1, rfl⟩ := ih e'
      rw [e1]; exact ⟨rfl, rfl⟩
termination_by es => sizeOf es
end

end Stacks.Clarity

import Mathlib.Tactic.Common
import Verif.Spec.JsonText

/-! The grammar of JSON is unambiguous. -/

namespace Stacks.Spec

/-- A character that is not white space. -/
def NotWs (c : Char) : Prop := c ∉ [' ', '\t', '\n', '\r']

theorem ws_prefix {a b : Str} {c d : Char} {x y : Str} (ha : Ws a) (hb : Ws b)
    (h : a ++ c :: x = b ++ d :: y) (hc : NotWs c) (hd : NotWs d) : a = b ∧ c = d ∧ x = y := by
  induction a generalizing b with
  | nil =>
    cases b with
    | nil => simpa using h
    | cons e b =>
      simp only [List.nil_append, List.cons_append, List.cons.injEq] at h
      exact absurd (hb e (by simp)) (h.1 ▸ hc)
  | cons f a ih =>
    cases b with
    | nil =>
      simp only [List.nil_append, List.cons_append, List.cons.injEq] at h
      exact absurd (ha f (by simp)) (h.1 ▸ hd)
    | cons e b =>
      simp only [List.cons_append, List.cons.injEq] at h
      obtain ⟨h1, h2, h3⟩ := ih (fun c hc => ha c (by simp [hc])) (fun c hc => hb c (by simp [hc])) h.2
      exact ⟨by rw [h.1, h1], h2, h3⟩

theorem hex4_unique {n m : Nat} {h k x y : Str} (h1 : Hex4 n h) (h2 : Hex4 m k)
    (e : h ++ x = k ++ y) : n = m ∧ h = k ∧ x = y := by
  cases h1 with
  | mk a1 a2 a3 a4 =>
  cases h2 with
  | mk b1 b2 b3 b4 =>
  simp only [List.cons_append, List.nil_append, List.cons.injEq] at e
  obtain ⟨rfl, rfl, rfl, rfl, rfl⟩ := e
  rw [a1] at b1; rw [a2] at b2; rw [a3] at b3; rw [a4] at b4
  cases b1; cases b2; cases b3; cases b4
  exact ⟨rfl, rfl, rfl⟩

theorem shortEscapes_fun : ∀ p ∈ shortEscapes, ∀ q ∈ shortEscapes, p.1 = q.1 → p.2 = q.2 := by decide
theorem shortEscapes_u : ∀ p ∈ shortEscapes, p.1 ≠ 'u' := by decide

theorem char_not_surrogate (c : Char) : ¬ (0xd800 ≤ c.toNat ∧ c.toNat < 0xdc00) := by
  have h := c.valid
  simp only [UInt32.isValidChar, Nat.isValidChar] at h
  have : c.toNat = c.val.toNat := rfl
  omega

theorem char_eq_of_toNat {c d : Char} (h : c.toNat = d.toNat) : c = d :=
  Char.ext (UInt32.toNat.inj h)

theorem charText_unique {c d : Char} {w v x y : Str} (h1 : CharText c w) (h2 : CharText d v)
    (e : w ++ x = v ++ y) : c = d ∧ w = v ∧ x = y := by
  cases h1 with
  | plain a1 a2 a3 =>
    cases h2 with
    | plain b1 b2 b3 => simp at e; exact ⟨e.1, by rw [e.1], e.2⟩
    | short b => simp at e; exact absurd e.1 a3
    | unit b => simp at e; exact absurd e.1 a3
    | pair => simp at e; exact absurd e.1 a3
  | short a =>
    cases h2 with
    | plain b1 b2 b3 => simp at e; exact absurd e.1.symm b3
    | short b =>
      simp at e; obtain ⟨rfl, rfl⟩ := e
      exact ⟨shortEscapes_fun _ a _ b rfl, rfl, rfl⟩
    | unit b => simp at e; exact absurd e.1 (shortEscapes_u _ a)
    | pair => simp at e; exact absurd e.1 (shortEscapes_u _ a)
  | unit a =>
    cases h2 with
    | plain b1 b2 b3 => simp at e; exact absurd e.1.symm b3
    | short b => simp at e; exact absurd e.1.symm (shortEscapes_u _ b)
    | unit b =>
      simp at e
      obtain ⟨h1, h2, h3⟩ := hex4_unique a b e
      exact ⟨char_eq_of_toNat h1, by rw [h2], h3⟩
    | pair b1 b2 b3 b4 b5 b6 b7 =>
      simp at e
      obtain ⟨h1, h2, h3⟩ := hex4_unique a b1 e
      exact absurd ⟨h1 ▸ b3, h1 ▸ b4⟩ (char_not_surrogate c)
  | pair a1 a2 a3 a4 a5 a6 a7 =>
    cases h2 with
    | plain b1 b2 b3 => simp at e; exact absurd e.1.symm b3
    | short b => simp at e; exact absurd e.1.symm (shortEscapes_u _ b)
    | unit b =>
      simp at e
      obtain ⟨h1, h2, h3⟩ := hex4_unique a1 b e
      exact absurd ⟨h1 ▸ a3, h1 ▸ a4⟩ (char_not_surrogate d)
    | pair b1 b2 b3 b4 b5 b6 b7 =>
      simp at e
      obtain ⟨h1, h2, h3⟩ := hex4_unique a1 b1 e
      simp at h3
      obtain ⟨h4, h5, h6⟩ := hex4_unique a2 b2 h3
      subst h1 h2 h4 h5
      exact ⟨char_eq_of_toNat (a7.trans b7.symm), rfl, h6⟩

theorem charText_head {c : Char} {w : Str} (h : CharText c w) : ∃ d r, w = d :: r ∧ d ≠ '"' := by
  cases h with
  | plain a b _ => exact ⟨_, _, rfl, b⟩
  | short _ => exact ⟨_, _, rfl, by decide⟩
  | unit _ => exact ⟨_, _, rfl, by decide⟩
  | pair => exact ⟨_, _, rfl, by decide⟩

theorem charsText_unique {s t w v x y : Str} (h1 : CharsText s w) (h2 : CharsText t v)
    (e : w ++ '"' :: x = v ++ '"' :: y) : s = t ∧ w = v ∧ x = y := by
  induction h1 generalizing t v with
  | nil =>
    cases h2 with
    | nil => simpa using e
    | cons b _ =>
      obtain ⟨d, r, rfl, hd⟩ := charText_head b
      simp at e; exact absurd e.1.symm hd
  | cons a _ ih =>
    cases h2 with
    | nil =>
      obtain ⟨d, r, rfl, hd⟩ := charText_head a
      simp at e; exact absurd e.1 hd
    | cons b b' =>
      rw [List.append_assoc, List.append_assoc] at e
      obtain ⟨h1, h2, h3⟩ := charText_unique a b e
      obtain ⟨h4, h5, h6⟩ := ih b' h3
      exact ⟨by rw [h1, h4], by rw [h2, h5], h6⟩

theorem stringText_unique {s t w v x y : Str} (h1 : StringText s w) (h2 : StringText t v)
    (e : w ++ x = v ++ y) : s = t ∧ w = v ∧ x = y := by
  cases h1 with
  | mk a =>
  cases h2 with
  | mk b =>
  simp only [List.cons_append, List.append_assoc, List.nil_append, List.cons.injEq, true_and] at e
  obtain ⟨h1, h2, h3⟩ := charsText_unique a b e
  exact ⟨h1, by rw [h2], h3⟩

theorem stringText_head {s t : Str} (h : StringText s t) : ∃ r, t = '"' :: r := by
  cases h; exact ⟨_, rfl⟩

/-- The characters of numbers. -/
def numberChars : Str := "0123456789+-.eE".toList

theorem number_chars {t : Str} (h : NumberText t) : ∀ c ∈ t, c ∈ numberChars := by
  have dig : ∀ d : Str, Digits d → ∀ c ∈ d, c ∈ numberChars := by
    intro d hd c hc
    have h1 := hd.2 c hc
    have : ∀ c ∈ "0123456789".toList, c ∈ numberChars := by decide
    exact this c h1
  cases h with
  | mk hm hi _ hf he =>
    intro c hc
    simp only [List.mem_append] at hc
    rcases hc with ((hc | hc) | hc) | hc
    · rcases hm with rfl | rfl
      · cases hc
      · rw [List.mem_singleton.1 hc]; decide
    · exact dig _ hi c hc
    · rcases hf with rfl | ⟨d, hd, rfl⟩
      · cases hc
      · rcases List.mem_cons.1 hc with rfl | hc
        · decide
        · exact dig _ hd c hc
    · rcases he with rfl | ⟨x, s, d, hx, hs, hd, rfl⟩
      · cases hc
      · simp only [List.cons_append, List.mem_cons, List.mem_append] at hc
        rcases hc with rfl | hc | hc
        · rcases hx with rfl | rfl <;> decide
        · rcases hs with rfl | rfl | rfl
          · cases hc
          · rw [List.mem_singleton.1 hc]; decide
          · rw [List.mem_singleton.1 hc]; decide
        · exact dig _ hd c hc

theorem number_head {t : Str} (h : NumberText t) : ∃ c r, t = c :: r ∧ c ∈ "-0123456789".toList := by
  cases h with
  | @mk m i f e hm hi _ _ _ =>
    have : ∀ c ∈ "0123456789".toList, c ∈ "-0123456789".toList := by decide
    obtain ⟨hi1, hi2⟩ := hi
    rcases hm with rfl | rfl
    · cases i with
      | nil => exact absurd rfl hi1
      | cons c i => exact ⟨c, _, rfl, this c (hi2 c (by simp))⟩
    · exact ⟨'-', _, rfl, by decide⟩

/-- What may follow a number: anything that does not begin with a character of numbers. -/
def Stop (x : Str) : Prop := ∀ c r, x = c :: r → c ∉ numberChars

theorem number_unique {s t x y : Str} (hs : ∀ c ∈ s, c ∈ numberChars) (ht : ∀ c ∈ t, c ∈ numberChars)
    (e : s ++ x = t ++ y) (hx : Stop x) (hy : Stop y) : s = t ∧ x = y := by
  induction s generalizing t with
  | nil =>
    cases t with
    | nil => exact ⟨rfl, by simpa using e⟩
    | cons c t => exact absurd (ht c (by simp)) (hx c _ e)
  | cons c s ih =>
    cases t with
    | nil => exact absurd (hs c (by simp)) (hy c _ e.symm)
    | cons d t =>
      simp only [List.cons_append, List.cons.injEq] at e
      obtain ⟨h1, h2⟩ := ih (fun c hc => hs c (by simp [hc])) (fun c hc => ht c (by simp [hc])) e.2
      exact ⟨by rw [e.1, h1], h2⟩

/-- Kinds of values, told apart by the first character. -/
def kind : JsonVal → Nat
  | .null => 0
  | .bool true => 1
  | .bool false => 2
  | .number _ => 3
  | .string _ => 4
  | .array _ => 5
  | .object _ => 6

/-- The kind of value a character begins. -/
def charKind (c : Char) : Nat :=
  if c = 'n' then 0 else if c = 't' then 1 else if c = 'f' then 2
  else if c ∈ "-0123456789".toList then 3 else if c = '"' then 4
  else if c = '[' then 5 else if c = '{' then 6 else 7

theorem text_head {v : JsonVal} {t : Str} (h : JsonText v t) :
    ∃ c r, t = c :: r ∧ charKind c = kind v := by
  cases h with
  | null => exact ⟨_, _, rfl, by decide⟩
  | tru => exact ⟨_, _, rfl, by decide⟩
  | fls => exact ⟨_, _, rfl, by decide⟩
  | number h =>
    obtain ⟨c, r, rfl, hc⟩ := number_head h
    have : ∀ c ∈ "-0123456789".toList, charKind c = 3 := by decide
    exact ⟨c, r, rfl, this c hc⟩
  | string h => obtain ⟨r, rfl⟩ := stringText_head h; exact ⟨_, _, rfl, by rw [kind]; decide⟩
  | noItems _ => exact ⟨_, _, rfl, by rw [kind]; decide⟩
  | array _ => exact ⟨_, _, rfl, by rw [kind]; decide⟩
  | noMembers _ => exact ⟨_, _, rfl, by rw [kind]; decide⟩
  | object _ => exact ⟨_, _, rfl, by rw [kind]; decide⟩

theorem kind_lt (v : JsonVal) : kind v < 7 := by
  cases v with
  | bool b => cases b <;> simp [kind]
  | _ => simp [kind]

theorem charKind_ws : ∀ c ∈ [' ', '\t', '\n', '\r'], charKind c = 7 := by decide

theorem head_notWs {v : JsonVal} {c : Char} (h : charKind c = kind v) : NotWs c := by
  intro hc
  have := kind_lt v
  rw [← h, charKind_ws c hc] at this
  omega

theorem ws_stop {b : Str} (hb : Ws b) {c : Char} {x : Str} (hc : c ∉ numberChars) : Stop (b ++ c :: x) := by
  intro d r e
  have : ∀ c ∈ [' ', '\t', '\n', '\r'], c ∉ numberChars := by decide
  cases b with
  | nil => simp at e; rw [← e.1]; exact hc
  | cons f b => simp at e; rw [← e.1]; exact this f (hb f (by simp))

theorem cons_app (c : Char) (a b d : Str) : (c :: a ++ b) ++ d = c :: (a ++ (b ++ d)) := by simp

theorem nw_comma : NotWs ',' := by unfold NotWs; decide
theorem nw_colon : NotWs ':' := by unfold NotWs; decide
theorem nw_quote : NotWs '"' := by unfold NotWs; decide
theorem nw_sq : NotWs ']' := by unfold NotWs; decide
theorem nw_br : NotWs '}' := by unfold NotWs; decide

theorem items_ne {w : Str} {vs : List JsonVal} {t x y : Str} (a : Ws w) (b : ItemsText vs t)
    (e : w ++ ([']'] ++ x) = t ++ ([']'] ++ y)) : False := by
  have key : ∀ {c v u z}, Ws c → JsonText v u → w ++ ']' :: x = c ++ (u ++ z) → False := by
    intro c v u z hc hv e
    obtain ⟨d, r, rfl, hd⟩ := text_head hv
    have := (ws_prefix a hc e nw_sq (head_notWs hd)).2.1
    subst this
    have := kind_lt v
    rw [← hd] at this
    exact absurd this (by decide)
  cases b with
  | one b1 b2 b3 => simp only [List.append_assoc] at e; exact key b1 b2 e
  | more b1 b2 b3 b4 => simp only [List.append_assoc] at e; exact key b1 b2 e

theorem members_ne {w : Str} {es : List (Str × JsonVal)} {t x y : Str} (a : Ws w) (b : MembersText es t)
    (e : w ++ (['}'] ++ x) = t ++ (['}'] ++ y)) : False := by
  have key : ∀ {c k u z}, Ws c → StringText k u → w ++ '}' :: x = c ++ (u ++ z) → False := by
    intro c k u z hc hv e
    obtain ⟨r, rfl⟩ := stringText_head hv
    exact absurd (ws_prefix a hc e nw_br nw_quote).2.1 (by decide)
  cases b with
  | one b1 b2 b3 b4 b5 b6 => simp only [List.append_assoc] at e; exact key b1 b2 e
  | more b1 b2 b3 b4 b5 b6 b7 => simp only [List.append_assoc] at e; exact key b1 b2 e

/-- White space, then a value. -/
theorem value_unique {a b s t : Str} {v w : JsonVal} {x y : Str} (ha : Ws a) (hs : JsonText v s) (hb : Ws b)
    (ht : JsonText w t)
    (ih : ∀ {w t x y}, JsonText w t → s ++ x = t ++ y → Stop x → Stop y → v = w ∧ s = t ∧ x = y)
    (e : a ++ (s ++ x) = b ++ (t ++ y)) (hx : Stop x) (hy : Stop y) :
    a = b ∧ s = t ∧ v = w ∧ x = y := by
  obtain ⟨c, r, rfl, hc⟩ := text_head hs
  obtain ⟨d, q, rfl, hd⟩ := text_head ht
  simp only [List.cons_append] at e
  obtain ⟨h1, h2, h3⟩ := ws_prefix ha hb e (head_notWs hc) (head_notWs hd)
  subst h1 h2
  obtain ⟨h4, h5, h6⟩ := ih ht (by simpa using h3) hx hy
  exact ⟨rfl, h5, h4, h6⟩

/-- White space, a key, white space, a colon. -/
theorem key_unique {a b q p c d : Str} {k l : Str} {x y : Str} (ha : Ws a) (hq : StringText k q) (hc : Ws c)
    (hb : Ws b) (hp : StringText l p) (hd : Ws d)
    (e : a ++ (q ++ (c ++ ':' :: x)) = b ++ (p ++ (d ++ ':' :: y))) :
    a = b ∧ q = p ∧ k = l ∧ c = d ∧ x = y := by
  obtain ⟨r, hr⟩ := stringText_head hq
  obtain ⟨u, hu⟩ := stringText_head hp
  have e' := e
  rw [hr, hu] at e'
  simp only [List.cons_append] at e'
  obtain ⟨rfl, -, -⟩ := ws_prefix ha hb e' nw_quote nw_quote
  obtain ⟨h1, h2, h3⟩ := stringText_unique hq hp (List.append_cancel_left e)
  obtain ⟨h4, -, h5⟩ := ws_prefix hc hd h3 nw_colon nw_colon
  exact ⟨rfl, h2, h1, h4, h5⟩

mutual
theorem text_unique {v : JsonVal} {s : Str} : JsonText v s → ∀ {w t x y}, JsonText w t →
    s ++ x = t ++ y → Stop x → Stop y → v = w ∧ s = t ∧ x = y := by
  intro h w t x y h' e hx hy
  have hk : kind v = kind w := by
    obtain ⟨c, r, h1, h2⟩ := text_head h
    obtain ⟨d, q, h3, h4⟩ := text_head h'
    rw [h1, h3] at e
    simp only [List.cons_append, List.cons.injEq] at e
    rw [← h2, ← h4, e.1]
  match h with
  | .null =>
    cases h' <;> simp [kind] at hk
    exact ⟨rfl, rfl, List.append_cancel_left e⟩
  | .tru =>
    cases h' <;> simp [kind] at hk
    exact ⟨rfl, rfl, List.append_cancel_left e⟩
  | .fls =>
    cases h' <;> simp [kind] at hk
    exact ⟨rfl, rfl, List.append_cancel_left e⟩
  | .number a =>
    cases h' <;> simp [kind] at hk
    rename_i b
    obtain ⟨h1, h2⟩ := number_unique (number_chars a) (number_chars b) e hx hy
    exact ⟨by rw [h1], h1, h2⟩
  | .string a =>
    cases h' <;> simp [kind] at hk
    rename_i b
    obtain ⟨h1, h2, h3⟩ := stringText_unique a b e
    exact ⟨by rw [h1], h2, h3⟩
  | .noItems a =>
    cases h' with
    | noItems b =>
      rw [cons_app, cons_app] at e
      obtain ⟨h1, -, h3⟩ := ws_prefix a b (List.cons.inj e).2 nw_sq nw_sq
      exact ⟨rfl, by rw [h1], h3⟩
    | array b =>
      rw [cons_app, cons_app] at e
      exact (items_ne a b (List.cons.inj e).2).elim
    | null => simp [kind] at hk
    | tru => simp [kind] at hk
    | fls => simp [kind] at hk
    | number => simp [kind] at hk
    | string => simp [kind] at hk
    | noMembers => simp [kind] at hk
    | object => simp [kind] at hk
  | .array a =>
    cases h' with
    | noItems b =>
      rw [cons_app, cons_app] at e
      exact (items_ne b a (List.cons.inj e).2.symm).elim
    | array b =>
      rw [cons_app, cons_app] at e
      obtain ⟨h1, h2, h3⟩ := items_unique a b (List.cons.inj e).2
      exact ⟨by rw [h1], by rw [h2], h3⟩
    | null => simp [kind] at hk
    | tru => simp [kind] at hk
    | fls => simp [kind] at hk
    | number => simp [kind] at hk
    | string => simp [kind] at hk
    | noMembers => simp [kind] at hk
    | object => simp [kind] at hk
  | .noMembers a =>
    cases h' with
    | noMembers b =>
      rw [cons_app, cons_app] at e
      obtain ⟨h1, -, h3⟩ := ws_prefix a b (List.cons.inj e).2 nw_br nw_br
      exact ⟨rfl, by rw [h1], h3⟩
    | object b =>
      rw [cons_app, cons_app] at e
      exact (members_ne a b (List.cons.inj e).2).elim
    | null => simp [kind] at hk
    | tru => simp [kind] at hk
    | fls => simp [kind] at hk
    | number => simp [kind] at hk
    | string => simp [kind] at hk
    | noItems => simp [kind] at hk
    | array => simp [kind] at hk
  | .object a =>
    cases h' with
    | noMembers b =>
      rw [cons_app, cons_app] at e
      exact (members_ne b a (List.cons.inj e).2.symm).elim
    | object b =>
      rw [cons_app, cons_app] at e
      obtain ⟨h1, h2, h3⟩ := members_unique a b (List.cons.inj e).2
      exact ⟨by rw [h1], by rw [h2], h3⟩
    | null => simp [kind] at hk
    | tru => simp [kind] at hk
    | fls => simp [kind] at hk
    | number => simp [kind] at hk
    | string => simp [kind] at hk
    | noItems => simp [kind] at hk
    | array => simp [kind] at hk
theorem items_unique {vs : List JsonVal} {s : Str} : ItemsText vs s → ∀ {ws t x y}, ItemsText ws t →
    s ++ ']' :: x = t ++ ']' :: y → vs = ws ∧ s = t ∧ x = y := by
  intro h ws t x y h' e
  match h with
  | .one a1 a2 a3 =>
    cases h' with
    | one b1 b2 b3 =>
      simp only [List.append_assoc] at e
      obtain ⟨rfl, rfl, e2⟩ := value_unique a1 a2 b1 b2 (text_unique a2) e
        (ws_stop a3 (by decide)) (ws_stop b3 (by decide))
      obtain ⟨rfl, -, rfl⟩ := ws_prefix a3 b3 e2.2 nw_sq nw_sq
      exact ⟨by rw [e2.1], rfl, rfl⟩
    | more b1 b2 b3 b4 =>
      simp only [List.append_assoc, List.cons_append] at e
      obtain ⟨rfl, rfl, e2⟩ := value_unique a1 a2 b1 b2 (text_unique a2) e
        (ws_stop a3 (by decide)) (ws_stop b3 (by decide))
      have := (ws_prefix a3 b3 e2.2 nw_sq nw_comma).2.1
      exact absurd this (by decide)
  | .more a1 a2 a3 a4 =>
    cases h' with
    | one b1 b2 b3 =>
      simp only [List.append_assoc, List.cons_append] at e
      obtain ⟨rfl, rfl, e2⟩ := value_unique a1 a2 b1 b2 (text_unique a2) e
        (ws_stop a3 (by decide)) (ws_stop b3 (by decide))
      have := (ws_prefix a3 b3 e2.2 nw_comma nw_sq).2.1
      exact absurd this (by decide)
    | more b1 b2 b3 b4 =>
      simp only [List.append_assoc, List.cons_append] at e
      obtain ⟨rfl, rfl, e2⟩ := value_unique a1 a2 b1 b2 (text_unique a2) e
        (ws_stop a3 (by decide)) (ws_stop b3 (by decide))
      obtain ⟨rfl, -, h3⟩ := ws_prefix a3 b3 e2.2 nw_comma nw_comma
      obtain ⟨rfl, rfl, rfl⟩ := items_unique a4 b4 h3
      exact ⟨by rw [e2.1], rfl, rfl⟩
theorem members_unique {es : List (Str × JsonVal)} {s : Str} : MembersText es s →
    ∀ {fs t x y}, MembersText fs t → s ++ '}' :: x = t ++ '}' :: y → es = fs ∧ s = t ∧ x = y := by
  intro h fs t x y h' e
  match h with
  | .one a1 a2 a3 a4 a5 a6 =>
    cases h' with
    | one b1 b2 b3 b4 b5 b6 =>
      simp only [List.append_assoc, List.cons_append] at e
      obtain ⟨rfl, rfl, rfl, rfl, e1⟩ := key_unique a1 a2 a3 b1 b2 b3 e
      obtain ⟨rfl, rfl, e2⟩ := value_unique a4 a5 b4 b5 (text_unique a5) e1
        (ws_stop a6 (by decide)) (ws_stop b6 (by decide))
      obtain ⟨rfl, -, rfl⟩ := ws_prefix a6 b6 e2.2 nw_br nw_br
      exact ⟨by rw [e2.1], rfl, rfl⟩
    | more b1 b2 b3 b4 b5 b6 b7 =>
      simp only [List.append_assoc, List.cons_append] at e
      obtain ⟨rfl, rfl, rfl, rfl, e1⟩ := key_unique a1 a2 a3 b1 b2 b3 e
      obtain ⟨rfl, rfl, e2⟩ := value_unique a4 a5 b4 b5 (text_unique a5) e1
        (ws_stop a6 (by decide)) (ws_stop b6 (by decide))
      have := (ws_prefix a6 b6 e2.2 nw_br nw_comma).2.1
      exact absurd this (by decide)
  | .more a1 a2 a3 a4 a5 a6 a7 =>
    cases h' with
    | one b1 b2 b3 b4 b5 b6 =>
      simp only [List.append_assoc, List.cons_append] at e
      obtain ⟨rfl, rfl, rfl, rfl, e1⟩ := key_unique a1 a2 a3 b1 b2 b3 e
      obtain ⟨rfl, rfl, e2⟩ := value_unique a4 a5 b4 b5 (text_unique a5) e1
        (ws_stop a6 (by decide)) (ws_stop b6 (by decide))
      have := (ws_prefix a6 b6 e2.2 nw_comma nw_br).2.1
      exact absurd this (by decide)
    | more b1 b2 b3 b4 b5 b6 b7 =>
      simp only [List.append_assoc, List.cons_append] at e
      obtain ⟨rfl, rfl, rfl, rfl, e1⟩ := key_unique a1 a2 a3 b1 b2 b3 e
      obtain ⟨rfl, rfl, e2⟩ := value_unique a4 a5 b4 b5 (text_unique a5) e1
        (ws_stop a6 (by decide)) (ws_stop b6 (by decide))
      obtain ⟨rfl, -, h3⟩ := ws_prefix a6 b6 e2.2 nw_comma nw_comma
      obtain ⟨rfl, rfl, rfl⟩ := members_unique a7 b7 h3
      exact ⟨by rw [e2.1], rfl, rfl⟩
end

/-- A text is a way to write at most one value. -/
theorem document_unique {v w : JsonVal} {t : Str} (h : Document v t) (h' : Document w t) : v = w := by
  obtain ⟨a, s, b, h1, h2, h3, rfl⟩ := h
  obtain ⟨c, u, d, g1, g2, g3, e⟩ := h'
  have stop : ∀ {b : Str}, Ws b → Stop b := by
    intro b hb c r e
    have : ∀ c ∈ [' ', '\t', '\n', '\r'], c ∉ numberChars := by decide
    exact this c (hb c (by rw [e]; simp))
  simp only [List.append_assoc] at e
  exact (value_unique h1 h2 g1 g2 (text_unique h2) e (stop h3) (stop g3)).2.2.1

end Stacks.Spec

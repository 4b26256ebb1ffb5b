import Verif.Spec.ErrorText
import Verif.Proofs.Debug

/-! # Lemmas about the texts of errors -/

namespace Stacks
open Spec Clarity

theorem split_at_last {c : Char} {a a' b b' : Str} (h : c ∉ b) (h' : c ∉ b')
    (e : a ++ c :: b = a' ++ c :: b') : a = a' ∧ b = b' := by
  have e2 : b.reverse ++ c :: a.reverse = b'.reverse ++ c :: a'.reverse := by
    have := congrArg List.reverse e
    simpa using this
  obtain ⟨h1, h2⟩ := split_at_char (by simpa using h) (by simpa using h') e2
  exact ⟨List.reverse_inj.1 h2, List.reverse_inj.1 h1⟩

theorem showNat_inj {m n : Nat} (h : showNat m = showNat n) : m = n := digits_inj h
theorem notMem_showNat {c : Char} (n : Nat) (hc : c.isDigit = false) : c ∉ showNat n := char_notMem_digits n hc

theorem showNat_u8_inj {a b : UInt8} (h : showNat a.toNat = showNat b.toNat) : a = b :=
  UInt8.toNat_inj.1 (showNat_inj h)

def inner (bs : Bytes) : Str := List.intercalate ", ".toList (bs.map fun b => Nat.toDigits 10 b.toNat)

theorem inner_nil : inner [] = [] := rfl
theorem inner_one (b : UInt8) : inner [b] = showNat b.toNat := by
  simp [inner, List.intercalate, showNat]
theorem inner_cons (b c : UInt8) (bs : Bytes) :
    inner (b :: c :: bs) = showNat b.toNat ++ ',' :: ' ' :: inner (c :: bs) := by
  simp [inner, List.intercalate, showNat]

theorem inner_ne_nil (b : UInt8) (bs : Bytes) : inner (b :: bs) ≠ [] := by
  obtain ⟨c, t, h, _⟩ := digits_cons b.toNat
  cases bs with
  | nil => rw [inner_one, showNat, h]; simp
  | cons => rw [inner_cons, showNat, h]; simp

theorem notMem_inner {c : Char} (hc : c.isDigit = false) (h1 : c ≠ ',') (h2 : c ≠ ' ') :
    (bs : Bytes) → c ∉ inner bs
  | [] => by simp [inner_nil]
  | [b] => by rw [inner_one]; exact notMem_showNat _ hc
  | b :: d :: bs => by
    rw [inner_cons]
    have := notMem_inner hc h1 h2 (d :: bs)
    simp [h1, h2, this, notMem_showNat _ hc]

theorem inner_inj : (a b : Bytes) → inner a = inner b → a = b
  | [], [], _ => rfl
  | [], b :: bs, h => absurd h.symm (inner_ne_nil b bs)
  | a :: as, [], h => absurd h (inner_ne_nil a as)
  | [a], [b], h => by
    rw [inner_one, inner_one] at h; rw [showNat_u8_inj h]
  | [a], b :: c :: bs, h => by
    rw [inner_one, inner_cons] at h
    have : ',' ∈ showNat a.toNat := by rw [h]; simp
    exact absurd this (notMem_showNat _ (by decide))
  | a :: c :: as, [b], h => by
    rw [inner_one, inner_cons] at h
    have : ',' ∈ showNat b.toNat := by rw [← h]; simp
    exact absurd this (notMem_showNat _ (by decide))
  | a :: c :: as, b :: d :: bs, h => by
    rw [inner_cons, inner_cons] at h
    obtain ⟨e, e2⟩ := split_at_char (notMem_showNat _ (by decide)) (notMem_showNat _ (by decide)) h
    rw [showNat_u8_inj e, inner_inj (c :: as) (d :: bs) (List.cons.inj e2).2]

theorem debugBytes_eq (bs : Bytes) (r : Str) : B58.debugBytes bs ++ r = '[' :: (inner bs ++ ']' :: r) := by
  rw [B58.debugBytes, inner]
  simp

theorem debugBytes_inj {a b : Bytes} {r r' : Str} (h : B58.debugBytes a ++ r = B58.debugBytes b ++ r') :
    a = b ∧ r = r' := by
  rw [debugBytes_eq, debugBytes_eq] at h
  obtain ⟨e, e2⟩ := split_at_char (notMem_inner (by decide) (by decide) (by decide) _)
    (notMem_inner (by decide) (by decide) (by decide) _) (List.cons.inj h).2
  exact ⟨inner_inj _ _ e, e2⟩

theorem Hex.Error.text_inj : Identifies Hex.Error.text (fun _ => True) := by
  intro e e' s _ _ h h'
  rw [← h'] at h
  cases e <;> cases e' <;> simp [Hex.Error.text] at h ⊢
  rename_i a n b m
  obtain ⟨e1, e2⟩ := split_at_last (c := ' ') (a := a ++ " with length".toList) (a' := b ++ " with length".toList)
    (notMem_showNat n (by decide)) (notMem_showNat m (by decide)) (by simpa using h)
  exact ⟨List.append_cancel_right e1, showNat_inj e2⟩

theorem B58.Error.text_inj : Identifies B58.Error.text BytesShown := by
  intro e e' s c c' h h'
  rw [← h'] at h
  cases e <;> cases e' <;> simp [B58.Error.text] at h ⊢ <;> try exact h
  · obtain ⟨x, rfl⟩ := c
    obtain ⟨y, rfl⟩ := c'
    obtain ⟨rfl, e⟩ := debugBytes_inj h
    exact ⟨rfl, by simpa using e⟩
  · exact showNat_u8_inj h

theorem C32.Error.text_inj : Identifies C32.Error.text (fun _ => True) := by
  intro e e' s _ _ h h'
  rw [← h'] at h
  cases e <;> cases e' <;> simp [C32.Error.text] at h h' ⊢ <;> try exact h
  · obtain ⟨e1, e2⟩ := debugBytes_inj h
    simp at e2
    exact ⟨Subtype.ext e1, (debugBytes_inj (r := []) (r' := []) (by rw [e2])).1⟩
  · exact showNat_u8_inj h

theorem Clarity.Error.text_inj : Identifies Clarity.Error.text (fun _ => True) := by
  intro e e' s _ _ h h'
  have key := C32.Error.text_inj
  rw [← h'] at h
  cases e with
  | c32 a =>
    cases e' with
    | c32 b =>
      have h1 : a.text = some s := by rw [← h', ← h]; rfl
      exact congrArg _ (key a b s trivial trivial h1 h')
    | _ => cases a <;> simp [Clarity.Error.text, C32.Error.text] at h h'
  | badStringLength n m =>
    cases e' with
    | badStringLength n' m' =>
      simp [Clarity.Error.text] at h
      obtain ⟨e1, e2⟩ := split_at_char (notMem_showNat n (by decide)) (notMem_showNat n' (by decide)) h
      simp at e2
      rw [showNat_inj e1, showNat_inj e2]
    | c32 b => cases b <;> simp [Clarity.Error.text, C32.Error.text] at h
    | _ => simp [Clarity.Error.text] at h
  | badIdentifier n m =>
    cases e' with
    | badIdentifier n' m' =>
      simp [Clarity.Error.text] at h
      obtain ⟨e1, e2⟩ := split_at_char (notMem_showNat n.toNat (by decide)) (notMem_showNat n'.toNat (by decide)) h
      simp at e2
      rw [showNat_u8_inj e1, showNat_u8_inj e2]
    | c32 b => cases b <;> simp [Clarity.Error.text, C32.Error.text] at h
    | _ => simp [Clarity.Error.text] at h
  | _ =>
    cases e' with
    | c32 b => cases b <;> simp [Clarity.Error.text, C32.Error.text] at h h'
    | _ =>
      simp [Clarity.Error.text] at h h' ⊢
      try first | exact showNat_u8_inj h | exact h

theorem HashError.text_inj {E : Type} : Identifies (HashError.text (E := E)) (fun _ => True) := by
  intro e e' s _ _ h h'
  rw [← h'] at h
  cases e <;> cases e' <;> simp [HashError.text] at h h' ⊢
  exact showNat_inj h

/-- The first letters of the texts that are shown through. -/
theorem Clarity.Error.text_head {e : Clarity.Error} {s : Str} (h : e.text = some s) :
    ∃ t, s = 'B' :: 'a' :: t ∨ s = 'U' :: 'n' :: t := by
  cases e with
  | c32 a => cases a <;> simp [Clarity.Error.text, C32.Error.text] at h <;> subst h <;> simp
  | _ => simp [Clarity.Error.text] at h <;> subst h <;> simp

theorem HashError.text_head {E : Type} {e : HashError E} {s : Str} (h : e.text = some s) :
    ∃ t, s = "Invalid m".toList ++ t := by
  cases e <;> simp [HashError.text] at h
  subst h; simp

theorem Tx.Error.text_inj {E : Type} : Identifies (Tx.Error.text (E := E)) HashShown := by
  intro e e' s c c' h h'
  cases e with
  | clarity a =>
    obtain ⟨t, ht⟩ := Clarity.Error.text_head (show a.text = some s from h)
    cases e' with
    | clarity b => exact congrArg _ (Clarity.Error.text_inj a b s trivial trivial h h')
    | hash b =>
      obtain ⟨u, hu⟩ := HashError.text_head (show b.text = some s from h')
      rcases ht with rfl | rfl <;> simp at hu
    | _ => rcases ht with rfl | rfl <;> simp [Tx.Error.text] at h'
  | hash a =>
    obtain ⟨t, ht⟩ := HashError.text_head (show a.text = some s from h)
    cases e' with
    | hash b => exact congrArg _ (HashError.text_inj a b s trivial trivial h h')
    | clarity b =>
      obtain ⟨u, hu⟩ := Clarity.Error.text_head (show b.text = some s from h')
      subst ht
      rcases hu with hu | hu <;> simp at hu
    | _ => subst ht; simp [Tx.Error.text] at h'
  | badSigner a b =>
    cases e' with
    | clarity b =>
      obtain ⟨t, ht⟩ := Clarity.Error.text_head (show b.text = some s from h')
      rcases ht with rfl | rfl <;> simp [Tx.Error.text] at h
    | hash b =>
      obtain ⟨u, rfl⟩ := HashError.text_head (show b.text = some s from h')
      simp [Tx.Error.text] at h
    | badSigner a' b' =>
      rw [← h'] at h
      simp [Tx.Error.text] at h
      obtain ⟨e1, e2⟩ := split_at_char c c' h
      simp at e2
      rw [e1, e2]
    | _ => rw [← h'] at h; simp [Tx.Error.text] at h
  | badSignatureCount a b =>
    cases e' with
    | clarity b =>
      obtain ⟨t, ht⟩ := Clarity.Error.text_head (show b.text = some s from h')
      rcases ht with rfl | rfl <;> simp [Tx.Error.text] at h
    | hash b =>
      obtain ⟨u, rfl⟩ := HashError.text_head (show b.text = some s from h')
      simp [Tx.Error.text] at h
    | badSignatureCount a' b' =>
      rw [← h'] at h
      simp [Tx.Error.text] at h
      obtain ⟨e1, e2⟩ := split_at_char (notMem_showNat _ (by decide)) (notMem_showNat _ (by decide)) h
      simp at e2
      rw [showNat_u8_inj e1, showNat_u8_inj e2]
    | _ => rw [← h'] at h; simp [Tx.Error.text] at h
  | _ =>
    cases e' with
    | clarity b =>
      obtain ⟨t, ht⟩ := Clarity.Error.text_head (show b.text = some s from h')
      rcases ht with rfl | rfl <;> simp [Tx.Error.text] at h
    | hash b =>
      obtain ⟨u, rfl⟩ := HashError.text_head (show b.text = some s from h')
      simp [Tx.Error.text] at h
    | _ =>
      first
      | rfl
      | (rw [← h'] at h; simp [Tx.Error.text] at h h')

theorem Derive.Error.display_cast (k t i : Str) : (Derive.Error.cast k t i).display =
    "Failed to cast field '".toList ++ k ++ "' as '".toList ++ t ++ "' on struct '".toList ++ i ++ "'".toList := rfl
theorem Derive.Error.display_extract (k i : Str) : (Derive.Error.extract k i).display =
    "Failed to extract value for field '".toList ++ k ++ "' on '".toList ++ i ++ "'".toList := rfl
theorem Derive.Error.display_match (k i : Str) : (Derive.Error.match k i).display =
    "Failed to match value for field '".toList ++ k ++ "' on '".toList ++ i ++ "'".toList := rfl

attribute [local irreducible] Derive.Error.display

theorem Derive.Error.text_inj : Identifies (fun e => some (Derive.Error.display e)) NamesShown := by
  intro e e' s c c' h h'
  replace h : e.display = e'.display := Option.some.inj (h.trans h'.symm)
  clear h'
  have quote : ∀ {a a' b b' : Str}, '\'' ∉ a → '\'' ∉ a' → a ++ '\'' :: b = a' ++ '\'' :: b' → a = a' ∧ b = b' :=
    fun h h' => split_at_char h h'
  cases e with
  | cast k t i =>
    cases e' with
    | cast k' t' i' =>
      simp only [Derive.Error.display_cast, List.append_assoc] at h
      obtain ⟨e1, e2⟩ := quote (b := " as '".toList ++ (t ++ ("' on struct '".toList ++ (i ++ "'".toList))))
        (b' := " as '".toList ++ (t' ++ ("' on struct '".toList ++ (i' ++ "'".toList)))) c.1 c'.1
        (by simpa using h)
      have e3 : (t ++ "' on struct ".toList) ++ '\'' :: i = (t' ++ "' on struct ".toList) ++ '\'' :: i' :=
        List.append_cancel_right (bs := ['\'']) (by simpa using e2)
      obtain ⟨e4, e5⟩ := split_at_last c.2 c'.2 e3
      rw [e1, List.append_cancel_right e4, e5]
    | _ => simp [Derive.Error.display_cast, Derive.Error.display_extract, Derive.Error.display_match] at h
  | extract k i =>
    cases e' with
    | extract k' i' =>
      obtain ⟨e1, e2⟩ := quote (b := " on '".toList ++ (i ++ "'".toList))
        (b' := " on '".toList ++ (i' ++ "'".toList)) c.1 c'.1 (by simpa [Derive.Error.display_cast, Derive.Error.display_extract, Derive.Error.display_match] using h)
      rw [e1, List.append_cancel_right (List.append_cancel_left e2)]
    | _ => simp [Derive.Error.display_cast, Derive.Error.display_extract, Derive.Error.display_match] at h
  | «match» k i =>
    cases e' with
    | «match» k' i' =>
      obtain ⟨e1, e2⟩ := quote (b := " on '".toList ++ (i ++ "'".toList))
        (b' := " on '".toList ++ (i' ++ "'".toList)) c.1 c'.1 (by simpa [Derive.Error.display_cast, Derive.Error.display_extract, Derive.Error.display_match] using h)
      rw [e1, List.append_cancel_right (List.append_cancel_left e2)]
    | _ => simp [Derive.Error.display_cast, Derive.Error.display_extract, Derive.Error.display_match] at h

/-- An outcome whose errors show bytes. -/
def Shows {α : Type} (o : Outcome B58.Error α) : Prop := ∀ e, o = .err e → BytesShown e

theorem Shows.bind {α β : Type} {o : Outcome B58.Error α} {f : α → Outcome B58.Error β} (h : Shows o)
    (hf : ∀ a, Shows (f a)) : Shows (o >>= f) := by
  intro e he
  cases o with
  | ok a => exact hf a e he
  | err x =>
    injection he with he
    subst he
    exact h x rfl
  | panic => cases he

theorem Shows.ok {α : Type} (a : α) : Shows (.ok a) := fun _ h => by cases h
theorem Shows.panic {α : Type} : Shows (.panic : Outcome B58.Error α) := fun _ h => by cases h
theorem Shows.orPanic {α : Type} (o : Option α) : Shows (Outcome.orPanic o) := by
  cases o with
  | none => exact .panic
  | some a => exact .ok a

theorem Shows.mulAdd : (b : Bytes) → (n : Nat) → Shows (B58.mulAdd b n)
  | [], _ => .ok _
  | b :: bs, n => by
    unfold B58.mulAdd
    refine .bind ?_ fun _ => .bind (.mulAdd _ _) fun _ => .ok _
    unfold B58.u32; split
    · exact .ok _
    · exact .panic

theorem Shows.decodeLoop : (s : Str) → (buff : Bytes) → Shows (B58.decodeLoop buff s)
  | [], _ => .ok _
  | c :: s, buff => by
    unfold B58.decodeLoop
    refine .bind (.orPanic _) fun i => ?_
    split
    · intro e h; cases h; trivial
    · refine .bind ?_ fun _ => .bind (.mulAdd _ _) fun _ => .decodeLoop _ _
      split
      · exact .ok _
      · intro e h; cases h; trivial

theorem Shows.checksumLoop (a b : Bytes) : (is : List Nat) → Shows (B58.checksumLoop a b is)
  | [] => .ok _
  | i :: is => by
    unfold B58.checksumLoop
    refine .bind (.orPanic _) fun _ => .bind (.orPanic _) fun _ => ?_
    split
    · intro e h; cases h; exact ⟨_, rfl⟩
    · exact .checksumLoop a b is

end Stacks

import Verif.Spec.JsonBody
import Verif.Model.JsonText
import Verif.Proofs.JsonText
import Verif.Proofs.Literal

/-! The text `serde_json` writes is a document for the value meant. -/

namespace Stacks.Spec
open Stacks.Rpc Stacks.Clarity

theorem charText_escape (c : Char) : CharText c (escapeChar c) := by
  unfold escapeChar
  split
  · subst c; exact .short (by decide)
  split
  · subst c; exact .short (by decide)
  split
  · subst c; exact .short (by decide)
  split
  · subst c; exact .short (by decide)
  split
  · subst c; exact .short (by decide)
  split
  · subst c; exact .short (by decide)
  split
  · subst c; exact .short (by decide)
  split
  · rename_i hq hb _ _ _ _ _ hlt
    have key : ∀ n < 0x20, hexValue (Nat.digitChar (n / 16)) = some (n / 16) ∧
        hexValue (Nat.digitChar (n % 16)) = some (n % 16) := by decide
    obtain ⟨h1, h2⟩ := key _ hlt
    have h := Hex4.mk (a := '0') (b := '0') (i := 0) (j := 0) (by decide) (by decide) h1 h2
    have e : ((0 * 16 + 0) * 16 + c.toNat / 16) * 16 + c.toNat % 16 = c.toNat := by omega
    rw [e] at h
    exact .unit h
  · rename_i hq hb _ _ _ _ _ hlt
    exact .plain (by omega) hq hb

theorem charsText_escape (s : Str) : CharsText s (s.flatMap escapeChar) := by
  induction s with
  | nil => exact .nil
  | cons c s ih => rw [List.flatMap_cons]; exact .cons (charText_escape c) ih

theorem stringText_ok (s : Str) : StringText s (stringText s) := .mk (charsText_escape s)

theorem number_of_decimal {s : Str} {n : Nat} (h : Decimal s n) : NumberText s := by
  have := NumberText.mk (m := []) (i := s) (f := []) (e := []) (.inl rfl) ⟨h.1, h.2.1⟩ h.2.2.1 (.inl rfl) (.inl rfl)
  simpa using this

theorem number_of_signed {s : Str} {i : Int} (h : SignedDecimal s i) : NumberText s := by
  rcases h with ⟨_, h⟩ | ⟨_, t, rfl, h⟩
  · exact number_of_decimal h
  · have := NumberText.mk (m := ['-']) (i := t) (f := []) (e := []) (.inr rfl) ⟨h.1, h.2.1⟩ h.2.2.1 (.inl rfl) (.inl rfl)
    simpa using this

theorem ws_nil : Ws [] := fun _ h => by cases h

/-- Floats are written as JSON numbers, and as what is given to be meant by them. -/
def FloatsOk {F : Type} (IsFloat : F → Str → Prop) (fl : F → Str) : Prop :=
  ∀ f, IsFloat f (fl f) ∧ NumberText (fl f)

variable {F : Type} {IsFloat : F → Str → Prop} {fl : F → Str}

mutual
theorem text_ok (hf : FloatsOk IsFloat fl) : (j : Json F) → ∃ v, Meant IsFloat j v ∧ JsonText v (j.text fl)
  | .null => ⟨_, .null, .null⟩
  | .bool true => ⟨_, .bool _, .tru⟩
  | .bool false => ⟨_, .bool _, .fls⟩
  | .num n => by
    rw [Json.text]
    exact ⟨_, .num (decimal_toDigits n), .number (number_of_decimal (decimal_toDigits n))⟩
  | .neg i => by
    rw [Json.text]
    have h : SignedDecimal (if i < 0 then '-' :: Nat.toDigits 10 i.natAbs else Nat.toDigits 10 i.natAbs) i :=
      signedDecimal_iff.2 rfl
    exact ⟨_, .neg h, .number (number_of_signed h)⟩
  | .float f => by
    rw [Json.text]
    exact ⟨_, .float (hf f).1, .number (hf f).2⟩
  | .str s => by
    rw [Json.text]
    exact ⟨_, .str s, .string (stringText_ok s)⟩
  | .arr [] => by
    rw [Json.text, Json.itemsText]
    exact ⟨_, .arr .nil, .noItems ws_nil⟩
  | .arr (x :: xs) => by
    rw [Json.text]
    obtain ⟨vs, h1, h2⟩ := items_ok hf (x :: xs) (by simp)
    exact ⟨_, .arr h1, .array h2⟩
  | .obj [] => by
    rw [Json.text, Json.membersText]
    exact ⟨_, .obj .nil, .noMembers ws_nil⟩
  | .obj (e :: es) => by
    rw [Json.text]
    obtain ⟨vs, h1, h2⟩ := members_ok hf (e :: es) (by simp)
    exact ⟨_, .obj h1, .object h2⟩
theorem items_ok (hf : FloatsOk IsFloat fl) : (xs : List (Json F)) → xs ≠ [] →
    ∃ vs, MeantAll IsFloat xs vs ∧ ItemsText vs (Json.itemsText fl xs)
  | [], h => absurd rfl h
  | [x], _ => by
    rw [Json.itemsText]
    obtain ⟨v, h1, h2⟩ := text_ok hf x
    have := ItemsText.one ws_nil h2 ws_nil
    exact ⟨[v], .cons h1 .nil, by simpa using this⟩
  | x :: y :: ys, _ => by
    rw [Json.itemsText]
    obtain ⟨v, h1, h2⟩ := text_ok hf x
    obtain ⟨vs, h3, h4⟩ := items_ok hf (y :: ys) (by simp)
    have := ItemsText.more ws_nil h2 ws_nil h4
    exact ⟨v :: vs, .cons h1 h3, by simpa using this⟩
theorem members_ok (hf : FloatsOk IsFloat fl) : (es : List (Str × Json F)) → es ≠ [] →
    ∃ fs, MeantMembers IsFloat es fs ∧ MembersText fs (Json.membersText fl es)
  | [], h => absurd rfl h
  | [(k, x)], _ => by
    rw [Json.membersText]
    obtain ⟨v, h1, h2⟩ := text_ok hf x
    have := MembersText.one ws_nil (stringText_ok k) ws_nil ws_nil h2 ws_nil
    exact ⟨[(k, v)], .cons h1 .nil, by simpa using this⟩
  | (k, x) :: e :: es, _ => by
    rw [Json.membersText]
    obtain ⟨v, h1, h2⟩ := text_ok hf x
    obtain ⟨vs, h3, h4⟩ := members_ok hf (e :: es) (by simp)
    have := MembersText.more ws_nil (stringText_ok k) ws_nil ws_nil h2 ws_nil h4
    exact ⟨(k, v) :: vs, .cons h1 h3, by simpa using this⟩
end

theorem document_text (hf : FloatsOk IsFloat fl) (j : Json F) :
    ∃ v, Meant IsFloat j v ∧ Document v (j.text fl) := by
  obtain ⟨v, h1, h2⟩ := text_ok hf j
  exact ⟨v, h1, [], _, [], ws_nil, h2, ws_nil, by simp⟩

theorem meantAll_str {ss : List Str} : ∀ {vs}, MeantAll IsFloat (ss.map Json.str) vs → vs = ss.map JsonVal.string := by
  induction ss with
  | nil => intro vs h; cases h; rfl
  | cons s ss ih =>
    intro vs h
    cases h with
    | cons h1 h2 => cases h1; rw [ih h2]; rfl

theorem itemsText_str (fl' : F → Str) (ss : List Str) :
    Json.itemsText fl (ss.map Json.str) = Json.itemsText fl' (ss.map Json.str) := by
  induction ss with
  | nil => simp only [List.map_nil, Json.itemsText]
  | cons s ss ih =>
    cases ss with
    | nil => simp only [List.map_cons, List.map_nil, Json.itemsText, Json.text]
    | cons u us =>
      simp only [List.map_cons] at ih ⊢
      rw [Json.itemsText, Json.itemsText, ih, Json.text, Json.text]

theorem zero_decimal : Decimal "0".toList 0 := ⟨by decide, by decide, by decide, by decide⟩

theorem zeros_ok : FloatsOk (F := F) (fun _ _ => True) (fun _ => "0".toList) := fun _ =>
  ⟨trivial, number_of_decimal zero_decimal⟩

/-- A value whose text does not depend on how floats are written. -/
theorem document_plain (j : Json F) (h : ∀ fl' : F → Str, j.text fl = j.text fl') :
    ∃ v, Meant (fun _ _ => True) j v ∧ Document v (j.text fl) := by
  rw [h (fun _ => "0".toList)]
  exact document_text zeros_ok j

theorem membersText_plain (fl' : F → Str) : (es : List (Str × Json F)) →
    (∀ e ∈ es, e.2.text fl = e.2.text fl') → Json.membersText fl es = Json.membersText fl' es
  | [], _ => by simp only [Json.membersText]
  | [(k, v)], h => by
    have := h (k, v) (by simp)
    simp only at this
    rw [Json.membersText, Json.membersText, this]
  | (k, v) :: e :: es, h => by
    have h1 := h (k, v) (by simp)
    simp only at h1
    rw [Json.membersText, Json.membersText, h1,
      membersText_plain fl' (e :: es) (fun f hf => h f (List.mem_cons_of_mem _ hf))]

theorem meantMembers_perm {es es' : List (Str × Json F)} (hp : es.Perm es') :
    ∀ {fs}, MeantMembers IsFloat es fs → ∃ fs', fs.Perm fs' ∧ MeantMembers IsFloat es' fs' := by
  induction hp with
  | nil => intro fs h; exact ⟨fs, .refl _, h⟩
  | cons x _ ih =>
    intro fs h
    cases h with
    | cons h1 h2 =>
      obtain ⟨fs', h3, h4⟩ := ih h2
      exact ⟨_, h3.cons _, .cons h1 h4⟩
  | swap x y l =>
    intro fs h
    cases h with
    | cons h1 h2 =>
      cases h2 with
      | cons h3 h4 => exact ⟨_, List.Perm.swap _ _ _, .cons h3 (.cons h1 h4)⟩
  | trans _ _ ih1 ih2 =>
    intro fs h
    obtain ⟨a, h1, h2⟩ := ih1 h
    obtain ⟨b, h3, h4⟩ := ih2 h2
    exact ⟨b, h1.trans h3, h4⟩

/-- An object without floats, in whatever order its members are written. -/
theorem object_plain {es es' : List (Str × Json F)} (hp : es'.Perm es)
    (h : ∀ fl' : F → Str, ∀ e ∈ es, e.2.text fl = e.2.text fl') :
    ∃ fs gs, fs.Perm gs ∧ MeantMembers (fun _ _ => True) es gs ∧
      ∀ w, Document w ((Json.obj es').text fl) ↔ w = .object fs := by
  obtain ⟨v, h1, h2⟩ := document_plain (fl := fl) (.obj es') (fun fl' => by
    rw [Json.text, Json.text, membersText_plain fl' es' (fun e he => h fl' e (hp.subset he))])
  cases h1 with
  | obj h1 =>
    obtain ⟨gs, h3, h4⟩ := meantMembers_perm hp h1
    exact ⟨_, gs, h3, h4, fun w => ⟨fun hw => document_unique hw h2, fun hw => hw ▸ h2⟩⟩

end Stacks.Spec

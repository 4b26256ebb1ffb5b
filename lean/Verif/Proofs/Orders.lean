import Verif.Spec.Orders
import Verif.Spec.Secp
import Verif.Model.Orders
import Verif.Proofs.HashValue
import Verif.Props.HashValue

/-! # Lemmas about the derived orders -/

namespace Stacks
open Spec Tx Rpc

/-- The order of keys. -/
abbrev cmpNats : List Nat → List Nat → Ordering := cmpList compare

theorem cmpNats_cons (x y : Nat) (r s : List Nat) :
    cmpNats (x :: r) (y :: s) = (compare x y).then (cmpNats r s) := rfl

theorem cmpNats_swap : ∀ xs ys : List Nat, cmpNats ys xs = (cmpNats xs ys).swap
  | [], [] => rfl
  | [], _ :: _ => rfl
  | _ :: _, [] => rfl
  | x :: xs, y :: ys => by
    rw [cmpNats_cons, cmpNats_cons, Ordering.swap_then, cmpNats_swap xs ys, Nat.compare_swap]

theorem before_cons (x y : Nat) (xs ys : List Nat) :
    Before (x :: xs) (y :: ys) ↔ x < y ∨ x = y ∧ Before xs ys := by
  constructor
  · rintro (⟨z, zs, h⟩ | ⟨p, a, b, s, t, h1, h2, hab⟩)
    · rw [List.cons_append] at h
      obtain ⟨h1, h2⟩ := List.cons.inj h
      exact .inr ⟨h1.symm, .inl ⟨z, zs, h2⟩⟩
    · cases p with
      | nil =>
        obtain ⟨rfl, _⟩ := List.cons.inj h1
        obtain ⟨rfl, _⟩ := List.cons.inj h2
        exact .inl hab
      | cons q p =>
        obtain ⟨rfl, e1⟩ := List.cons.inj h1
        obtain ⟨rfl, e2⟩ := List.cons.inj h2
        exact .inr ⟨rfl, .inr ⟨p, a, b, s, t, e1, e2, hab⟩⟩
  · rintro (h | ⟨rfl, ⟨z, zs, h⟩ | ⟨p, a, b, s, t, h1, h2, hab⟩⟩)
    · exact .inr ⟨[], x, y, xs, ys, rfl, rfl, h⟩
    · exact .inl ⟨z, zs, by rw [h]; rfl⟩
    · exact .inr ⟨x :: p, a, b, s, t, by rw [h1]; rfl, by rw [h2]; rfl, hab⟩

theorem cmpNats_lt : ∀ xs ys : List Nat, cmpNats xs ys = .lt ↔ Before xs ys
  | [], [] => by
    refine ⟨fun h => by simp [cmpNats, cmpList] at h, ?_⟩
    rintro (⟨z, zs, h⟩ | ⟨p, a, b, s, t, h, _, _⟩)
    · exact nomatch h
    · cases p <;> exact nomatch h
  | [], y :: ys => ⟨fun _ => .inl ⟨y, ys, rfl⟩, fun _ => rfl⟩
  | x :: xs, [] => by
    refine ⟨fun h => by simp [cmpNats, cmpList] at h, ?_⟩
    rintro (⟨z, zs, h⟩ | ⟨p, a, b, s, t, _, h, _⟩)
    · exact nomatch h
    · cases p <;> exact nomatch h
  | x :: xs, y :: ys => by
    rw [before_cons, cmpNats_cons, ← cmpNats_lt xs ys, Ordering.then_eq_lt, Nat.compare_eq_lt, Nat.compare_eq_eq]

theorem cmpNats_gt (xs ys : List Nat) : cmpNats xs ys = .gt ↔ Before ys xs := by
  rw [← cmpNats_lt, cmpNats_swap xs ys]
  cases cmpNats xs ys <;> simp

theorem cmpNats_eq : ∀ xs ys : List Nat, cmpNats xs ys = .eq ↔ xs = ys
  | [], [] => ⟨fun _ => rfl, fun _ => rfl⟩
  | [], _ :: _ => by simp [cmpNats, cmpList]
  | _ :: _, [] => by simp [cmpNats, cmpList]
  | x :: xs, y :: ys => by
    rw [cmpNats_cons, Ordering.then_eq_eq, cmpNats_eq xs ys, Nat.compare_eq_eq, List.cons.injEq]

/-- A comparison that is that of the keys, and whose keys tell the values apart. -/
theorem ranks_of {α : Type} {cmp : α → α → Ordering} {key : α → List Nat}
    (h : ∀ a b, cmpNats (key a) (key b) = cmp a b) (he : ∀ a b, cmp a b = .eq → a = b) : Ranks cmp key where
  lt a b := by rw [← h, cmpNats_lt]
  gt a b := by rw [← h, cmpNats_gt]
  eq a b := ⟨he a b, by rintro rfl; rw [← h, cmpNats_eq]⟩

theorem before_trans : ∀ xs ys zs : List Nat, Before xs ys → Before ys zs → Before xs zs
  | [], [], _, h, _ => by rw [← cmpNats_lt] at h; exact nomatch h
  | _ :: _, [], _, h, _ => by rw [← cmpNats_lt] at h; exact nomatch h
  | _, _ :: _, [], _, h => by rw [← cmpNats_lt] at h; exact nomatch h
  | [], _ :: _, z :: zs, _, _ => .inl ⟨z, zs, rfl⟩
  | x :: xs, y :: ys, z :: zs, h, h' => by
    rw [before_cons] at h h' ⊢
    rcases h with h | ⟨rfl, h⟩
    · rcases h' with h' | ⟨rfl, _⟩
      · exact .inl (by omega)
      · exact .inl h
    · rcases h' with h' | ⟨rfl, h'⟩
      · exact .inl h'
      · exact .inr ⟨rfl, before_trans xs ys zs h h'⟩

theorem total_of_ranks {α : Type} {cmp : α → α → Ordering} {key : α → List Nat} (h : Ranks cmp key) :
    TotalOrder cmp where
  eq := h.eq
  swap a b := by
    cases e : cmp a b with
    | lt => exact (h.gt b a).2 ((h.lt a b).1 e)
    | gt => exact (h.lt b a).2 ((h.gt a b).1 e)
    | eq => exact (h.eq b a).2 ((h.eq a b).1 e).symm
  trans a b c h1 h2 := (h.lt a c).2 (before_trans _ _ _ ((h.lt a b).1 h1) ((h.lt b c).1 h2))

/-! ## Texts -/

theorem cmpNats_text : ∀ (as bs : Bytes) (r s : List Nat),
    cmpNats (as.map (fun b => b.toNat + 1) ++ [0] ++ r) (bs.map (fun b => b.toNat + 1) ++ [0] ++ s) =
      (cmpBytes as bs).then (cmpNats r s)
  | [], [], r, s => by
    show (compare 0 0).then (cmpNats r s) = _
    rfl
  | [], b :: bs, r, s => by
    show (compare 0 (b.toNat + 1)).then _ = _
    rw [Nat.compare_eq_lt.2 (by omega)]
    rfl
  | a :: as, [], r, s => by
    show (compare (a.toNat + 1) 0).then _ = _
    rw [Nat.compare_eq_gt.2 (by omega)]
    rfl
  | a :: as, b :: bs, r, s => by
    show (compare (a.toNat + 1) (b.toNat + 1)).then
      (cmpNats (as.map (fun b => b.toNat + 1) ++ [0] ++ r) (bs.map (fun b => b.toNat + 1) ++ [0] ++ s)) = _
    rw [cmpNats_text as bs r s]
    rw [cmpBytes.eq_4]
    by_cases h1 : a < b
    · rw [if_pos h1, Nat.compare_eq_lt.2 (by have := UInt8.lt_iff_toNat_lt.1 h1; omega)]; rfl
    · rw [if_neg h1]
      by_cases h2 : b < a
      · rw [if_pos h2, Nat.compare_eq_gt.2 (by have := UInt8.lt_iff_toNat_lt.1 h2; omega)]; rfl
      · have e1 := mt UInt8.lt_iff_toNat_lt.2 h1
        have e2 := mt UInt8.lt_iff_toNat_lt.2 h2
        rw [if_neg h2, Nat.compare_eq_eq.2 (by omega)]; rfl

theorem cmpNats_textKey (a b : Str) (r s : List Nat) :
    cmpNats (textKey a ++ r) (textKey b ++ s) = (cmpStr a b).then (cmpNats r s) := cmpNats_text _ _ _ _

theorem cmpNats_textKey_end (a b : Str) : cmpNats (textKey a) (textKey b) = cmpStr a b := by
  have := cmpNats_textKey a b [] []
  rw [List.append_nil, List.append_nil] at this
  rw [this]
  cases cmpStr a b <;> rfl

theorem cmpBytes_eq : ∀ as bs : Bytes, cmpBytes as bs = .eq → as = bs
  | [], [], _ => rfl
  | [], _ :: _, h => nomatch h
  | _ :: _, [], h => nomatch h
  | a :: as, b :: bs, h => by
    unfold cmpBytes at h
    by_cases h1 : a < b
    · rw [if_pos h1] at h; exact nomatch h
    · rw [if_neg h1] at h
      by_cases h2 : b < a
      · rw [if_pos h2] at h; exact nomatch h
      · rw [if_neg h2] at h
        have e1 := mt UInt8.lt_iff_toNat_lt.2 h1
        have e2 := mt UInt8.lt_iff_toNat_lt.2 h2
        rw [cmpBytes_eq as bs h, UInt8.toNat_inj.1 (show a.toNat = b.toNat by omega)]

/-! ## Parts -/

theorem cmpStr_eq (s t : Str) (h : cmpStr s t = .eq) : s = t := Str.bytes_injective (cmpBytes_eq _ _ h)

theorem cmpArr {n : Nat} (a b : Arr n) : compare (bytesNumber a.1) (bytesNumber b.1) = HashValue.cmp a b :=
  (C90_order a b).symm

theorem cmpArr_eq {n : Nat} (a b : Arr n) (h : HashValue.cmp a b = .eq) : a = b := (C90_order_eq a b).1 h

theorem cmpU64_eq (a b : UInt64) (h : cmpU64 a b = .eq) : a = b := UInt64.toNat_inj.1 (Nat.compare_eq_eq.1 h)
theorem cmpU32_eq (a b : UInt32) (h : cmpU32 a b = .eq) : a = b := UInt32.toNat_inj.1 (Nat.compare_eq_eq.1 h)
theorem cmpU8_eq (a b : UInt8) (h : cmpU8 a b = .eq) : a = b := UInt8.toNat_inj.1 (Nat.compare_eq_eq.1 h)
theorem cmpBool_eq (a b : Bool) (h : cmpBool a b = .eq) : a = b := by revert h; cases a <;> cases b <;> decide

theorem cmpMode (a b : C32.Mode) : compare (modeNumber a).toNat (modeNumber b).toNat = a.cmp b := by cases a <;> cases b <;> rfl
theorem cmpMode_eq (a b : C32.Mode) (h : a.cmp b = .eq) : a = b := by revert h; cases a <;> cases b <;> decide

section
variable [Secp]

theorem cmpKey_number (a b : Secp.PK) :
    compare (bytesNumber (Secp.serialize a).1) (bytesNumber (Secp.serialize b).1) = cmpKey a b := cmpArr _ _

theorem cmpKey_eq [Secp.Lawful] (a b : Secp.PK) (h : cmpKey a b = .eq) : a = b :=
  Secp.Lawful.serialize_injective a b (cmpArr_eq _ _ h)

omit [Secp] in
theorem then_nil (o : Ordering) : o.then (cmpNats [] []) = o := by cases o <;> rfl

theorem cmpNats_field (a b : AuthField) (r s : List Nat) :
    cmpNats (fieldKey a ++ r) (fieldKey b ++ s) = (a.cmp b).then (cmpNats r s) := by
  cases a with
  | pk a => cases b with
    | pk b =>
      show (compare 0 0).then ((compare _ _).then (cmpNats r s)) = _
      rw [cmpKey_number]; rfl
    | msg b => rfl
  | msg a => cases b with
    | pk b => rfl
    | msg b =>
      show (compare 1 1).then ((compare _ _).then (cmpNats r s)) = _
      rw [cmpArr]; rfl

theorem field_eq [Secp.Lawful] (a b : AuthField) (h : a.cmp b = .eq) : a = b := by
  cases a <;> cases b
  · rw [cmpKey_eq _ _ h]
  · exact nomatch h
  · exact nomatch h
  · rw [cmpArr_eq _ _ h]

theorem cmpNats_fields : ∀ (fs gs : List AuthField) (r s : List Nat),
    cmpNats (fs.flatMap (fun f => 1 :: fieldKey f) ++ 0 :: r) (gs.flatMap (fun f => 1 :: fieldKey f) ++ 0 :: s) =
      (cmpList AuthField.cmp fs gs).then (cmpNats r s)
  | [], [], r, s => by show (compare 0 0).then (cmpNats r s) = _; rfl
  | [], g :: gs, r, s => rfl
  | f :: fs, [], r, s => rfl
  | f :: fs, g :: gs, r, s => by
    rw [List.flatMap_cons, List.flatMap_cons, List.append_assoc, List.append_assoc, List.cons_append, List.cons_append,
      cmpNats_cons, cmpNats_field, cmpNats_fields fs gs r s, Nat.compare_eq_eq.2 rfl, cmpList, Ordering.then_assoc]
    rfl

omit [Secp] in
theorem cmpList_eq {α : Type} {cmp : α → α → Ordering} (h : ∀ a b, cmp a b = .eq → a = b) :
    ∀ as bs : List α, cmpList cmp as bs = .eq → as = bs
  | [], [], _ => rfl
  | [], _ :: _, e => nomatch e
  | _ :: _, [], e => nomatch e
  | a :: as, b :: bs, e => by
    obtain ⟨e1, e2⟩ := Ordering.then_eq_eq.1 e
    rw [h a b e1, cmpList_eq h as bs e2]

end

end Stacks

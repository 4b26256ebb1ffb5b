import Mathlib.Data.List.Forall2
import Verif.Spec.Macro

/-! Lemmas on the semantics of the literal macros. -/

namespace Stacks.Macro
open Stacks.Clarity (CV)
open Stacks.Tx (Condition)
open Stacks.Spec

variable {σ : Name → Bool}

theorem ev_lit {r s} : Eval σ (.lit r) s ↔ s = r :=
  ⟨fun h => by cases h; rfl, fun h => h ▸ .lit⟩

theorem ev_call {m p ts r} : Eval σ (.call m p ts) r ↔
    (p = true ∨ σ m = true) ∧ ∃ e, expand m ts = some e ∧ Eval σ e r :=
  ⟨fun h => by cases h with | call a b c => exact ⟨a, _, b, c⟩, fun ⟨a, _, b, c⟩ => .call a b c⟩

theorem ev_new {ty es r} : Eval σ (.new ty es) r ↔ ∃ rs, EvalAll σ es rs ∧ construct ty rs = some r :=
  ⟨fun h => by cases h with | new a b => exact ⟨_, a, b⟩, fun ⟨_, a, b⟩ => .new a b⟩

theorem ev_boxed {e r} : Eval σ (.boxed e) r ↔ ∃ v, Eval σ e (.clarity v) ∧ r = .box v :=
  ⟨fun h => by cases h with | boxed a => exact ⟨_, a, rfl⟩, fun ⟨_, a, b⟩ => b ▸ .boxed a⟩

theorem ev_boxedCondition {e r} : Eval σ (.boxedCondition e) r ↔
    ∃ c, Eval σ e (.postCondition c) ∧ r = .condition c :=
  ⟨fun h => by cases h with | boxedCondition a => exact ⟨_, a, rfl⟩,
    fun ⟨_, a, b⟩ => b ▸ .boxedCondition a⟩

theorem ev_toString {e r} : Eval σ (.toString e) r ↔
    ∃ s t, Eval σ e t ∧ toStringOf t = some s ∧ r = .string s :=
  ⟨fun h => by cases h with | toString a b => exact ⟨_, _, a, b, rfl⟩,
    fun ⟨_, _, a, b, c⟩ => c ▸ .toString a b⟩

theorem ev_toVec {e r} : Eval σ (.toVec e) r ↔
    ∃ bs t, Eval σ e t ∧ toVecOf t = some bs ∧ r = .vecU8 bs :=
  ⟨fun h => by cases h with | toVec a b => exact ⟨_, _, a, b, rfl⟩,
    fun ⟨_, _, a, b, c⟩ => c ▸ .toVec a b⟩

theorem ev_vec {es r} : Eval σ (.vec es) r ↔ ∃ rs, EvalAll σ es rs ∧ r = .vec rs :=
  ⟨fun h => by cases h with | vec a => exact ⟨_, a, rfl⟩, fun ⟨_, a, b⟩ => b ▸ .vec a⟩

theorem ev_pair {a b r} : Eval σ (.pair a b) r ↔ ∃ s t, Eval σ a s ∧ Eval σ b t ∧ r = .pair s t :=
  ⟨fun h => by cases h with | pair x y => exact ⟨_, _, x, y, rfl⟩, fun ⟨_, _, x, y, z⟩ => z ▸ .pair x y⟩

theorem ev_nil {rs} : EvalAll σ [] rs ↔ rs = [] :=
  ⟨fun h => by cases h; rfl, fun h => h ▸ .nil⟩

theorem ev_cons {e es rs} : EvalAll σ (e :: es) rs ↔
    ∃ r ss, Eval σ e r ∧ EvalAll σ es ss ∧ rs = r :: ss :=
  ⟨fun h => by cases h with | cons a b => exact ⟨_, _, a, b, rfl⟩,
    fun ⟨_, _, a, b, c⟩ => c ▸ .cons a b⟩

mutual
theorem eval_det {e r s} : Eval σ e r → Eval σ e s → r = s
  | .lit, h => (ev_lit.1 h).symm
  | .call _ a b, h => by
    obtain ⟨_, e, h1, h2⟩ := ev_call.1 h
    rw [a] at h1; cases h1
    exact eval_det b h2
  | .new a b, h => by
    obtain ⟨rs, h1, h2⟩ := ev_new.1 h
    have := evalAll_det a h1
    subst this; rw [b] at h2; exact Option.some.inj h2
  | .boxed a, h => by
    obtain ⟨v, h1, rfl⟩ := ev_boxed.1 h
    cases eval_det a h1; rfl
  | .boxedCondition a, h => by
    obtain ⟨v, h1, rfl⟩ := ev_boxedCondition.1 h
    cases eval_det a h1; rfl
  | .toString a b, h => by
    obtain ⟨_, _, h1, h2, rfl⟩ := ev_toString.1 h
    cases eval_det a h1; rw [b] at h2; cases h2; rfl
  | .toVec a b, h => by
    obtain ⟨_, _, h1, h2, rfl⟩ := ev_toVec.1 h
    cases eval_det a h1; rw [b] at h2; cases h2; rfl
  | .vec a, h => by
    obtain ⟨_, h1, rfl⟩ := ev_vec.1 h
    rw [evalAll_det a h1]
  | .pair a b, h => by
    obtain ⟨_, _, h1, h2, rfl⟩ := ev_pair.1 h
    rw [eval_det a h1, eval_det b h2]
theorem evalAll_det {es rs ss} : EvalAll σ es rs → EvalAll σ es ss → rs = ss
  | .nil, h => (ev_nil.1 h).symm
  | .cons a b, h => by
    obtain ⟨_, _, h1, h2, rfl⟩ := ev_cons.1 h
    rw [eval_det a h1, evalAll_det b h2]
end

theorem eval_new1 {ty e r s} (h : Eval σ e r) (hc : construct ty [r] = some s) :
    Eval σ (.new ty [e]) s := .new (.cons h .nil) hc

theorem ev_new1 {ty e s} : Eval σ (.new ty [e]) s ↔ ∃ r, Eval σ e r ∧ construct ty [r] = some s := by
  constructor
  · intro h
    obtain ⟨rs, h1, h2⟩ := ev_new.1 h
    obtain ⟨r, ss, h3, h4, rfl⟩ := ev_cons.1 h1
    rw [ev_nil.1 h4] at h2
    exact ⟨r, h3, h2⟩
  · rintro ⟨r, h1, h2⟩; exact eval_new1 h1 h2

theorem ev_claBox {e r} : Eval σ (claBox e) r ↔
    σ .clarity = true ∧ ∃ v, Eval σ e (.clarity v) ∧ r = .box v := by
  unfold claBox
  rw [ev_call]
  constructor
  · rintro ⟨h, e', h1, h2⟩
    cases h1
    exact ⟨by simpa using h, ev_boxed.1 h2⟩
  · rintro ⟨h, h1⟩
    exact ⟨.inr h, _, rfl, ev_boxed.2 h1⟩

/-- Expressions with Clarity values, one for each. -/
theorem ev_boxes {es rs} : EvalAll σ (es.map claBox) rs ↔
    (es ≠ [] → σ .clarity = true) ∧ ∃ vs : List CV, EvalAll σ es (vs.map Value.clarity) ∧ rs = vs.map Value.box := by
  induction es generalizing rs with
  | nil =>
    rw [List.map_nil, ev_nil]
    constructor
    · rintro rfl; exact ⟨fun h => absurd rfl h, [], .nil, rfl⟩
    · rintro ⟨-, vs, h, rfl⟩
      rw [ev_nil] at h; cases vs with
      | nil => rfl
      | cons => cases h
  | cons e es ih =>
    rw [List.map_cons, ev_cons]
    constructor
    · rintro ⟨r, ss, h1, h2, rfl⟩
      obtain ⟨hs, v, h3, rfl⟩ := ev_claBox.1 h1
      obtain ⟨-, vs, h4, rfl⟩ := ih.1 h2
      exact ⟨fun _ => hs, v :: vs, .cons h3 h4, rfl⟩
    · rintro ⟨hs, vs, h, rfl⟩
      cases vs with
      | nil => cases h
      | cons v vs =>
        obtain ⟨_, _, h1, h2, h3⟩ := ev_cons.1 h
        cases h3
        have hs := hs (by simp)
        exact ⟨_, _, ev_claBox.2 ⟨hs, v, h1, rfl⟩, ih.2 ⟨fun _ => hs, vs, h2, rfl⟩, rfl⟩

theorem boxes_box (vs : List CV) : boxes (vs.map Value.box) = some vs := by
  induction vs with
  | nil => rfl
  | cons v vs ih => simp [boxes, ih]

theorem exprArgs_argToks (es : List Rust) : exprArgs (argToks es) = some es := by
  induction es with
  | nil => rfl
  | cons e es ih => simp [argToks, exprArgs, ih]

theorem entryArgs_pairToks (es : List (Rust × Rust)) : entryArgs (pairToks es) = some es := by
  induction es with
  | nil => rfl
  | cons e es ih => obtain ⟨k, e⟩ := e; simp [pairToks, entryArgs, ih]

theorem ev_entries {es rs} :
    EvalAll σ (es.map fun e => .pair (.toString e.1) (claBox e.2)) rs ↔
    (es ≠ [] → σ .clarity = true) ∧ ∃ vs, Entries σ es vs ∧
      rs = vs.map fun v => .pair (.string v.1) (.box v.2) := by
  induction es generalizing rs with
  | nil =>
    rw [List.map_nil, ev_nil]
    constructor
    · rintro rfl; exact ⟨fun h => absurd rfl h, [], .nil, rfl⟩
    · rintro ⟨-, vs, h, rfl⟩
      cases h; rfl
  | cons e es ih =>
    obtain ⟨k, e⟩ := e
    rw [List.map_cons, ev_cons]
    constructor
    · rintro ⟨r, ss, h1, h2, rfl⟩
      obtain ⟨_, _, h3, h4, rfl⟩ := ev_pair.1 h1
      obtain ⟨s, t, h5, h6, rfl⟩ := ev_toString.1 h3
      obtain ⟨hs, v, h7, rfl⟩ := ev_claBox.1 h4
      obtain ⟨-, vs, h8, rfl⟩ := ih.1 h2
      exact ⟨fun _ => hs, (s, v) :: vs, .cons h5 h6 h7 h8, rfl⟩
    · rintro ⟨hs, vs, h, rfl⟩
      have hs := hs (by simp)
      cases h with
      | cons h1 h2 h3 h4 =>
        exact ⟨_, _, ev_pair.2 ⟨_, _, ev_toString.2 ⟨_, _, h1, h2, rfl⟩,
          ev_claBox.2 ⟨hs, _, h3, rfl⟩, rfl⟩, ih.2 ⟨fun _ => hs, _, h4, rfl⟩, rfl⟩

theorem entries_entries (vs : List (Str × CV)) :
    entries (vs.map fun v => .pair (.string v.1) (.box v.2)) = some vs := by
  induction vs with
  | nil => rfl
  | cons v vs ih => simp [entries, ih]

theorem eval_empty {w r} (hs : σ .clarity = true) (h : construct w [.vec []] = some r) :
    Eval σ (.call .clarity false [.at, .ident .empty, .comma, .ident w]) r :=
  .call (.inr hs) rfl (eval_new1 (.vec .nil) h)

theorem ev_empty {w r} : Eval σ (.call .clarity false [.at, .ident .empty, .comma, .ident w]) r ↔
    σ .clarity = true ∧ construct w [.vec []] = some r := by
  rw [ev_call]
  constructor
  · rintro ⟨h, e, h1, h2⟩
    cases h1
    obtain ⟨rs, h3, h4⟩ := ev_new1.1 h2
    obtain ⟨_, h5, rfl⟩ := ev_vec.1 h3
    rw [ev_nil.1 h5] at h4
    exact ⟨by simpa using h, h4⟩
  · rintro ⟨h, h1⟩
    exact ⟨.inr h, _, rfl, eval_new1 (.vec .nil) h1⟩

/-- `clarity!(List, e, ...)`. -/
theorem ev_list {p es r} : Eval σ (.call .clarity p (.ident .List :: argToks es)) r ↔
    (p = true ∨ σ .clarity = true) ∧ σ .clarity = true ∧
      ∃ vs : List CV, EvalAll σ es (vs.map Value.clarity) ∧ r = .clarity (.list vs) := by
  cases es with
  | nil =>
    rw [ev_call]
    refine and_congr_right fun _ => ?_
    constructor
    · rintro ⟨e, h1, h2⟩
      cases h1
      obtain ⟨h3, h4⟩ := ev_empty.1 h2
      cases h4
      exact ⟨h3, [], .nil, rfl⟩
    · rintro ⟨h, vs, h1, rfl⟩
      cases vs with
      | nil => exact ⟨_, rfl, ev_empty.2 ⟨h, rfl⟩⟩
      | cons => cases h1
  | cons e es =>
    rw [ev_call]
    refine and_congr_right fun _ => ?_
    have he : expand .clarity (.ident .List :: argToks (e :: es)) =
        some (.new .List [.vec ((e :: es).map claBox)]) := by
      have := exprArgs_argToks (e :: es)
      simp only [argToks] at this
      simp [expand, argToks, expandClarity, this]
    rw [he]
    constructor
    · rintro ⟨e', h1, h2⟩
      cases h1
      obtain ⟨rs, h3, h4⟩ := ev_new1.1 h2
      obtain ⟨_, h5, rfl⟩ := ev_vec.1 h3
      obtain ⟨hs, vs, h6, rfl⟩ := ev_boxes.1 h5
      simp only [construct, boxes_box, Option.map_some, Option.some.injEq] at h4
      exact ⟨hs (by simp), vs, h6, h4.symm⟩
    · rintro ⟨h, vs, h1, rfl⟩
      exact ⟨_, rfl, eval_new1 (.vec (ev_boxes.2 ⟨fun _ => h, vs, h1, rfl⟩))
        (by simp [construct, boxes_box])⟩

/-- `clarity!(FnArguments, e, ...)`. -/
theorem ev_fnArgs {p es r} : Eval σ (.call .clarity p (.ident .FnArguments :: argToks es)) r ↔
    (p = true ∨ σ .clarity = true) ∧ σ .clarity = true ∧
      ∃ vs : List CV, EvalAll σ es (vs.map Value.clarity) ∧ r = .clarity (.fnArgs vs) := by
  cases es with
  | nil =>
    rw [ev_call]
    refine and_congr_right fun _ => ?_
    constructor
    · rintro ⟨e, h1, h2⟩
      cases h1
      obtain ⟨h3, h4⟩ := ev_empty.1 h2
      cases h4
      exact ⟨h3, [], .nil, rfl⟩
    · rintro ⟨h, vs, h1, rfl⟩
      cases vs with
      | nil => exact ⟨_, rfl, ev_empty.2 ⟨h, rfl⟩⟩
      | cons => cases h1
  | cons e es =>
    rw [ev_call]
    refine and_congr_right fun _ => ?_
    have he : expand .clarity (.ident .FnArguments :: argToks (e :: es)) =
        some (.new .FnArguments [.vec ((e :: es).map claBox)]) := by
      have := exprArgs_argToks (e :: es)
      simp only [argToks] at this
      simp [expand, argToks, expandClarity, this]
    rw [he]
    constructor
    · rintro ⟨e', h1, h2⟩
      cases h1
      obtain ⟨rs, h3, h4⟩ := ev_new1.1 h2
      obtain ⟨_, h5, rfl⟩ := ev_vec.1 h3
      obtain ⟨hs, vs, h6, rfl⟩ := ev_boxes.1 h5
      simp only [construct, boxes_box, Option.map_some, Option.some.injEq] at h4
      exact ⟨hs (by simp), vs, h6, h4.symm⟩
    · rintro ⟨h, vs, h1, rfl⟩
      exact ⟨_, rfl, eval_new1 (.vec (ev_boxes.2 ⟨fun _ => h, vs, h1, rfl⟩))
        (by simp [construct, boxes_box])⟩

/-- `clarity!(Tuple, (k, e), ...)`. -/
theorem ev_tuple {p es r} : Eval σ (.call .clarity p (.ident .Tuple :: pairToks es)) r ↔
    (p = true ∨ σ .clarity = true) ∧ σ .clarity = true ∧
      ∃ vs, Entries σ es vs ∧ r = .clarity (.tuple vs) := by
  cases es with
  | nil =>
    rw [ev_call]
    refine and_congr_right fun _ => ?_
    constructor
    · rintro ⟨e, h1, h2⟩
      cases h1
      obtain ⟨h3, h4⟩ := ev_empty.1 h2
      cases h4
      exact ⟨h3, [], .nil, rfl⟩
    · rintro ⟨h, vs, h1, rfl⟩
      cases h1
      exact ⟨_, rfl, ev_empty.2 ⟨h, rfl⟩⟩
  | cons e es =>
    rw [ev_call]
    refine and_congr_right fun _ => ?_
    have he : expand .clarity (.ident .Tuple :: pairToks (e :: es)) =
        some (.new .Tuple [.vec ((e :: es).map fun e => .pair (.toString e.1) (claBox e.2))]) := by
      have := entryArgs_pairToks (e :: es)
      obtain ⟨k, e⟩ := e
      simp only [pairToks] at this
      simp [expand, pairToks, expandClarity, this]
    rw [he]
    constructor
    · rintro ⟨e', h1, h2⟩
      cases h1
      obtain ⟨rs, h3, h4⟩ := ev_new1.1 h2
      obtain ⟨_, h5, rfl⟩ := ev_vec.1 h3
      obtain ⟨hs, vs, h6, rfl⟩ := ev_entries.1 h5
      simp only [construct, entries_entries, Option.map_some, Option.some.injEq] at h4
      exact ⟨hs (by simp), vs, h6, h4.symm⟩
    · rintro ⟨h, vs, h1, rfl⟩
      exact ⟨_, rfl, eval_new1 (.vec (ev_entries.2 ⟨fun _ => h, vs, h1, rfl⟩))
        (by simp [construct, entries_entries])⟩

/-- A value written out in full with `clarity!`. -/
theorem eval_flat {v p} (hf : Flat v) (hp : p = true ∨ σ .clarity = true) :
    Eval σ (.call .clarity p (written v)) (.clarity v) := by
  cases v with
  | int x =>
    refine .call hp rfl (eval_new1 .lit ?_)
    have h1 := BitVec.le_toInt x
    have h2 := BitVec.toInt_lt (x := x)
    simp only [construct]
    rw [if_pos ⟨by simpa using h1, by simpa using h2⟩, BitVec.ofInt_toInt]
  | uint x =>
    refine .call hp rfl (eval_new1 .lit ?_)
    have h2 := x.isLt
    simp only [construct]
    rw [if_pos ⟨by omega, by exact_mod_cast h2⟩, BitVec.ofInt_natCast, BitVec.ofNat_toNat]
    simp
  | buffer bs => exact .call hp rfl (eval_new1 (.toVec .lit rfl) rfl)
  | tru => exact .call hp rfl (.new .nil rfl)
  | fls => exact .call hp rfl (.new .nil rfl)
  | principalStd a => exact .call hp rfl (eval_new1 (.toString .lit rfl) rfl)
  | principalCon a n =>
    exact .call hp rfl (eval_new1 (.pair (.toString .lit rfl) (.toString .lit rfl)) rfl)
  | optNone => exact .call hp rfl (.new .nil rfl)
  | strAscii s => exact .call hp rfl (eval_new1 (.toString .lit rfl) rfl)
  | strUtf8 s => exact .call hp rfl (eval_new1 (.toString .lit rfl) rfl)
  | lps s => exact .call hp rfl (eval_new1 (.toString .lit rfl) rfl)
  | respOk v => exact hf.elim
  | respErr v => exact hf.elim
  | optSome v => exact hf.elim
  | list v => exact hf.elim
  | tuple v => exact hf.elim
  | fnArgs v => exact hf.elim

theorem writtenAll_eq (vs : List CV) :
    writtenAll vs = argToks (vs.map fun v => .call .clarity false (written v)) := by
  induction vs with
  | nil => rw [writtenAll]; rfl
  | cons v vs ih => rw [writtenAll, ih]; rfl

theorem writtenEntries_eq (es : List (Str × CV)) :
    writtenEntries es =
      pairToks (es.map fun e => (.lit (.str e.1), .call .clarity false (written e.2))) := by
  induction es with
  | nil => rw [writtenEntries]; rfl
  | cons e es ih => obtain ⟨k, v⟩ := e; rw [writtenEntries, ih]; rfl

mutual
theorem eval_written (hs : σ .clarity = true) (p : Bool) :
    ∀ v : CV, Eval σ (.call .clarity p (written v)) (.clarity v)
  | .int _ => eval_flat trivial (.inr hs)
  | .uint _ => eval_flat trivial (.inr hs)
  | .buffer _ => eval_flat trivial (.inr hs)
  | .tru => eval_flat trivial (.inr hs)
  | .fls => eval_flat trivial (.inr hs)
  | .principalStd _ => eval_flat trivial (.inr hs)
  | .principalCon _ _ => eval_flat trivial (.inr hs)
  | .optNone => eval_flat trivial (.inr hs)
  | .strAscii _ => eval_flat trivial (.inr hs)
  | .strUtf8 _ => eval_flat trivial (.inr hs)
  | .lps _ => eval_flat trivial (.inr hs)
  | .respOk v => by
    rw [written]
    exact .call (.inr hs) rfl (eval_new1 (ev_claBox.2 ⟨hs, v, eval_written hs false v, rfl⟩) rfl)
  | .respErr v => by
    rw [written]
    exact .call (.inr hs) rfl (eval_new1 (ev_claBox.2 ⟨hs, v, eval_written hs false v, rfl⟩) rfl)
  | .optSome v => by
    rw [written]
    exact .call (.inr hs) rfl (eval_new1 (ev_claBox.2 ⟨hs, v, eval_written hs false v, rfl⟩) rfl)
  | .list vs => by
    rw [written, writtenAll_eq]
    exact ev_list.2 ⟨.inr hs, hs, vs, evalAll_written hs vs, rfl⟩
  | .fnArgs vs => by
    rw [written, writtenAll_eq]
    exact ev_fnArgs.2 ⟨.inr hs, hs, vs, evalAll_written hs vs, rfl⟩
  | .tuple es => by
    rw [written, writtenEntries_eq]
    exact ev_tuple.2 ⟨.inr hs, hs, es, entries_written hs es, rfl⟩
theorem evalAll_written (hs : σ .clarity = true) : ∀ vs : List CV,
    EvalAll σ (vs.map fun v => .call .clarity false (written v)) (vs.map Value.clarity)
  | [] => .nil
  | v :: vs => .cons (eval_written hs false v) (evalAll_written hs vs)
theorem entries_written (hs : σ .clarity = true) : ∀ es : List (Str × CV),
    Entries σ (es.map fun e => (.lit (.str e.1), .call .clarity false (written e.2))) es
  | [] => .nil
  | (_, v) :: es => .cons .lit rfl (eval_written hs false v) (entries_written hs es)
end

/-! ## `post_condition!` -/

theorem ev_condBox {e r} : Eval σ (condBox e) r ↔ ∃ c, Eval σ e (.postCondition c) ∧ r = .condition c := by
  unfold condBox
  rw [ev_call]
  constructor
  · rintro ⟨h, e', h1, h2⟩
    cases h1
    exact ev_boxedCondition.1 h2
  · intro h
    exact ⟨.inl rfl, _, rfl, ev_boxedCondition.2 h⟩

/-- The expressions of a call, without the comma in front. -/
theorem callArgs_argToks (e : Rust) (es : List Rust) :
    callArgs (.expr e :: argToks es) = some (e :: es) := by
  induction es generalizing e with
  | nil => rfl
  | cons f es ih => simp [argToks, callArgs, ih]

theorem u64Of_eq {z : Int} {n : UInt64} : u64Of z = some n ↔ 0 ≤ z ∧ z < 2 ^ 64 ∧ n = .ofNat z.toNat := by
  unfold u64Of
  split
  · rename_i h
    simp only [Option.some.injEq]
    exact ⟨fun e => ⟨h.1, h.2, e.symm⟩, fun e => e.2.2.symm⟩
  · rename_i h
    simp only [reduceCtorEq, false_iff]
    exact fun e => h ⟨e.1, e.2.1⟩

theorem construct_stx {rs r} : construct .STXPostCondition rs = some r ↔
    ∃ a z c, rs = [.clarity a, .int z, .code c] ∧ 0 ≤ z ∧ z < 2 ^ 64 ∧
      r = .postCondition (.stx a (.ofNat z.toNat) c) := by
  constructor
  · intro h
    generalize hw : Word.STXPostCondition = w at h
    unfold construct at h
    split at h <;> try cases hw
    · simp only [Option.map_eq_some_iff, u64Of_eq] at h
      obtain ⟨n, ⟨h1, h2, rfl⟩, rfl⟩ := h
      exact ⟨_, _, _, rfl, h1, h2, rfl⟩
    · cases h
  · rintro ⟨a, z, c, rfl, h1, h2, rfl⟩
    simp only [construct, u64Of, h1, h2, and_self, if_true, Option.map_some]

theorem construct_fungible {rs r} : construct .FungiblePostCondition rs = some r ↔
    ∃ a z c i, rs = [.clarity a, .int z, .code c, .info i] ∧ 0 ≤ z ∧ z < 2 ^ 64 ∧
      r = .postCondition (.fungible a (.ofNat z.toNat) c i) := by
  constructor
  · intro h
    generalize hw : Word.FungiblePostCondition = w at h
    unfold construct at h
    split at h <;> try cases hw
    · simp only [Option.map_eq_some_iff, u64Of_eq] at h
      obtain ⟨n, ⟨h1, h2, rfl⟩, rfl⟩ := h
      exact ⟨_, _, _, _, rfl, h1, h2, rfl⟩
    · cases h
  · rintro ⟨a, z, c, i, rfl, h1, h2, rfl⟩
    simp only [construct, u64Of, h1, h2, and_self, if_true, Option.map_some]

theorem construct_nonFungible {rs r} : construct .NonFungiblePostCondition rs = some r ↔
    ∃ a n c i, rs = [.clarity a, .clarity n, .code c, .info i] ∧ r = .postCondition (.nonFungible a n c i) := by
  constructor
  · intro h
    generalize hw : Word.NonFungiblePostCondition = w at h
    unfold construct at h
    split at h <;> try cases hw
    · cases h; exact ⟨_, _, _, _, rfl, rfl⟩
    · cases h
  · rintro ⟨a, n, c, i, rfl, rfl⟩; rfl

/-- `@gen Kind, e, ...`. -/
theorem ev_gen {w e es r} : Eval σ (genCall w (.expr e :: argToks es)) r ↔
    ∃ c, CondValue σ w (e :: es) c ∧ r = .condition c := by
  unfold genCall
  rw [ev_call]
  have hx : ∀ w, expand .postCondition ([.at, .ident .gen, .ident w, .comma] ++ (.expr e :: argToks es)) =
      match w with
      | .STXCondition => some (condBox (.new .STXPostCondition (e :: es)))
      | .FungibleCondition => some (condBox (.new .FungiblePostCondition (e :: es)))
      | .NonFungibleCondition => some (condBox (.new .NonFungiblePostCondition (e :: es)))
      | _ => none := by
    intro w
    cases w <;> simp [expand, expandCondition, groups, callArgs_argToks]
  rw [hx]
  constructor
  · rintro ⟨-, x, h1, h2⟩
    split at h1
    · cases h1
      obtain ⟨c, h3, rfl⟩ := ev_condBox.1 h2
      obtain ⟨rs, h4, h5⟩ := ev_new.1 h3
      obtain ⟨a, z, c, rfl, h6, h7, h8⟩ := construct_stx.1 h5
      cases h8
      cases h4 with | cons g1 g2 => cases g2 with | cons g2 g3 => cases g3 with | cons g3 g4 =>
      cases g4
      exact ⟨_, .stx g1 g2 h6 h7 g3, rfl⟩
    · cases h1
      obtain ⟨c, h3, rfl⟩ := ev_condBox.1 h2
      obtain ⟨rs, h4, h5⟩ := ev_new.1 h3
      obtain ⟨a, z, c, i, rfl, h6, h7, h8⟩ := construct_fungible.1 h5
      cases h8
      cases h4 with | cons g1 g2 => cases g2 with | cons g2 g3 => cases g3 with | cons g3 g4 =>
      cases g4 with | cons g4 g5 =>
      cases g5
      exact ⟨_, .fungible g1 g2 h6 h7 g3 g4, rfl⟩
    · cases h1
      obtain ⟨c, h3, rfl⟩ := ev_condBox.1 h2
      obtain ⟨rs, h4, h5⟩ := ev_new.1 h3
      obtain ⟨a, n, c, i, rfl, h8⟩ := construct_nonFungible.1 h5
      cases h8
      cases h4 with | cons g1 g2 => cases g2 with | cons g2 g3 => cases g3 with | cons g3 g4 =>
      cases g4 with | cons g4 g5 =>
      cases g5
      exact ⟨_, .nonFungible g1 g2 g3 g4, rfl⟩
    · cases h1
  · rintro ⟨c, h, rfl⟩
    refine ⟨.inl rfl, ?_⟩
    cases h with
    | stx g1 g2 h6 h7 g3 =>
      exact ⟨_, rfl, ev_condBox.2 ⟨_, .new (.cons g1 (.cons g2 (.cons g3 .nil)))
        (construct_stx.2 ⟨_, _, _, rfl, h6, h7, rfl⟩), rfl⟩⟩
    | fungible g1 g2 h6 h7 g3 g4 =>
      exact ⟨_, rfl, ev_condBox.2 ⟨_, .new (.cons g1 (.cons g2 (.cons g3 (.cons g4 .nil))))
        (construct_fungible.2 ⟨_, _, _, _, rfl, h6, h7, rfl⟩), rfl⟩⟩
    | nonFungible g1 g2 g3 g4 =>
      exact ⟨_, rfl, ev_condBox.2 ⟨_, .new (.cons g1 (.cons g2 (.cons g3 (.cons g4 .nil))))
        (construct_nonFungible.2 ⟨_, _, _, _, rfl, rfl⟩), rfl⟩⟩

/-- `post_condition!(Kind, e, ...)`. -/
theorem ev_single {p g r} : Eval σ (.call .postCondition p (condToks g)) r ↔
    (p = true ∨ σ .postCondition = true) ∧ ∃ c, CondValue σ g.1 g.2 c ∧ r = .condition c := by
  obtain ⟨w, es⟩ := g
  rw [ev_call]
  refine and_congr_right fun _ => ?_
  cases es with
  | nil =>
    constructor
    · rintro ⟨e, h, -⟩
      cases w <;> cases h
    · rintro ⟨c, h, -⟩; cases h
  | cons e es =>
    rw [← ev_gen]
    constructor
    · rintro ⟨x, h1, h2⟩
      have : expand .postCondition (condToks (w, e :: es)) = some (genCall w (.expr e :: argToks es)) := rfl
      rw [this] at h1; cases h1; exact h2
    · intro h; exact ⟨_, rfl, h⟩

/-- The groups as the macro reads them, after the first. -/
def moreToks (gs : List (Word × List Rust)) (tr : Bool) : List Tok :=
  match gs with
  | [] => if tr then [.comma] else []
  | gs => .comma :: (groupToks gs ++ if tr then [.comma] else [])

theorem groupToks_cons (g : Word × List Rust) (gs : List (Word × List Rust)) (tr : Bool) :
    groupToks (g :: gs) ++ (if tr then [.comma] else []) = .paren (condToks g) :: moreToks gs tr := by
  cases gs with
  | nil => rfl
  | cons h gs => rfl

/-- What the macro keeps of a group. -/
def groupOf (g : Word × List Rust) : Option (Word × List Tok) :=
  match g.2 with
  | [] => none
  | e :: es => some (g.1, .expr e :: argToks es)

theorem moreGroups_toks (gs : List (Word × List Rust)) (tr : Bool) :
    groups.moreGroups (moreToks gs tr) = gs.mapM groupOf := by
  induction gs with
  | nil => cases tr <;> rfl
  | cons g gs ih =>
    rw [moreToks, groupToks_cons]
    · obtain ⟨w, es⟩ := g
      cases es with
      | nil =>
        rw [condToks, argToks]
        rfl
      | cons e es =>
        rw [condToks, argToks, groups.moreGroups, ih, List.mapM_cons]
        cases gs.mapM groupOf <;> rfl
    · simp

theorem groups_toks (gs : List (Word × List Rust)) (tr : Bool) :
    groups (groupToks gs ++ if tr then [.comma] else []) = gs.mapM groupOf := by
  cases gs with
  | nil => cases tr <;> rfl
  | cons g gs =>
    rw [groupToks_cons]
    obtain ⟨w, es⟩ := g
    cases es with
    | nil => rw [condToks, argToks]; rfl
    | cons e es =>
      rw [condToks, argToks, groups, moreGroups_toks, List.mapM_cons]
      cases gs.mapM groupOf <;> rfl

theorem conditionsOf_map (cs : List Condition) : conditionsOf (cs.map .condition) = some cs := by
  induction cs with
  | nil => rfl
  | cons c cs ih => simp [conditionsOf, ih]

theorem ev_gens {gs : List (Word × List Rust)} {hs} (h : gs.mapM groupOf = some hs) {rs} :
    EvalAll σ (hs.map fun g => genCall g.1 g.2) rs ↔
      ∃ cs : List Condition, List.Forall₂ (fun g c => CondValue σ g.1 g.2 c) gs cs ∧
        rs = cs.map .condition := by
  induction gs generalizing hs rs with
  | nil =>
    cases h
    rw [List.reverse_nil, List.map_nil, ev_nil]
    constructor
    · rintro rfl; exact ⟨[], .nil, rfl⟩
    · rintro ⟨cs, h, rfl⟩; cases h; rfl
  | cons g gs ih =>
    obtain ⟨w, es⟩ := g
    rw [List.mapM_cons] at h
    cases es with
    | nil => cases h
    | cons e es =>
      cases hm : gs.mapM groupOf with
      | none => rw [hm] at h; cases h
      | some hs' =>
        rw [hm] at h; cases h
        rw [List.map_cons, ev_cons]
        constructor
        · rintro ⟨r, ss, h1, h2, rfl⟩
          obtain ⟨c, h3, rfl⟩ := ev_gen.1 h1
          obtain ⟨cs, h4, rfl⟩ := (ih hm).1 h2
          exact ⟨c :: cs, .cons h3 h4, rfl⟩
        · rintro ⟨cs, h, rfl⟩
          cases h with
          | cons h1 h2 => exact ⟨_, _, ev_gen.2 ⟨_, h1, rfl⟩, (ih hm).2 ⟨_, h2, rfl⟩, rfl⟩

theorem mapM_groupOf {gs : List (Word × List Rust)} {cs : List Condition}
    (h : List.Forall₂ (fun g c => CondValue σ g.1 g.2 c) gs cs) : ∃ hs, gs.mapM groupOf = some hs := by
  induction h with
  | nil => exact ⟨[], rfl⟩
  | @cons g c gs cs h _ ih =>
    obtain ⟨hs, ih⟩ := ih
    obtain ⟨w, es⟩ := g
    rw [List.mapM_cons, ih]
    cases es with
    | nil => cases h
    | cons e es => exact ⟨_, rfl⟩

/-- `post_condition!((Kind, e, ...), ...)`, with or without a comma at the end. -/
theorem ev_conditions {p gs r} {tr : Bool} :
    Eval σ (.call .postCondition p (groupToks gs ++ if tr then [.comma] else [])) r ↔
    (p = true ∨ σ .postCondition = true) ∧ ∃ cs : List Condition,
      List.Forall₂ (fun g c => CondValue σ g.1 g.2 c) gs cs ∧ r = .conditions cs := by
  rw [ev_call]
  refine and_congr_right fun _ => ?_
  have key : ∀ hs, gs.mapM groupOf = some hs →
      expand .postCondition (groupToks gs ++ if tr then [.comma] else []) =
        some (.new .PostConditions [.vec (hs.map fun g => genCall g.1 g.2)]) := by
    intro hs h
    have hg := groups_toks gs tr
    rw [h] at hg
    cases gs with
    | nil => cases h; cases tr <;> rfl
    | cons g gs =>
      rw [groupToks_cons] at hg ⊢
      simp only [expand, expandCondition, hg]
  have none' : gs.mapM groupOf = none →
      expand .postCondition (groupToks gs ++ if tr then [.comma] else []) = none := by
    intro h
    have hg := groups_toks gs tr
    rw [h] at hg
    cases gs with
    | nil => cases h
    | cons g gs =>
      rw [groupToks_cons] at hg ⊢
      simp only [expand, expandCondition, hg]
  constructor
  · rintro ⟨e, h1, h2⟩
    cases hm : gs.mapM groupOf with
    | none => rw [none' hm] at h1; cases h1
    | some hs =>
      rw [key hs hm] at h1; cases h1
      obtain ⟨_, h3, h4⟩ := ev_new1.1 h2
      obtain ⟨rs, h5, rfl⟩ := ev_vec.1 h3
      obtain ⟨cs, h6, rfl⟩ := (ev_gens hm).1 h5
      simp only [construct, conditionsOf_map, Option.map_some, Option.some.injEq] at h4
      exact ⟨cs, h6, h4.symm⟩
  · rintro ⟨cs, h, rfl⟩
    obtain ⟨hs, hm⟩ := mapM_groupOf h
    exact ⟨_, key hs hm, eval_new1 (.vec ((ev_gens hm).2 ⟨cs, h, rfl⟩))
      (by simp [construct, conditionsOf_map])⟩

theorem condValue_parts (σ : Name → Bool) (c : Condition) : CondValue σ (conditionParts c).1 (conditionParts c).2 c := by
  have u : ∀ n : UInt64, (UInt64.ofNat (Int.toNat (n.toNat : Int))) = n := by
    intro n; rw [Int.toNat_natCast, UInt64.ofNat_toNat]
  have l : ∀ n : UInt64, ((n.toNat : Int)) < 2 ^ 64 := by
    intro n; have := n.toNat_lt; exact_mod_cast this
  cases c with
  | stx a n k =>
    have := CondValue.stx (σ := σ) (a := .lit (.clarity a)) (n := .lit (.int n.toNat))
      (c := .lit (.code k)) .lit .lit (by omega) (l n) .lit
    rwa [u] at this
  | fungible a n k i =>
    have := CondValue.fungible (σ := σ) (a := .lit (.clarity a)) (n := .lit (.int n.toNat))
      (c := .lit (.code k)) (i := .lit (.info i)) .lit .lit (by omega) (l n) .lit .lit
    rwa [u] at this
  | nonFungible a n k i => exact .nonFungible .lit .lit .lit .lit

end Stacks.Macro

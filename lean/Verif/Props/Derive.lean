import Verif.Proofs.Derive

/-! # Properties C65 - C67: `#[derive(FromTuple)]` -/

namespace Stacks.Derive
open Stacks.Spec Stacks.Clarity

/-! ## What the macro accepts -/

theorem expandFields_ok (struct : Str) : ∀ (fields : List FieldRecv) (fs : List (Str × Extraction)),
    expandFields struct fields = .ok fs ↔
      List.Forall₂ (fun f e => ∃ key ft, f.ident = some e.1 ∧ f.key = some key ∧ Written f.ty ft ∧
        e.2 = extractionOf struct key (f.response == some true) ft) fields fs
  | [], fs => by cases fs <;> simp [expandFields]
  | f :: fields, fs => by
    constructor
    · intro h
      unfold expandFields at h
      split at h
      · next ident key h1 h2 =>
        simp only [Outcome.bind_eq_ok, Outcome.pure_def, Outcome.ok.injEq] at h
        obtain ⟨e, h3, es, h4, rfl⟩ := h
        obtain ⟨ft, h5, h6⟩ := expandField_ok _ _ _ _ _ h3
        exact .cons ⟨key, ft, h1, h2, h5, h6⟩ ((expandFields_ok struct fields es).1 h4)
      · cases h
    · intro h
      cases h with
      | @cons _ e _ es h1 h2 =>
        obtain ⟨key, ft, h3, h4, h5, h6⟩ := h1
        unfold expandFields
        rw [h3, h4]
        simp only [expandField_written struct f.ty key f.response ft h5,
          (expandFields_ok struct fields es).2 h2, Outcome.ok_bind, Outcome.pure_def, ← h6]

theorem expandFields_exists (struct : Str) (fields : List FieldRecv) :
    (∃ fs, expandFields struct fields = .ok fs) ↔
      ∀ f ∈ fields, f.ident.isSome ∧ f.key.isSome ∧ ∃ ft, Written f.ty ft := by
  simp only [expandFields_ok]
  induction fields with
  | nil => simp
  | cons f fields ih =>
    constructor
    · rintro ⟨fs, h⟩
      cases h with
      | cons h1 h2 =>
        obtain ⟨key, ft, h3, h4, h5, _⟩ := h1
        intro g hg
        rcases List.mem_cons.1 hg with rfl | hg
        · exact ⟨by rw [h3]; rfl, by rw [h4]; rfl, ft, h5⟩
        · exact ih.1 ⟨_, h2⟩ g hg
    · intro h
      obtain ⟨h1, h2, ft, h3⟩ := h f List.mem_cons_self
      obtain ⟨fs, h4⟩ := ih.2 fun g hg => h g (List.mem_cons_of_mem _ hg)
      obtain ⟨ident, h5⟩ := Option.isSome_iff_exists.1 h1
      obtain ⟨key, h6⟩ := Option.isSome_iff_exists.1 h2
      exact ⟨(ident, _) :: fs, .cons ⟨key, ft, h5, h6, h3, rfl⟩ h4⟩

theorem expand_ok (name : Str) (data : Option (List FieldRecv)) (impl : Impl) :
    expand ⟨name, data⟩ = .ok impl ↔ ∃ fields fs, data = some fields ∧ fields ≠ [] ∧
      expandFields name fields = .ok fs ∧ impl = ⟨name, fs⟩ := by
  unfold expand
  cases data with
  | none => simp
  | some fields =>
    simp only []
    constructor
    · intro h
      split at h
      · cases h
      · next hn =>
        split at h
        · cases h
        · simp only [Outcome.bind_eq_ok, Outcome.pure_def, Outcome.ok.injEq] at h
          obtain ⟨fs, h1, rfl⟩ := h
          exact ⟨fields, fs, rfl, by simpa using hn, h1, rfl⟩
    · rintro ⟨fields', fs, h, hn, h1, rfl⟩
      cases h
      have hk := (expandFields_exists name fields).1 ⟨fs, h1⟩
      rw [if_neg (by simpa using hn), if_neg]
      · rw [h1]; rfl
      · rw [Bool.not_eq_true, List.any_eq_false]
        intro f hf
        obtain ⟨h2, h3, _⟩ := hk f hf
        cases hi : f.ident with
        | none => rw [hi] at h2; cases h2
        | some i =>
          cases hkk : f.key with
          | none => rw [hkk] at h3; cases h3
          | some k => simp

/-- **C66** The structs the macro accepts: at least one field, and every field named, with a key and
of a supported type. Enums make it panic. -/
theorem C66_accepted_structs (name : Str) (data : Option (List FieldRecv)) :
    ((∃ impl, expand ⟨name, data⟩ = .ok impl) ↔ ∃ fields, data = some fields ∧ fields ≠ [] ∧
      ∀ f ∈ fields, f.ident.isSome ∧ f.key.isSome ∧ ∃ ft, Written f.ty ft) ∧
    (expand ⟨name, data⟩ = .panic ↔ data = none) := by
  refine ⟨?_, ?_⟩
  · simp only [expand_ok]
    constructor
    · rintro ⟨impl, fields, fs, h1, h2, h3, _⟩
      exact ⟨fields, h1, h2, (expandFields_exists name fields).1 ⟨fs, h3⟩⟩
    · rintro ⟨fields, h1, h2, h3⟩
      obtain ⟨fs, h4⟩ := (expandFields_exists name fields).2 h3
      exact ⟨_, fields, fs, h1, h2, h4, rfl⟩
  · unfold expand
    cases data with
    | none => simp
    | some fields =>
      have hf : ∀ (n : Str) (ty : SynType) (k : Str) (r : Option Bool), expandField n ty k r ≠ .panic := by
        intro n ty k r h
        unfold expandField at h
        repeat' split at h
        all_goals cases h
      have : ∀ fs, expandFields name fs ≠ .panic := by
        intro fs
        induction fs with
        | nil => simp [expandFields]
        | cons f fs ih =>
          unfold expandFields
          split
          · cases h1 : expandField name f.ty _ f.response with
            | panic => exact absurd h1 (hf _ _ _ _)
            | err e => intro h; cases h
            | ok e =>
              cases h2 : expandFields name fs with
              | panic => exact absurd h2 ih
              | err e => intro h; cases h
              | ok es => intro h; cases h
          · simp
      simp only [reduceCtorEq, iff_false]
      split
      · simp
      · split
        · simp
        · cases h2 : expandFields name fields with
          | panic => exact absurd h2 (this _)
          | err e => intro h; cases h
          | ok es => intro h; cases h

theorem expandField_rejects (struct : Str) (ty : SynType) (key : Str) (r : Option Bool) (h : ∀ ft, ¬ Written ty ft) :
    expandField struct ty key r = .err (typeComplaint ty) := by
  cases he : expandField struct ty key r with
  | ok e =>
    obtain ⟨ft, h1, _⟩ := expandField_ok _ _ _ _ _ he
    exact absurd h1 (h ft)
  | panic =>
    unfold expandField at he
    repeat' split at he
    all_goals cases he
  | err e =>
    unfold expandField at he
    repeat' split at he
    all_goals first | (cases he; rfl) | cases he

theorem expandFields_rejects (struct : Str) (f : FieldRecv) (post : List FieldRecv) (hf : ∀ ft, ¬ Written f.ty ft) :
    ∀ pre : List FieldRecv, (∀ g ∈ pre ++ f :: post, g.ident ≠ none ∧ g.key ≠ none) →
      (∀ g ∈ pre, ∃ ft, Written g.ty ft) → expandFields struct (pre ++ f :: post) = .err (typeComplaint f.ty)
  | [], hn, _ => by
    obtain ⟨h1, h2⟩ := hn f (by simp)
    obtain ⟨i, hi⟩ := Option.ne_none_iff_exists'.1 h1
    obtain ⟨k, hk⟩ := Option.ne_none_iff_exists'.1 h2
    rw [List.nil_append]
    unfold expandFields
    rw [hi, hk]
    simp only [expandField_rejects struct f.ty k f.response hf]
    rfl
  | g :: pre, hn, hp => by
    obtain ⟨h1, h2⟩ := hn g (by simp)
    obtain ⟨i, hi⟩ := Option.ne_none_iff_exists'.1 h1
    obtain ⟨k, hk⟩ := Option.ne_none_iff_exists'.1 h2
    obtain ⟨ft, hft⟩ := hp g List.mem_cons_self
    rw [List.cons_append]
    unfold expandFields
    rw [hi, hk]
    simp only [expandField_written struct g.ty k g.response ft hft, Outcome.ok_bind,
      expandFields_rejects struct f post hf pre (fun x hx => hn x (List.mem_cons_of_mem _ hx))
        (fun x hx => hp x (List.mem_cons_of_mem _ hx))]
    rfl

theorem expand_rejected (name : Str) (fields : List FieldRecv) (e : CompileError) (h : Rejected fields e) :
    expand ⟨name, some fields⟩ = .err e := by
  cases h with
  | unit => rfl
  | missing _ f hf h =>
    have h1 : fields.isEmpty = false := by cases fields with
      | nil => cases hf
      | cons a l => rfl
    have h2 : fields.any (fun f => f.key.isNone || f.ident.isNone) = true :=
      List.any_eq_true.2 ⟨f, hf, by rcases h with h | h <;> simp [h]⟩
    show (if fields.isEmpty = true then _ else _) = _
    rw [h1, if_neg (by simp), if_pos h2]
  | type pre f post hn hp hf =>
    have h1 : (pre ++ f :: post).isEmpty = false := by cases pre <;> rfl
    have h2 : (pre ++ f :: post).any (fun f => f.key.isNone || f.ident.isNone) = false := by
      rw [List.any_eq_false]
      intro g hg
      obtain ⟨a, b⟩ := hn g hg
      obtain ⟨i, hi⟩ := Option.ne_none_iff_exists'.1 a
      obtain ⟨k, hk⟩ := Option.ne_none_iff_exists'.1 b
      simp [hi, hk]
    show (if (pre ++ f :: post).isEmpty = true then _ else _) = _
    rw [h1, if_neg (by simp), h2, if_neg (by simp)]
    simp only [expandFields_rejects name f post hf pre hn hp]
    rfl

theorem first_unwritten : ∀ fields : List FieldRecv, (∀ f ∈ fields, ∃ ft, Written f.ty ft) ∨
    ∃ pre f post, fields = pre ++ f :: post ∧ (∀ g ∈ pre, ∃ ft, Written g.ty ft) ∧ ∀ ft, ¬ Written f.ty ft
  | [] => .inl (by simp)
  | f :: fields => by
    by_cases hf : ∃ ft, Written f.ty ft
    · rcases first_unwritten fields with h | ⟨pre, g, post, rfl, h1, h2⟩
      · refine .inl fun g hg => ?_
        rcases List.mem_cons.1 hg with rfl | hg
        · exact hf
        · exact h g hg
      · refine .inr ⟨f :: pre, g, post, rfl, fun x hx => ?_, h2⟩
        rcases List.mem_cons.1 hx with rfl | hx
        · exact hf
        · exact h1 x hx
    · exact .inr ⟨[], f, fields, rfl, by simp, fun ft h => hf ⟨ft, h⟩⟩

/-- **C66** The structs the macro refuses, each with its complaint. -/
theorem C66_rejected_structs (name : Str) (fields : List FieldRecv) (e : CompileError) :
    expand ⟨name, some fields⟩ = .err e ↔ Rejected fields e := by
  refine ⟨fun h => ?_, expand_rejected name fields e⟩
  have hr : ∀ e', Rejected fields e' → Rejected fields e := fun e' he => by
    have := expand_rejected name fields e' he
    rw [h] at this
    cases this; exact he
  by_cases hm : ∃ f ∈ fields, f.ident = none ∨ f.key = none
  · obtain ⟨f, hf, hh⟩ := hm
    exact hr _ (.missing fields f hf hh)
  · have hn : ∀ f ∈ fields, f.ident ≠ none ∧ f.key ≠ none := fun f hf =>
      ⟨fun h => hm ⟨f, hf, .inl h⟩, fun h => hm ⟨f, hf, .inr h⟩⟩
    rcases first_unwritten fields with hw | ⟨pre, f, post, rfl, h1, h2⟩
    · cases fields with
      | nil => exact hr _ .unit
      | cons f fields =>
        obtain ⟨impl, hi⟩ := ((C66_accepted_structs name (some (f :: fields))).1).2 ⟨_, rfl, by simp, fun g hg =>
          ⟨Option.isSome_iff_ne_none.2 (hn g hg).1, Option.isSome_iff_ne_none.2 (hn g hg).2, hw g hg⟩⟩
        rw [h] at hi; cases hi
    · exact hr _ (.type pre f post hn h1 h2)

/-- **C66** A written type means one type of field. -/
theorem C66_types_unambiguous (ty : SynType) (a b : FieldType) (ha : Written ty a) (hb : Written ty b) : a = b :=
  written_unique ty a b ha hb

/-! ## What the generated code does -/

theorem runFields_ok (scope : Scope) (tuple : List (Str × CV)) (struct : Str) :
    ∀ (fields : List FieldRecv) (fs : List (Str × Extraction)) (vs : List (Str × Val)),
    expandFields struct fields = .ok fs →
    (runFields scope tuple fs = .ok vs ↔ List.Forall₂ (FieldFits scope tuple) fields vs)
  | [], fs, vs, h => by
    cases h
    cases vs <;> simp [runFields]
  | f :: fields, fs, vs, h => by
    rw [expandFields_ok] at h
    cases h with
    | @cons _ e _ es h1 h2 =>
      obtain ⟨key, ft, h3, h4, h5, h6⟩ := h1
      obtain ⟨n, e⟩ := e
      simp only [] at h3 h6
      subst h6
      have ih := fun vs => runFields_ok scope tuple struct fields es vs ((expandFields_ok _ _ _).2 h2)
      have hr : runFields scope tuple ((n, extractionOf struct key (f.response == some true) ft) :: es) = .ok vs ↔
          ∃ v, (extractionOf struct key (f.response == some true) ft).run scope tuple = .ok v ∧
            ∃ ws, runFields scope tuple es = .ok ws ∧ vs = (n, v) :: ws := by
        conv => lhs; unfold runFields
        simp only [Outcome.bind_eq_ok, Outcome.pure_def, Outcome.ok.injEq]
        constructor
        · rintro ⟨v, a, ws, b, c⟩; exact ⟨v, a, ws, b, c.symm⟩
        · rintro ⟨v, a, ws, b, c⟩; exact ⟨v, a, ws, b, c.symm⟩
      rw [hr]
      constructor
      · rintro ⟨v, a, ws, b, rfl⟩
        exact .cons ⟨h3, key, ft, h4, h5, (run_fits _ _ _ _ _ _ _).1 a⟩ ((ih ws).1 b)
      · intro h
        cases h with
        | @cons _ nv _ ws a b =>
          obtain ⟨a1, key', ft', a2, a3, a4⟩ := a
          rw [h4] at a2; cases a2
          cases written_unique _ _ _ h5 a3
          rw [h3] at a1
          obtain ⟨n', v⟩ := nv
          cases a1
          exact ⟨v, (run_fits _ _ _ _ _ _ _).2 a4, ws, (ih ws).2 b, rfl⟩

theorem runFields_err (scope : Scope) (tuple : List (Str × CV)) (struct : Str) (e : Error) :
    ∀ (fields : List FieldRecv) (fs : List (Str × Extraction)),
    expandFields struct fields = .ok fs →
    (runFields scope tuple fs = .err e ↔ ∃ pre f post, fields = pre ++ f :: post ∧
      (∀ g ∈ pre, ∃ nv, FieldFits scope tuple g nv) ∧ FieldFails scope tuple struct f e)
  | [], fs, h => by
    cases h
    simp [runFields]
  | f :: fields, fs, h => by
    rw [expandFields_ok] at h
    cases h with
    | @cons _ x _ es h1 h2 =>
      obtain ⟨key, ft, h3, h4, h5, h6⟩ := h1
      obtain ⟨n, x⟩ := x
      simp only [] at h3 h6
      subst h6
      have ih := runFields_err scope tuple struct e fields es ((expandFields_ok _ _ _).2 h2)
      have hfit : ∀ nv, FieldFits scope tuple f nv →
          (extractionOf struct key (f.response == some true) ft).run scope tuple = .ok nv.2 := by
        rintro nv ⟨a1, key', ft', a2, a3, a4⟩
        rw [h4] at a2; cases a2
        cases written_unique _ _ _ h5 a3
        exact (run_fits _ _ _ _ _ _ _).2 a4
      have hfail : ∀ e, FieldFails scope tuple struct f e ↔
          (extractionOf struct key (f.response == some true) ft).run scope tuple = .err e := by
        intro e
        constructor
        · rintro ⟨key', ft', a2, a3, a4⟩
          rw [h4] at a2; cases a2
          cases written_unique _ _ _ h5 a3
          exact (run_fails _ _ _ _ _ _ _).2 a4
        · intro h; exact ⟨key, ft, h4, h5, (run_fails _ _ _ _ _ _ _).1 h⟩
      unfold runFields
      cases hr : (extractionOf struct key (f.response == some true) ft).run scope tuple with
      | ok v =>
        have hs : ((Outcome.ok v : Outcome Error Val) >>= fun v => runFields scope tuple es >>= fun vs =>
            pure ((n, v) :: vs)) = .err e ↔ runFields scope tuple es = .err e := by
          rw [Outcome.ok_bind]
          cases runFields scope tuple es <;> simp [Outcome.ok_bind]
        rw [hs, ih]
        constructor
        · rintro ⟨pre, g, post, rfl, a, b⟩
          refine ⟨f :: pre, g, post, rfl, ?_, b⟩
          intro q hq
          rcases List.mem_cons.1 hq with rfl | hq
          · exact ⟨(n, v), h3, key, ft, h4, h5, (run_fits _ _ _ _ _ _ _).1 hr⟩
          · exact a q hq
        · rintro ⟨pre, g, post, h, a, b⟩
          cases pre with
          | nil =>
            cases h
            rw [hfail, hr] at b; cases b
          | cons q pre =>
            cases h
            exact ⟨pre, g, post, rfl, fun q hq => a q (List.mem_cons_of_mem _ hq), b⟩
      | err e' =>
        have hs : ((Outcome.err e' : Outcome Error Val) >>= fun v => runFields scope tuple es >>= fun vs =>
            pure ((n, v) :: vs)) = .err e' := rfl
        rw [hs]
        constructor
        · intro h; cases h
          exact ⟨[], f, fields, rfl, by simp, (hfail e).2 hr⟩
        · rintro ⟨pre, g, post, h, a, b⟩
          cases pre with
          | nil =>
            cases h
            rw [hfail, hr] at b; cases b; rfl
          | cons q pre =>
            cases h
            obtain ⟨nv, hnv⟩ := a f List.mem_cons_self
            rw [hfit nv hnv] at hr; cases hr
      | panic =>
        constructor
        · intro h; cases h
        · rintro ⟨pre, g, post, h, a, b⟩
          cases pre with
          | nil =>
            cases h
            rw [hfail, hr] at b; cases b
          | cons q pre =>
            cases h
            obtain ⟨nv, hnv⟩ := a f List.mem_cons_self
            rw [hfit nv hnv] at hr; cases hr

/-! ## C65 -/

/-- **C65** The conversion succeeds exactly when every declared field fits, and gives each field its
value, in the order of the declaration. -/
theorem C65_success (scope : Scope) (name : Str) (fields : List FieldRecv) (impl : Impl)
    (h : expand ⟨name, some fields⟩ = .ok impl) (tuple : List (Str × CV)) (v : Val) :
    impl.tryFrom scope tuple = .ok v ↔
      ∃ vs, v = .struct name vs ∧ List.Forall₂ (FieldFits scope tuple) fields vs := by
  obtain ⟨fields', fs, h1, h2, h3, rfl⟩ := (expand_ok _ _ _).1 h
  cases h1
  unfold Impl.tryFrom
  simp only [Outcome.bind_eq_ok, Outcome.pure_def, Outcome.ok.injEq]
  constructor
  · rintro ⟨vs, a, b⟩; exact ⟨vs, b.symm, (runFields_ok _ _ _ _ _ _ h3).1 a⟩
  · rintro ⟨vs, a, b⟩; exact ⟨vs, (runFields_ok _ _ _ _ _ _ h3).2 b, a.symm⟩

/-- **C65** It fails exactly with the error of the first field that does not fit. -/
theorem C65_first_error (scope : Scope) (name : Str) (fields : List FieldRecv) (impl : Impl)
    (h : expand ⟨name, some fields⟩ = .ok impl) (tuple : List (Str × CV)) (e : Error) :
    impl.tryFrom scope tuple = .err e ↔ ∃ pre f post, fields = pre ++ f :: post ∧
      (∀ g ∈ pre, ∃ nv, FieldFits scope tuple g nv) ∧ FieldFails scope tuple name f e := by
  obtain ⟨fields', fs, h1, h2, h3, rfl⟩ := (expand_ok _ _ _).1 h
  cases h1
  rw [← runFields_err _ _ _ _ _ _ h3]
  unfold Impl.tryFrom
  cases runFields scope tuple fs <;> simp [Outcome.ok_bind]

/-- **C65** It panics only if a hand-written `try_from` of a field's type does. -/
theorem C65_no_panic (scope : Scope) (hs : ∀ name t, scope name t ≠ .panic) (input : InputRecv) (impl : Impl)
    (h : expand input = .ok impl) (tuple : List (Str × CV)) : impl.tryFrom scope tuple ≠ .panic := by
  obtain ⟨name, data⟩ := input
  obtain ⟨fields, fs, h1, h2, h3, rfl⟩ := (expand_ok _ _ _).1 h
  have : ∀ (fields : List FieldRecv) (fs : List (Str × Extraction)), expandFields name fields = .ok fs →
      runFields scope tuple fs ≠ .panic := by
    intro fields
    induction fields with
    | nil => intro fs h; cases h; simp [runFields]
    | cons f fields ih =>
      intro fs h
      rw [expandFields_ok] at h
      cases h with
      | @cons _ x _ es h1 h2 =>
        obtain ⟨key, ft, h3, h4, h5, h6⟩ := h1
        obtain ⟨n, x⟩ := x
        simp only [] at h6
        subst h6
        unfold runFields
        have ih := ih es ((expandFields_ok _ _ _).2 h2)
        cases hr : (extractionOf name key (f.response == some true) ft).run scope tuple with
        | panic =>
          obtain ⟨n, t, _, h⟩ := run_panic _ _ _ _ _ _ hr
          exact absurd h (hs n t)
        | err e => intro h; cases h
        | ok v =>
          cases hf : runFields scope tuple es with
          | panic => exact absurd hf ih
          | err e => intro h; cases h
          | ok vs => intro h; cases h
  unfold Impl.tryFrom
  cases hr : runFields scope tuple fs with
  | panic => exact absurd hr (this _ _ h3)
  | err e => intro h; cases h
  | ok vs => intro h; cases h

/-- **C65** Only the first entries under the keys of the struct matter: other entries, their order,
and later entries with the same key do not. -/
theorem C65_other_entries_ignored (scope : Scope) (name : Str) (fields : List FieldRecv) (impl : Impl)
    (h : expand ⟨name, some fields⟩ = .ok impl) (tuple tuple' : List (Str × CV))
    (hk : ∀ f ∈ fields, ∀ key, f.key = some key → ∀ v, FirstUnder tuple key v ↔ FirstUnder tuple' key v) :
    impl.tryFrom scope tuple = impl.tryFrom scope tuple' := by
  have hget : ∀ key, (∀ v, FirstUnder tuple key v ↔ FirstUnder tuple' key v) →
      tupleGet tuple key = tupleGet tuple' key := by
    intro key h
    simp only [first_iff] at h
    cases h1 : tupleGet tuple key with
    | some v => exact ((h v).1 h1).symm
    | none =>
      cases h2 : tupleGet tuple' key with
      | none => rfl
      | some v => rw [(h v).2 h2] at h1; cases h1
  obtain ⟨fields', fs, h1, h2, h3, rfl⟩ := (expand_ok _ _ _).1 h
  cases h1
  have : ∀ (fields : List FieldRecv) (fs : List (Str × Extraction)), expandFields name fields = .ok fs →
      (∀ f ∈ fields, ∀ key, f.key = some key → tupleGet tuple key = tupleGet tuple' key) →
      runFields scope tuple fs = runFields scope tuple' fs := by
    intro fields
    induction fields with
    | nil => intro fs h _; cases h; rfl
    | cons f fields ih =>
      intro fs h hk
      rw [expandFields_ok] at h
      cases h with
      | @cons _ x _ es h1 h2 =>
        obtain ⟨key, ft, h3, h4, h5, h6⟩ := h1
        obtain ⟨n, x⟩ := x
        simp only [] at h6
        subst h6
        have hg := hk f List.mem_cons_self key h4
        have hx : (extractionOf name key (f.response == some true) ft).run scope tuple =
            (extractionOf name key (f.response == some true) ft).run scope tuple' := by
          have he : extract tuple key name = extract tuple' key name := by unfold extract; rw [hg]
          cases ft <;> cases (f.response == some true) <;>
            simp only [extractionOf, Extraction.run, he, if_true, Bool.false_eq_true, if_false]
        unfold runFields
        rw [hx, ih es ((expandFields_ok _ _ _).2 h2) fun g hg' => hk g (List.mem_cons_of_mem _ hg')]
  unfold Impl.tryFrom
  rw [this _ _ h3 fun f hf key hkey => hget key (hk f hf key hkey)]

/-! ## C66 -/

/-- **C66** One field: its value, its error. -/
theorem C66_field (scope : Scope) (tuple : List (Str × CV)) (struct : Str) (ty : SynType) (key : Str)
    (response : Option Bool) (ft : FieldType) (e : Extraction) (hw : Written ty ft)
    (he : expandField struct ty key response = .ok e) :
    (∀ v, e.run scope tuple = .ok v ↔ Fits scope tuple key (response == some true) ft v) ∧
    (∀ err, e.run scope tuple = .err err ↔ Fails scope tuple key struct (response == some true) ft err) := by
  rw [expandField_written struct ty key response ft hw] at he
  cases he
  exact ⟨fun v => run_fits _ _ _ _ _ _ v, fun err => run_fails _ _ _ _ _ _ err⟩

/-- **C66** The mark `response` changes nothing on fields that are not integers. -/
theorem C66_response_only_for_integers (struct : Str) (ty : SynType) (key : Str) (r : Option Bool) (ft : FieldType)
    (hw : Written ty ft) (h1 : ft ≠ .i128) (h2 : ft ≠ .u128) :
    expandField struct ty key r = expandField struct ty key none := by
  rw [expandField_written _ _ _ _ _ hw, expandField_written _ _ _ _ _ hw]
  cases ft <;> first | rfl | exact absurd rfl h1 | exact absurd rfl h2

/-! ## C67 -/

/-- **C67** `Option<i128>` fails only without an entry; it is `Some` on `(some int)` only, and `None`
on any other value. -/
theorem C67_option_i128 (scope : Scope) (tuple : List (Str × CV)) (struct : Str) (ty : SynType) (key : Str)
    (response : Option Bool) (e : Extraction) (hw : Written ty .optI128)
    (he : expandField struct ty key response = .ok e) :
    (Absent tuple key → e.run scope tuple = .err (.extract key struct)) ∧
    (∀ x, FirstUnder tuple key (.optSome (.int x)) → e.run scope tuple = .ok (.optInt (some x))) ∧
    (∀ v, FirstUnder tuple key v → (∀ x, v ≠ .optSome (.int x)) → e.run scope tuple = .ok (.optInt none)) := by
  obtain ⟨h1, h2⟩ := C66_field scope tuple struct ty key response _ e hw he
  exact ⟨fun h => (h2 _).2 (.absent _ _ h (by simp)), fun x h => (h1 _).2 (.someI128 _ _ h),
    fun v h hv => (h1 _).2 (.noI128 _ _ h hv)⟩

/-- **C67** `Option<u128>` likewise. -/
theorem C67_option_u128 (scope : Scope) (tuple : List (Str × CV)) (struct : Str) (ty : SynType) (key : Str)
    (response : Option Bool) (e : Extraction) (hw : Written ty .optU128)
    (he : expandField struct ty key response = .ok e) :
    (Absent tuple key → e.run scope tuple = .err (.extract key struct)) ∧
    (∀ x, FirstUnder tuple key (.optSome (.uint x)) → e.run scope tuple = .ok (.optUint (some x))) ∧
    (∀ v, FirstUnder tuple key v → (∀ x, v ≠ .optSome (.uint x)) → e.run scope tuple = .ok (.optUint none)) := by
  obtain ⟨h1, h2⟩ := C66_field scope tuple struct ty key response _ e hw he
  exact ⟨fun h => (h2 _).2 (.absent _ _ h (by simp)), fun x h => (h1 _).2 (.someU128 _ _ h),
    fun v h hv => (h1 _).2 (.noU128 _ _ h hv)⟩

/-- **C67** `Option<String>` never fails: `Some` of the text on `(some value)`, and `None` on any
other value and without an entry. -/
theorem C67_option_string (scope : Scope) (tuple : List (Str × CV)) (struct : Str) (ty : SynType) (key : Str)
    (response : Option Bool) (e : Extraction) (hw : Written ty .optString)
    (he : expandField struct ty key response = .ok e) :
    (Absent tuple key → e.run scope tuple = .ok (.optStr none)) ∧
    (∀ v, FirstUnder tuple key (.optSome v) → e.run scope tuple = .ok (.optStr (some v.display))) ∧
    (∀ v, FirstUnder tuple key v → (∀ w, v ≠ .optSome w) → e.run scope tuple = .ok (.optStr none)) := by
  obtain ⟨h1, h2⟩ := C66_field scope tuple struct ty key response _ e hw he
  refine ⟨fun h => (h1 _).2 (.noString _ fun v hv => ?_), fun v h => (h1 _).2 (.someString _ _ h),
    fun v h hv => (h1 _).2 (.noString _ fun w hw => ?_)⟩
  · rw [first_iff, (absent_iff _ _).1 h] at hv; cases hv
  · rw [first_iff] at h hw
    rw [h] at hw
    exact hv w (Option.some.inj hw)

/-! ## Derived structs inside derived structs -/

/-- **C65** A struct all of whose nested types are derived does not panic. -/
theorem C65_nested_no_panic (other : Scope) (ho : ∀ name t, other name t ≠ .panic) :
    ∀ (decls : List Impl), (∀ d ∈ decls, ∃ input, expand input = .ok d) →
    ∀ name t, derivedScope other decls name t ≠ .panic
  | [], _, name, t => ho name t
  | d :: ds, h, name, t => by
    unfold derivedScope
    have ih := C65_nested_no_panic other ho ds fun d hd => h d (List.mem_cons_of_mem _ hd)
    obtain ⟨input, hi⟩ := h d List.mem_cons_self
    split
    · exact C65_no_panic _ ih input d hi t
    · exact ih name t

/-! ## The hypotheses are satisfiable -/

/-- A type that is a single word. -/
def word (s : String) : SynType := .path false [⟨s.toList, .none⟩]

/-- A generic type with one argument. -/
def generic (s arg : String) : SynType := .path false [⟨s.toList, .angle arg.toList⟩]

def exField (name : String) (ty : SynType) (response : Option Bool := none) : FieldRecv :=
  ⟨ty, some name.toList, some name.toList, response⟩

/-- The structs of tests/src/test_derive.rs:22-87. -/
def exData : InputRecv := ⟨"Data".toList, some [exField "a" (word "i128"), exField "b" (word "u128"),
  exField "c" (generic "Vec" "u8"), exField "d" (word "String")]⟩
def exMeta : InputRecv := ⟨"Meta".toList, some [exField "e" (word "bool"), exField "f" (word "bool")]⟩
def exOptions : InputRecv := ⟨"Options".toList, some [exField "g" (generic "Option" "i128"),
  exField "h" (generic "Option" "i128"), exField "i" (generic "Option" "u128"), exField "j" (generic "Option" "u128"),
  exField "k" (generic "Option" "String"), exField "l" (generic "Option" "String")]⟩
def exResponse : InputRecv := ⟨"Response".toList, some [exField "m" (word "u128") (some true),
  exField "n" (word "i128") (some true)]⟩
def exVector : InputRecv := ⟨"Vector".toList, some [exField "o" (generic "Vec" "String")]⟩
def exPayload : InputRecv := ⟨"Payload".toList, some [exField "data" (word "Data"), exField "meta" (word "Meta"),
  exField "response" (word "Response"), exField "options" (word "Options"), exField "vector" (word "Vector")]⟩

/-- The generated implementation, or an empty one. -/
def implOf (i : InputRecv) : Impl := match expand i with | .ok d => d | _ => ⟨[], []⟩

theorem exImpls : ∀ i ∈ [exPayload, exData, exMeta, exOptions, exResponse, exVector], expand i = .ok (implOf i) := by
  intro i hi
  simp only [List.mem_cons, List.not_mem_nil, or_false] at hi
  rcases hi with rfl | rfl | rfl | rfl | rfl | rfl <;> rfl

def exScope : Scope :=
  derivedScope (fun _ _ => .err (.extract [] [])) ([exPayload, exData, exMeta, exOptions, exResponse, exVector].map implOf)

/-- The tuple of tests/src/test_derive.rs:89-139. -/
def exTuple : List (Str × CV) :=
  [("data".toList, .tuple [("a".toList, .int 1), ("b".toList, .uint 1), ("c".toList, .buffer [1, 2, 3]),
    ("d".toList, .principalStd "STX000001".toList)]),
   ("meta".toList, .tuple [("e".toList, .tru), ("f".toList, .fls)]),
   ("response".toList, .tuple [("m".toList, .respOk (.uint 1)), ("n".toList, .respOk (.int 1))]),
   ("options".toList, .tuple [("g".toList, .optSome (.int 1)), ("h".toList, .optNone), ("i".toList, .optSome (.uint 1)),
    ("j".toList, .optNone),
    ("k".toList, .optSome (.principalCon "STX000001".toList "contract".toList)), ("l".toList, .optNone)]),
   ("vector".toList, .tuple [("o".toList, .list [.principalStd "STX0001".toList, .principalStd "STX0002".toList])])]

/-- C65: the assertions of tests/src/test_derive.rs:141-160. -/
example : exScope "Payload".toList exTuple = .ok (.struct "Payload".toList [
    ("data".toList, .struct "Data".toList [("a".toList, .int 1), ("b".toList, .uint 1), ("c".toList, .bytes [1, 2, 3]),
      ("d".toList, .str "STX000001".toList)]),
    ("meta".toList, .struct "Meta".toList [("e".toList, .bool true), ("f".toList, .bool false)]),
    ("response".toList, .struct "Response".toList [("m".toList, .uint 1), ("n".toList, .int 1)]),
    ("options".toList, .struct "Options".toList [("g".toList, .optInt (some 1)), ("h".toList, .optInt none),
      ("i".toList, .optUint (some 1)), ("j".toList, .optUint none),
      ("k".toList, .optStr (some "STX000001.contract".toList)), ("l".toList, .optStr none)]),
    ("vector".toList, .struct "Vector".toList [("o".toList, .strs ["STX0001".toList, "STX0002".toList])])]) := by
  rfl

/-- The struct of tests/src/test_derive.rs:162-194 and its tuple. -/
def exStrings : InputRecv := ⟨"Payload".toList, some (["int", "uint", "buffer", "true", "false", "p_s", "p_c",
  "response_ok", "response_err", "optional_some", "optional_none", "list", "tuple", "string_ascii",
  "string_utf8"].map fun k => exField k (word "String"))⟩
def exStringsTuple : List (Str × CV) :=
  [("int".toList, .int 1), ("uint".toList, .uint 1), ("buffer".toList, .buffer [1, 2, 3]), ("true".toList, .tru),
   ("false".toList, .fls), ("p_s".toList, .principalStd "STX000001".toList),
   ("p_c".toList, .principalCon "STX000001".toList "contract".toList), ("response_ok".toList, .respOk (.int 1)),
   ("response_err".toList, .respErr (.int 1)), ("optional_some".toList, .optSome (.int 1)),
   ("optional_none".toList, .optNone), ("list".toList, .list [.int 1, .uint 1]),
   ("tuple".toList, .tuple [("hello".toList, .int 1), ("x".toList, .uint 2)]),
   ("string_ascii".toList, .strAscii "hello world".toList), ("string_utf8".toList, .strUtf8 "hello \u1234".toList)]

/-- C66: the assertions of tests/src/test_derive.rs:220-234. -/
example : (match (implOf exStrings).tryFrom exScope exStringsTuple with
    | .ok (.struct _ vs) => vs.map fun v => match v.2 with | .str s => String.ofList s | _ => ""
    | _ => []) =
    ["1", "u1", "0x010203", "true", "false", "STX000001", "STX000001.contract", "(ok 1)", "(err 1)", "(some 1)",
     "none", "(list 1 u1)", "(tuple (hello 1) (x u2))", "\"hello world\"", "u\"hello ሴ\""] := by
  decide +kernel

/-- C65: the first failing field decides. -/
example : (implOf exData).tryFrom exScope [("b".toList, .int 1)] = .err (.extract "a".toList "Data".toList) ∧
    (implOf exData).tryFrom exScope [("b".toList, .int 1), ("a".toList, .int 1)] =
      .err (.match "b".toList "Data".toList) := ⟨rfl, rfl⟩

/-- C66: the error for a list that is not one names `Vec`. -/
example : (implOf exVector).tryFrom exScope [("o".toList, .int 1)] =
    .err (.cast "o".toList "List".toList "Vec".toList) := rfl

/-- C66: a field without a key is the complaint even when an earlier field has an unsupported type. -/
example : expand ⟨"S".toList, some [⟨.other, some "a".toList, some "a".toList, none⟩,
    ⟨word "i128", some "b".toList, none, none⟩]⟩ = .err .missingKeyOrName ∧
    expand ⟨"S".toList, some [⟨.other, some "a".toList, some "a".toList, none⟩]⟩ = .err .unsupportedType ∧
    expand ⟨"S".toList, some []⟩ = .err .unitStruct := ⟨rfl, rfl, rfl⟩

/-- C66 and C67: types as written. -/
example : Written (generic "Option" "i128") .optI128 := .optI128 false []
example : Written (.path true [⟨"std".toList, .none⟩, ⟨"vec".toList, .none⟩, ⟨"Vec".toList, .angle "u8".toList⟩]) .bytes :=
  .bytes true [⟨"std".toList, .none⟩, ⟨"vec".toList, .none⟩]
example : Written (word "Data") (.nested "Data".toList) := .nested false [] _ (by decide)
example : ¬ ∃ ft, Written (generic "Option" "bool") ft := by
  rintro ⟨ft, h⟩
  exact absurd (expandField_written [] _ [] none ft h) (by
    have : expandField [] (generic "Option" "bool") [] none = .err .unsupportedPath := rfl
    rw [this]; simp)

/-! ### instances of the theorems with hypotheses -/

example := C66_types_unambiguous (generic "Option" "i128") .optI128 .optI128 (.optI128 false []) (.optI128 false [])
example := C65_first_error exScope "Meta".toList [exField "e" (word "bool"), exField "f" (word "bool")] (implOf exMeta) rfl
  [("e".toList, .tru)] (.extract "f".toList "Meta".toList)
example := C65_no_panic (fun _ _ => .err (.extract [] [])) nofun exData (implOf exData) rfl [("a".toList, .int 1)]
-- an entry that no field reads, before the others
example : (implOf exMeta).tryFrom exScope [("x".toList, .int 1), ("e".toList, .tru)] =
    (implOf exMeta).tryFrom exScope [("e".toList, .tru)] :=
  C65_other_entries_ignored exScope "Meta".toList [exField "e" (word "bool"), exField "f" (word "bool")] _ rfl _ _
    (by
      intro f hf key hk v
      simp only [List.mem_cons, List.not_mem_nil, or_false] at hf
      rcases hf with rfl | rfl <;> cases hk <;> rw [first_iff, first_iff] <;> rfl)
example := C66_field exScope [("m".toList, .respOk (.uint 1))] "Response".toList (word "u128") "m".toList (some true) .u128 _
  .u128 rfl
example := C66_response_only_for_integers "Meta".toList (word "bool") "e".toList (some true) .bool .bool nofun nofun
example := C67_option_i128 exScope exTuple "Options".toList (generic "Option" "i128") "g".toList none _ (.optI128 false []) rfl
example := C67_option_u128 exScope exTuple "Options".toList (generic "Option" "u128") "i".toList none _ (.optU128 false []) rfl
example := C67_option_string exScope exTuple "Options".toList (generic "Option" "String") "k".toList none _ (.optString false []) rfl
example := C65_nested_no_panic (fun _ _ => .err (.extract [] [])) nofun [implOf exPayload, implOf exData]
  (by rintro d (_ | ⟨_, _ | ⟨_, ⟨⟩⟩⟩); exacts [⟨exPayload, rfl⟩, ⟨exData, rfl⟩])

end Stacks.Derive

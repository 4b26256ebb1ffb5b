import Verif.Proofs.FeeOrder
import Verif.Props.Rpc

/-! # Property C120: comparing fee estimates -/

namespace Stacks.Rpc
open Stacks.Spec Stacks.Tx

section
variable [Http] [F64Bits]

/-- **C120** The laws Rust asks of `==` and `<` hold for estimates, lists of estimates and answers, whatever the
rates are. -/
theorem C120_laws :
    PartialOrderLaws FeeEstimate.eq FeeEstimate.partialCmp ∧
    PartialOrderLaws FeeOk.eq FeeOk.partialCmp ∧
    PartialOrderLaws EstimateFeeResponse.eq EstimateFeeResponse.partialCmp := by
  refine ⟨⟨estimate_eq_iff, cmpLaws_estimate.swap, cmpLaws_estimate.trans,
      fun a b c h => cmpLaws_estimate.congr a b c ((estimate_eq_iff a b).1 h)⟩, ?_, ?_⟩
  · have hl := cmpLaws_list cmpLaws_estimate
    have he := fun a b : FeeOk => eqList_iff estimate_eq_iff a.estimations b.estimations
    exact ⟨he, fun a b => hl.swap _ _, fun a b c => hl.trans _ _ _,
      fun a b c h => hl.congr _ _ _ ((he a b).1 h)⟩
  · exact ⟨response_eq_iff, cmpLaws_response.swap, cmpLaws_response.trans,
      fun a b c h => cmpLaws_response.congr a b c ((response_eq_iff a b).1 h)⟩

/-- **C120** The fee decides first, then the number the rate stands for; without an answer are exactly the
estimates of the same fee where a rate is not a number. -/
theorem C120_estimate (x y : FeeEstimate) :
    (x.eq y = true ↔ SameEstimate x y) ∧
    (x.partialCmp y = some .eq ↔ SameEstimate x y) ∧
    (x.partialCmp y = some .lt ↔ LowerEstimate x y) ∧
    (x.partialCmp y = some .gt ↔ LowerEstimate y x) ∧
    (x.partialCmp y = none ↔ NoOrder x y) := by
  refine ⟨by rw [estimate_eq_iff, sameEstimate_iff], (sameEstimate_iff x y).symm, (lowerEstimate_iff x y).symm, ?_,
    (noOrderEstimate_iff x y).symm⟩
  rw [lowerEstimate_iff, cmpLaws_estimate.swap x y]
  rcases x.partialCmp y with _ | _ | _ | _ <;> simp

omit [Http] [F64Bits] in
/-- **C120** Every rate is a number, of one value, or an infinity, or not a number, and never two of these. -/
theorem C120_rates (b : UInt64) :
    ((∃ q, HasValue b q) ∨ (∃ s, IsInfinity b s) ∨ IsNan b) ∧
    (∀ p q, HasValue b p → HasValue b q → p = q) ∧
    (∀ q s, HasValue b q → ¬ IsInfinity b s) ∧
    ((∃ q, HasValue b q) → ¬ IsNan b) ∧
    (∀ s, IsInfinity b s → ¬ IsNan b) := by
  refine ⟨?_, ?_, ?_, ?_, ?_⟩
  · rw [isNan_iff]; exact kinds b
  · intro p q hp hq; exact (units_eq hp hq).1 rfl
  · intro q s hq hs
    have h1 := ((hasValue_iff b q).1 hq).1
    have h2 := ((isInfinity_iff b s).1 hs).1
    omega
  · rintro ⟨q, hq⟩ h
    rw [isNan_iff, not_nan_of_value hq] at h; cases h
  · intro s hs h
    rw [isNan_iff, not_nan_of_inf hs] at h; cases h

/-- **C120** Answers: estimates come before reasons; two lists of estimates are compared at the first place where
they differ, and if they differ nowhere the shorter one is first; reasons are compared as texts. -/
theorem C120_answers (a b : EstimateFeeResponse) :
    (a.partialCmp b = some .lt ↔
      (∃ f g, a = .ok f ∧ b = .ok g ∧
        (FirstDiffer LowerEstimate f.estimations g.estimations ∨ Begins f.estimations g.estimations)) ∨
      (∃ f s, a = .ok f ∧ b = .err s) ∨ ∃ s t, a = .err s ∧ b = .err t ∧ cmpStr s t = .lt) ∧
    (a.eq b = true ↔
      (∃ f g, a = .ok f ∧ b = .ok g ∧ List.Forall₂ SameEstimate f.estimations g.estimations) ∨
      ∃ s, a = .err s ∧ b = .err s) ∧
    (a.partialCmp b = none ↔
      ∃ f g, a = .ok f ∧ b = .ok g ∧ FirstDiffer NoOrder f.estimations g.estimations) := by
  rw [response_eq_iff]
  cases a with
  | err s =>
    cases b with
    | ok g => simp [EstimateFeeResponse.partialCmp]
    | err t =>
      simp only [EstimateFeeResponse.partialCmp, Option.some.injEq, reduceCtorEq, false_and, exists_false, false_or,
        EstimateFeeResponse.err.injEq, and_false]
      refine ⟨⟨fun h => ⟨s, t, rfl, rfl, h⟩, ?_⟩, ?_, by simp⟩
      · rintro ⟨_, _, rfl, rfl, h⟩; exact h
      · rw [cmpStr_total.eq]
        exact ⟨fun h => ⟨s, rfl, h.symm⟩, fun ⟨_, h1, h2⟩ => h1.trans h2.symm⟩
  | ok f =>
    cases b with
    | err t => simp [EstimateFeeResponse.partialCmp]
    | ok g =>
      obtain ⟨f⟩ := f
      obtain ⟨g⟩ := g
      simp only [EstimateFeeResponse.partialCmp, FeeOk.partialCmp, reduceCtorEq, false_and, and_false, exists_false,
        or_false, EstimateFeeResponse.ok.injEq]
      have differ : ∀ R : FeeEstimate → FeeEstimate → Prop, ∀ o : Option Ordering,
          (∀ x y, R x y ↔ x.partialCmp y = o) → o ≠ some .eq → FirstDiffer R f g →
          partialCmpList FeeEstimate.partialCmp f g = o := by
        rintro R o hR ho ⟨p, x, xs, p', y, ys, rfl, rfl, e, hd⟩
        have hd := (hR _ _).1 hd
        rw [cmp_differ e (by rw [sameEstimate_iff, hd]; exact ho), hd]
      refine ⟨⟨fun h => ⟨_, _, rfl, rfl, ?_⟩, ?_⟩, ⟨fun h => ⟨_, _, rfl, rfl, ?_⟩, ?_⟩,
        fun h => ⟨_, _, rfl, rfl, ?_⟩, ?_⟩
      · rcases lists_cases f g with e | e | ⟨p, x, xs, rfl, e⟩ | ⟨p, x, xs, p', y, ys, rfl, rfl, e, hd⟩
        · rw [cmp_same e] at h; cases h
        · exact .inr e
        · rw [cmp_longer e] at h; cases h
        · rw [cmp_differ e hd] at h
          exact .inl ⟨p, x, xs, p', y, ys, rfl, rfl, e, (lowerEstimate_iff _ _).2 h⟩
      · rintro ⟨_, _, rfl, rfl, h | h⟩
        · exact differ _ _ lowerEstimate_iff (by simp) h
        · exact cmp_begins h
      · rcases lists_cases f g with e | e | ⟨p, x, xs, rfl, e⟩ | ⟨p, x, xs, p', y, ys, rfl, rfl, e, hd⟩
        · exact e
        · rw [cmp_begins e] at h; cases h
        · rw [cmp_longer e] at h; cases h
        · rw [cmp_differ e hd] at h
          exact absurd ((sameEstimate_iff _ _).2 h) hd
      · rintro ⟨_, _, rfl, rfl, h⟩; exact cmp_same h
      · rcases lists_cases f g with e | e | ⟨p, x, xs, rfl, e⟩ | ⟨p, x, xs, p', y, ys, rfl, rfl, e, hd⟩
        · rw [cmp_same e] at h; cases h
        · rw [cmp_begins e] at h; cases h
        · rw [cmp_longer e] at h; cases h
        · rw [cmp_differ e hd] at h
          exact ⟨p, x, xs, p', y, ys, rfl, rfl, e, (noOrderEstimate_iff _ _).2 h⟩
      · rintro ⟨_, _, rfl, rfl, h⟩
        exact differ _ _ noOrderEstimate_iff (by simp) h

/-- **C120** An answer is equal to itself exactly if all its rates are numbers (or infinite). -/
theorem C120_self (a : EstimateFeeResponse) : a.eq a = true ↔ RatesAreNumbers a := by
  have same : ∀ e : FeeEstimate, SameEstimate e e ↔ ¬ IsNan (F64Bits.bits e.fee_rate) := by
    intro e
    rw [sameEstimate_iff]
    unfold FeeEstimate.partialCmp
    rw [thenCmp_eq, ← sameRate_iff, isNan_iff, u64PartialCmp]
    constructor
    · rintro ⟨_, ⟨q, h, _⟩ | ⟨s, h, _⟩⟩
      · rw [not_nan_of_value h]; simp
      · rw [not_nan_of_inf h]; simp
    · intro h
      refine ⟨congrArg some (Nat.compare_eq_eq.2 rfl), ?_⟩
      rcases kinds (F64Bits.bits e.fee_rate) with ⟨q, g⟩ | ⟨s, g⟩ | g
      · exact .inl ⟨q, g, g⟩
      · exact .inr ⟨s, g, g⟩
      · exact absurd g h
  cases a with
  | err s => simp [EstimateFeeResponse.eq, RatesAreNumbers]
  | ok f =>
    obtain ⟨f⟩ := f
    have : (List.Forall₂ SameEstimate f f) ↔ ∀ e ∈ f, ¬ IsNan (F64Bits.bits e.fee_rate) := by
      induction f with
      | nil => simp
      | cons e es ih => simp only [List.forall₂_cons, ih, same, List.forall_mem_cons]
    rw [(C120_answers _ _).2.1]
    show _ ↔ ∀ e ∈ f, _
    rw [← this]
    constructor
    · rintro (⟨_, _, h1, h2, h⟩ | ⟨_, h, _⟩)
      · cases h1; cases h2; exact h
      · cases h
    · intro h; exact .inl ⟨_, _, rfl, rfl, h⟩

/-- **C120** Answers without a rate that is not a number can always be compared. -/
theorem C120_total (a b : EstimateFeeResponse) (ha : RatesAreNumbers a) (hb : RatesAreNumbers b) :
    ∃ o, a.partialCmp b = some o := by
  cases h : a.partialCmp b with
  | some o => exact ⟨o, rfl⟩
  | none =>
    obtain ⟨f, g, rfl, rfl, p, x, xs, p', y, ys, hf, hg, _, _, hn⟩ := (C120_answers a b).2.2.1 h
    rcases hn with hn | hn
    · exact absurd hn (ha x (by rw [hf]; simp))
    · exact absurd hn (hb y (by rw [hg]; simp))

variable [Secp] [Hashes]

/-- **C120** What `estimate_fee` returns has only numbers as rates, as JSON writes no others: so it is equal to
itself, and can be compared with everything else it returned. -/
theorem C120_received (hn : NumbersAreNumbers) (r : StacksRPC) (server : Request → Reply) (t : Transaction)
    (a : EstimateFeeResponse) (h : (r.estimateFee server t).result = .ok a) :
    RatesAreNumbers a ∧ a.eq a = true ∧
    ∀ (r' : StacksRPC) (server' : Request → Reply) (t' : Transaction) (b : EstimateFeeResponse),
      (r'.estimateFee server' t').result = .ok b → ∃ o, a.partialCmp b = some o := by
  have key : ∀ (r : StacksRPC) (server : Request → Reply) (t : Transaction) (a : EstimateFeeResponse),
      (r.estimateFee server t).result = .ok a → RatesAreNumbers a := by
    intro r server t a h
    cases a with
    | err s => trivial
    | ok f =>
      obtain ⟨body, hf⟩ : ∃ body, intoJson FeeOk.fromJson body = .ok f := by
        unfold StacksRPC.estimateFee at h
        cases hq : feeRequest t with
        | err e => rw [hq] at h; cases h
        | panic => rw [hq] at h; cases h
        | ok q =>
          rw [hq] at h
          revert h
          dsimp only
          split
          · rename_i res _
            intro h
            obtain ⟨f', h1, h2⟩ := Outcome.bind_eq_ok.1 h
            cases h2
            exact ⟨res, h1⟩
          · intro h
            obtain ⟨f', h1, h2⟩ := Outcome.bind_eq_ok.1 h
            cases h2
          · intro h; cases h
      obtain ⟨j, hj, hf⟩ := (intoJson_iff _ _ _).1 hf
      obtain ⟨xs, hx, he⟩ := (feeOk_iff _ _).1 hf
      have member : ∀ {j : J} {fs : List (Str × J)} {k : Str} {v : J} {d : Http.F64}, HasFields j fs →
          (k, v) ∈ fs → FloatIn d v → FloatIn d j := by
        intro j fs k v d h hm hd
        rcases h with ⟨es, rfl, h⟩ | rfl
        · refine .obj (k := k) (x := v) ?_ hd
          have := h _ hm
          have : (k, v) ∈ es.filter (fun e => e.1 == k) := by rw [this]; exact List.mem_singleton.2 rfl
          exact (List.mem_filter.1 this).1
        · exact .arr (List.mem_map.2 ⟨_, hm, rfl⟩) hd
      intro e hm
      obtain ⟨x, hxm, rate, hrate, hfields⟩ : ∃ x ∈ xs, IsFeeEstimate x e := by
        clear hx hf
        generalize f.estimations = es at he hm
        induction he with
        | nil => exact absurd hm List.not_mem_nil
        | cons h1 _ ih =>
          rcases List.mem_cons.1 hm with rfl | hm
          · exact ⟨_, List.mem_cons_self, h1⟩
          · obtain ⟨x, h1, h2⟩ := ih hm
            exact ⟨x, List.mem_cons_of_mem _ h1, h2⟩
      generalize he : e.fee_rate = d at hrate
      cases hrate with
      | num n => exact hn.natural n
      | neg i => exact hn.integer i
      | float d =>
        refine hn.parsed body j d hj ?_
        refine member hx (List.mem_singleton.2 rfl) (.arr hxm ?_)
        exact member hfields (k := "fee_rate".toList) (v := .float d) (by simp) .here
  have ha := key r server t a h
  exact ⟨ha, (C120_self a).2 ha, fun r' server' t' b hb => C120_total a b ha (key r' server' t' b hb)⟩

end

/-! ## The hypotheses are satisfiable -/

section
attribute [local instance] Concrete.realHashes Concrete.toySecp
local instance : Secp.Lawful := Concrete.toyLawful

/-- Floating point numbers by their bits; the JSON of a body is read if it is one estimate. -/
@[reducible] def bitsHttp : Http where
  Body := Option (Nat × Nat)
  IoErr := Unit
  Transport := Unit
  F64 := UInt64
  intoString b := if b = none then .ok "no".toList else .error ()
  parseJson b := match b with
    | none => .error ()
    | some (fee, rate) => .ok (.obj [("estimations".toList,
        .arr [.obj [("fee".toList, .num fee), ("fee_rate".toList, .num rate)]])])
  dataErr := ()
  f64OfNat n := UInt64.ofNat (n % 2 ^ 52)
  f64OfInt _ := 0

attribute [local instance] bitsHttp

@[reducible] def bitsOf : F64Bits where
  bits b := b

attribute [local instance] bitsOf

/-- 1.5 is above 1.0, minus zero is zero, infinity is above, and a rate that is not a number has no place. -/
example : FeeEstimate.partialCmp ⟨7, (0x3ff0000000000000 : UInt64)⟩ ⟨7, (0x3ff8000000000000 : UInt64)⟩ = some .lt ∧
    FeeEstimate.eq ⟨7, (0 : UInt64)⟩ ⟨7, (0x8000000000000000 : UInt64)⟩ = true ∧
    FeeEstimate.partialCmp ⟨7, (0x7ff0000000000000 : UInt64)⟩ ⟨7, (0xbff0000000000000 : UInt64)⟩ = some .gt ∧
    FeeEstimate.partialCmp ⟨6, (0x7ff8000000000000 : UInt64)⟩ ⟨7, (0x3ff8000000000000 : UInt64)⟩ = some .lt ∧
    FeeEstimate.partialCmp ⟨7, (0x7ff8000000000000 : UInt64)⟩ ⟨7, (0x3ff8000000000000 : UInt64)⟩ = none := by
  decide +kernel

/-- The numbers meant: 1.5 and 1.0. -/
example : HasValue 0x3ff8000000000000 (3 / 2) ∧ HasValue 0x3ff0000000000000 1 ∧ HasValue 0 0 ∧
    HasValue 0x8000000000000000 0 ∧ IsInfinity 0x7ff0000000000000 false ∧ IsNan 0x7ff8000000000000 := by
  refine ⟨⟨false, 1023, 2 ^ 51, ⟨by decide, by decide, by decide⟩, .inl ⟨by decide, by decide, ?_⟩⟩,
    ⟨false, 1023, 0, ⟨by decide, by decide, by decide⟩, .inl ⟨by decide, by decide, ?_⟩⟩,
    ⟨false, 0, 0, ⟨by decide, by decide, by decide⟩, .inr ⟨rfl, by simp⟩⟩,
    ⟨true, 0, 0, ⟨by decide, by decide, by decide⟩, .inr ⟨rfl, by simp⟩⟩,
    ⟨by decide, by decide, by decide⟩, ⟨false, 2 ^ 51, ⟨by decide, by decide, by decide⟩, by decide⟩⟩
  · norm_num
  · norm_num

/-- An answer that is not equal to itself. -/
example : ¬ RatesAreNumbers (.ok ⟨[⟨7, (0x7ff8000000000000 : UInt64)⟩]⟩) ∧
    EstimateFeeResponse.eq (.ok ⟨[⟨7, (0x7ff8000000000000 : UInt64)⟩]⟩)
      (.ok ⟨[⟨7, (0x7ff8000000000000 : UInt64)⟩]⟩) = false := by
  refine ⟨?_, by decide +kernel⟩
  rw [← C120_self]
  decide +kernel

/-- `bitsHttp` has only numbers, and `estimate_fee` returns an answer there. -/
example : NumbersAreNumbers := by
  have small : ∀ n : Nat, ¬ IsNan (UInt64.ofNat (n % 2 ^ 52)) := by
    rintro n ⟨s, f, ⟨h, _⟩, _⟩
    rw [UInt64.toNat_ofNat'] at h
    omega
  refine ⟨?_, small, fun _ => small 0⟩
  intro body j f h hf
  cases body with
  | none => cases h
  | some p =>
    cases h
    cases hf with
    | obj h hf =>
      simp only [List.mem_cons, List.not_mem_nil, or_false, Prod.mk.injEq] at h
      obtain ⟨rfl, rfl⟩ := h
      cases hf with
      | arr h hf =>
        rw [List.mem_singleton] at h
        subst h
        cases hf with
        | obj h hf =>
          simp only [List.mem_cons, List.not_mem_nil, or_false, Prod.mk.injEq] at h
          rcases h with ⟨rfl, rfl⟩ | ⟨rfl, rfl⟩ <;> cases hf

example : ∃ a, (StacksRPC.estimateFee ⟨"http://n".toList⟩ (fun _ => .response 200 (some (180, 3))) exTx).result =
    .ok (.ok a) ∧ a.estimations ≠ [] := by
  obtain ⟨parse, hp⟩ := (parser_exists : ∃ parse : Arr 33 → Option Secp.PK, _)
  obtain ⟨bs, h, _⟩ := C43_reader_recovers parse hp exTx exTx_wf []
  obtain ⟨_, p, hp, _⟩ := (C62_estimate_fee ⟨[]⟩ (fun _ => .response 200 none) exTx).1 bs h
  refine ⟨⟨[⟨180, (3 : UInt64)⟩]⟩, ((C63_estimate_fee _ _ exTx bs p h hp).1 _).2 ?_, by simp⟩
  exact ⟨200, _, _, rfl, by decide, rfl, (feeOk_iff _ _).1 rfl⟩

end

end Stacks.Rpc

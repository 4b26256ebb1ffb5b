import Verif.Proofs.Macro

/-! # C92, C93: what the literal macros build -/

namespace Stacks.Macro
open Stacks.Clarity (CV)
open Stacks.Tx (Condition)
open Stacks.Spec

variable (σ : Name → Bool)

/-- **C92** Every Clarity value can be written with `clarity!`, its parts nested to any depth, and
what is built is that value and nothing else; the macro has to be imported by name. -/
theorem C92_every_value (v : CV) (r : Value) :
    Eval σ (.call .clarity false (written v)) r ↔ σ .clarity = true ∧ r = .clarity v := by
  constructor
  · intro h
    have hs : σ .clarity = true := by
      rcases (ev_call.1 h).1 with h | h
      · cases h
      · exact h
    exact ⟨hs, eval_det h (eval_written hs false v)⟩
  · rintro ⟨hs, rfl⟩; exact eval_written hs false v

/-- **C92** Called as `stacks_rs::clarity!` without an import, it works for values with no values
inside only. -/
theorem C92_by_path (hσ : σ .clarity = false) (v : CV) (r : Value) :
    Eval σ (.call .clarity true (written v)) r ↔ Flat v ∧ r = .clarity v := by
  constructor
  · intro h
    have hf : Flat v := by
      have no : ∀ {ty e r}, ¬ Eval σ (.new ty [claBox e]) r := by
        intro ty e r h
        obtain ⟨_, h1, -⟩ := ev_new1.1 h
        rw [(ev_claBox.1 h1).1] at hσ; cases hσ
      cases v with
      | respOk v => rw [written] at h; obtain ⟨-, _, h1, h2⟩ := ev_call.1 h; cases h1; exact no h2
      | respErr v => rw [written] at h; obtain ⟨-, _, h1, h2⟩ := ev_call.1 h; cases h1; exact no h2
      | optSome v => rw [written] at h; obtain ⟨-, _, h1, h2⟩ := ev_call.1 h; cases h1; exact no h2
      | list vs =>
        rw [written, writtenAll_eq] at h
        rw [(ev_list.1 h).2.1] at hσ; cases hσ
      | fnArgs vs =>
        rw [written, writtenAll_eq] at h
        rw [(ev_fnArgs.1 h).2.1] at hσ; cases hσ
      | tuple es =>
        rw [written, writtenEntries_eq] at h
        rw [(ev_tuple.1 h).2.1] at hσ; cases hσ
      | _ => trivial
    exact ⟨hf, eval_det h (eval_flat hf (.inl rfl))⟩
  · rintro ⟨hf, rfl⟩; exact eval_flat hf (.inl rfl)

/-- **C92** An invocation has at most one meaning. -/
theorem C92_unique (e : Rust) (r s : Value) (hr : Eval σ e r) (hs : Eval σ e s) : r = s :=
  eval_det hr hs

/-- **C92** `Int` and `UInt` with any integer: it compiles exactly if the integer fits, and the value
is that integer. -/
theorem C92_integers (e : Rust) (z : Int) (he : Eval σ e (.int z)) (hσ : σ .clarity = true) :
    (∀ v, Eval σ (.call .clarity false [.ident .Int, .comma, .expr e]) (.clarity v) ↔
      ∃ x : BitVec 128, x.toInt = z ∧ v = .int x) ∧
    (∀ v, Eval σ (.call .clarity false [.ident .UInt, .comma, .expr e]) (.clarity v) ↔
      ∃ x : BitVec 128, (x.toNat : Int) = z ∧ v = .uint x) := by
  constructor
  · intro v
    constructor
    · intro h
      obtain ⟨-, _, h1, h2⟩ := ev_call.1 h
      cases h1
      obtain ⟨_, h3, h4⟩ := ev_new1.1 h2
      cases eval_det he h3
      simp only [construct] at h4
      split at h4
      · rename_i hz
        cases h4
        refine ⟨_, ?_, rfl⟩
        rw [BitVec.toInt_ofInt, Int.bmod_eq_of_le] <;> omega
      · cases h4
    · rintro ⟨x, rfl, rfl⟩
      refine .call (.inr hσ) rfl (eval_new1 he ?_)
      have h1 := BitVec.le_toInt x
      have h2 := BitVec.toInt_lt (x := x)
      simp only [construct]
      rw [if_pos ⟨by simpa using h1, by simpa using h2⟩, BitVec.ofInt_toInt]
  · intro v
    constructor
    · intro h
      obtain ⟨-, _, h1, h2⟩ := ev_call.1 h
      cases h1
      obtain ⟨_, h3, h4⟩ := ev_new1.1 h2
      cases eval_det he h3
      simp only [construct] at h4
      split at h4
      · rename_i hz
        cases h4
        refine ⟨_, ?_, rfl⟩
        obtain ⟨n, rfl⟩ := Int.eq_ofNat_of_zero_le hz.1
        have : n < 2 ^ 128 := by exact_mod_cast hz.2
        rw [BitVec.ofInt_natCast, BitVec.toNat_ofNat, Nat.mod_eq_of_lt this]
      · cases h4
    · rintro ⟨x, rfl, rfl⟩
      refine .call (.inr hσ) rfl (eval_new1 he ?_)
      have h2 := x.isLt
      simp only [construct]
      rw [if_pos ⟨by omega, by exact_mod_cast h2⟩, BitVec.ofInt_natCast, BitVec.ofNat_toNat]
      simp

/-- **C92** Lists, function arguments and tuples of any expressions: the values of the expressions,
in the order written, under the keys written. -/
theorem C92_containers (hσ : σ .clarity = true) (es : List Rust) (ks : List (Rust × Rust)) (r : Value) :
    (Eval σ (.call .clarity false (.ident .List :: argToks es)) r ↔
      ∃ vs : List CV, EvalAll σ es (vs.map Value.clarity) ∧ r = .clarity (.list vs)) ∧
    (Eval σ (.call .clarity false (.ident .FnArguments :: argToks es)) r ↔
      ∃ vs : List CV, EvalAll σ es (vs.map Value.clarity) ∧ r = .clarity (.fnArgs vs)) ∧
    (Eval σ (.call .clarity false (.ident .Tuple :: pairToks ks)) r ↔
      ∃ vs : List (Str × CV), Entries σ ks vs ∧ r = .clarity (.tuple vs)) := by
  refine ⟨ev_list.trans ?_, ev_fnArgs.trans ?_, ev_tuple.trans ?_⟩ <;> simp [hσ]

/-- **C92** Responses and optionals around any expression. -/
theorem C92_wrappers (hσ : σ .clarity = true) (e : Rust) (r : Value) :
    (Eval σ (.call .clarity false [.ident .ResponseOk, .comma, .expr e]) r ↔
      ∃ v, Eval σ e (.clarity v) ∧ r = .clarity (.respOk v)) ∧
    (Eval σ (.call .clarity false [.ident .ResponseErr, .comma, .expr e]) r ↔
      ∃ v, Eval σ e (.clarity v) ∧ r = .clarity (.respErr v)) ∧
    (Eval σ (.call .clarity false [.ident .OptionalSome, .comma, .expr e]) r ↔
      ∃ v, Eval σ e (.clarity v) ∧ r = .clarity (.optSome v)) := by
  refine ⟨?_, ?_, ?_⟩
  all_goals
    constructor
    · intro h
      obtain ⟨-, _, h1, h2⟩ := ev_call.1 h
      cases h1
      obtain ⟨_, h3, h4⟩ := ev_new1.1 h2
      obtain ⟨-, v, h5, rfl⟩ := ev_claBox.1 h3
      cases h4
      exact ⟨v, h5, rfl⟩
    · rintro ⟨v, h, rfl⟩
      exact .call (.inr hσ) rfl (eval_new1 (ev_claBox.2 ⟨hσ, v, h, rfl⟩) rfl)

/-- **C92** Whatever follows it, the name at the front is that of the type that is built. -/
theorem C92_named_type (p : Bool) (w : Word) (ts : List Tok) (r : Value)
    (h : Eval σ (.call .clarity p (.ident w :: ts)) r) : ∃ v, r = .clarity v ∧ typeName v = w := by
  have hn : ∀ {w' es r}, Eval σ (.new w' es) r → (∀ c, r ≠ .postCondition c) → (∀ cs, r ≠ .conditions cs) →
      ∃ v, r = .clarity v ∧ typeName v = w' := by
    intro w' es r h n1 n2
    obtain ⟨rs, -, h2⟩ := ev_new.1 h
    unfold construct at h2
    split at h2
    all_goals first
      | (cases h2; done)
      | (cases h2; exact ⟨_, rfl, rfl⟩)
      | (split at h2 <;> cases h2; exact ⟨_, rfl, rfl⟩)
      | (simp only [Option.map_eq_some_iff] at h2; obtain ⟨_, -, rfl⟩ := h2
         first | exact ⟨_, rfl, rfl⟩ | exact absurd rfl (n1 _) | exact absurd rfl (n2 _))
      | (cases h2; exact absurd rfl (n1 _))
  have hc : ∀ {w' es r}, Eval σ (.new w' es) r → w' = w → (∃ v, r = .clarity v ∧ typeName v = w) ∨
      (w = .STXPostCondition ∨ w = .FungiblePostCondition ∨ w = .NonFungiblePostCondition ∨
        w = .PostConditions) := by
    clear h
    rintro w' es r h rfl
    by_cases n1 : ∃ c, r = .postCondition c
    · right
      obtain ⟨c, rfl⟩ := n1
      obtain ⟨rs, -, h2⟩ := ev_new.1 h
      unfold construct at h2
      split at h2
      all_goals first
        | (simp; done)
        | cases h2
        | (split at h2 <;> cases h2)
        | simp at h2
    by_cases n2 : ∃ cs, r = .conditions cs
    · right
      obtain ⟨c, rfl⟩ := n2
      obtain ⟨rs, -, h2⟩ := ev_new.1 h
      unfold construct at h2
      split at h2
      all_goals first
        | (simp; done)
        | cases h2
        | (split at h2 <;> cases h2)
        | simp at h2
    exact .inl (hn h (fun c e => n1 ⟨c, e⟩) (fun c e => n2 ⟨c, e⟩))
  obtain ⟨-, e, h1, h2⟩ := ev_call.1 h
  simp only [expand] at h1
  generalize hts : Tok.ident w :: ts = us at h1
  unfold expandClarity at h1
  split at h1 <;> try simp only [List.cons.injEq, Tok.ident.injEq, reduceCtorEq, false_and] at hts
  all_goals try (cases h1; done)
  all_goals
    obtain ⟨rfl, -⟩ := hts
    first
      | (cases h1
         have h3 := (ev_empty.1 h2).2
         cases h3
         exact ⟨_, rfl, rfl⟩)
      | (cases h1
         rcases hc h2 rfl with h | h
         · exact h
         · rcases h with h | h | h | h <;> cases h)
      | (simp only [Option.map_eq_some_iff] at h1
         obtain ⟨_, -, rfl⟩ := h1
         rcases hc h2 rfl with h | h
         · exact h
         · rcases h with h | h | h | h <;> cases h)

/-- **C92** `clarity!(Buffer)` does not compile, whatever is imported. -/
theorem C92_empty_buffer (p : Bool) (r : Value) : ¬ Eval σ (.call .clarity p [.ident .Buffer]) r := by
  intro h
  obtain ⟨-, _, h1, -⟩ := ev_call.1 h
  cases h1

/-- **C93** One post-condition: its kind and its parts, in the order of the constructor. -/
theorem C93_one (p : Bool) (w : Word) (es : List Rust) (r : Value) :
    Eval σ (.call .postCondition p (.ident w :: argToks es)) r ↔
      (p = true ∨ σ .postCondition = true) ∧ ∃ c, CondValue σ w es c ∧ r = .condition c :=
  ev_single (g := (w, es))

/-- **C93** Any number of post-conditions: all of them, in the order written, with or without a comma
at the end. -/
theorem C93_all (p : Bool) (gs : List (Word × List Rust)) (trailing : Bool) (r : Value) :
    Eval σ (.call .postCondition p (groupToks gs ++ if trailing then [.comma] else [])) r ↔
      (p = true ∨ σ .postCondition = true) ∧ ∃ cs : List Condition,
        List.Forall₂ (fun g c => CondValue σ g.1 g.2 c) gs cs ∧ r = .conditions cs :=
  ev_conditions

/-- **C93** Every list of post-conditions can be written, by path too, and what is built is that list. -/
theorem C93_every_list (cs : List Condition) (trailing : Bool) (r : Value) :
    Eval σ (.call .postCondition true
      (groupToks (cs.map conditionParts) ++ if trailing then [.comma] else [])) r ↔ r = .conditions cs := by
  have h : List.Forall₂ (fun g c => CondValue σ g.1 g.2 c) (cs.map conditionParts) cs := by
    induction cs with
    | nil => exact .nil
    | cons c cs ih => exact .cons (condValue_parts σ c) ih
  have e := (C93_all σ true (cs.map conditionParts) trailing (.conditions cs)).2 ⟨.inl rfl, cs, h, rfl⟩
  exact ⟨fun h' => eval_det h' e, fun h' => h' ▸ e⟩

/-! ## Concrete cases -/

/-- Both macros imported, or none. -/
def allNames : Name → Bool := fun _ => true
@[inherit_doc allNames] def noNames : Name → Bool := fun _ => false

/-- README.md:99-116, part of it: a list with a tuple and a response in it. -/
def exValue : CV := .list [.int (BitVec.ofInt 128 (-4)), .respOk (.optSome (.int 1)),
  .tuple [("foo".toList, .int 1), ("bar".toList, .uint 2)], .strAscii "Hello, world!".toList]

example : Eval allNames (.call .clarity false (written exValue)) (.clarity exValue) :=
  (C92_every_value allNames exValue _).2 ⟨rfl, rfl⟩
example : ¬ Eval noNames (.call .clarity true (written exValue)) (.clarity exValue) :=
  fun h => ((C92_by_path noNames rfl exValue _).1 h).1
example : Eval noNames (.call .clarity true (written (.uint 2))) (.clarity (.uint 2)) :=
  (C92_by_path noNames rfl _ _).2 ⟨trivial, rfl⟩
example : Eval allNames (.call .clarity false [.ident .Int, .comma, .expr (.lit (.int (-4)))])
    (.clarity (.int (BitVec.ofInt 128 (-4)))) :=
  ((C92_integers allNames (.lit (.int (-4))) (-4) .lit rfl).1 _).2 ⟨_, by decide, rfl⟩
example : ¬ ∃ v, Eval allNames (.call .clarity false [.ident .UInt, .comma, .expr (.lit (.int (-4)))])
    (.clarity v) := by
  rintro ⟨v, h⟩
  obtain ⟨x, hx, -⟩ := ((C92_integers allNames (.lit (.int (-4))) (-4) .lit rfl).2 _).1 h
  omega
/-- The key may be anything with `to_string()`, a value of the Clarity types included. -/
example : Eval allNames (.call .clarity false [.ident .Tuple, .comma,
    .paren [.expr (.lit (.int 7)), .comma, .expr (.lit (.clarity .tru))]])
    (.clarity (.tuple [("7".toList, .tru)])) :=
  (C92_containers allNames rfl [] [(.lit (.int 7), .lit (.clarity .tru))] _).2.2.2
    ⟨_, .cons .lit rfl .lit .nil, rfl⟩
example : Eval noNames (.call .postCondition true (groupToks [(.STXCondition,
      [.call .clarity true [.ident .PrincipalStandard, .comma, text "SP".toList], .lit (.int 60149),
        .lit (.code .gte)])] ++ [.comma]))
    (.conditions [.stx (.principalStd "SP".toList) 60149 .gte]) :=
  (C93_all noNames true _ true _).2 ⟨.inl rfl, _, .cons (.stx
    ((C92_by_path noNames rfl (.principalStd "SP".toList) _).2 ⟨trivial, rfl⟩)
    .lit (by decide) (by decide) .lit) .nil, rfl⟩
/-- Parts in another order do not compile. -/
example (r : Value) : ¬ Eval allNames (.call .postCondition false (.ident .STXCondition :: argToks
    [.lit (.clarity .tru), .lit (.code .gte), .lit (.int 1)])) r := by
  intro h
  obtain ⟨-, c, h, -⟩ := (C93_one allNames false _ _ r).1 h
  cases h with
  | stx _ h _ _ _ => cases h

end Stacks.Macro

import Verif.Spec.Types
import Verif.Props.Names

/-! # C119: values that the network refuses -/

namespace Stacks.Tx
open Stacks.Spec Stacks.Clarity

/-! ## Lemmas -/

theorem hasAll_iff (vs : List CV) (t : Ty) : HasAll vs t ↔ ∀ v ∈ vs, Has v t := by
  induction vs with
  | nil => exact ⟨fun _ _ h => absurd h List.not_mem_nil, fun _ => trivial⟩
  | cons v vs ih => rw [HasAll, ih, List.forall_mem_cons]

theorem entry_depth {fs : List (Str × Ty)} {k : Str} {t : Ty} (h : (k, t) ∈ fs) : t.depth ≤ Ty.entriesDepth fs := by
  induction fs with
  | nil => exact absurd h List.not_mem_nil
  | cons f fs ih =>
    obtain ⟨k', u⟩ := f
    rw [Ty.entriesDepth]
    rcases List.mem_cons.1 h with h | h
    · cases h; omega
    · have := ih h; omega

mutual
theorem has_nesting : ∀ (v : CV) (t : Ty), Has v t → nesting v ≤ t.depth
  | .optSome v, .optional t, h => by
    rw [nesting, Ty.depth]; have := has_nesting v t h; omega
  | .respOk v, .response t u, h => by
    rw [nesting, Ty.depth]; have := has_nesting v t h; omega
  | .respErr v, .response t u, h => by
    rw [nesting, Ty.depth]; have := has_nesting v u h; omega
  | .list vs, .list n t, h => by
    rw [nesting, Ty.depth]; have := has_nestingAll vs t h.2; omega
  | .tuple es, .tuple fs, h => by
    rw [nesting, Ty.depth]; have := has_nestingEntries es fs h.2; omega
  | .int _, t, _ | .uint _, t, _ | .tru, t, _ | .fls, t, _ | .principalStd _, t, _ | .principalCon _ _, t, _
  | .buffer _, t, _ | .strAscii _, t, _ | .strUtf8 _, t, _ | .optNone, t, _ | .lps _, t, _ | .fnArgs _, t, _ => by
    rw [nesting]
    cases t <;> simp only [Ty.depth] <;> omega
theorem has_nestingAll : ∀ (vs : List CV) (t : Ty), HasAll vs t → nestingAll vs ≤ t.depth
  | [], _, _ => Nat.zero_le _
  | v :: vs, t, h => by
    rw [nestingAll]
    have := has_nesting v t h.1
    have := has_nestingAll vs t h.2
    omega
theorem has_nestingEntries : ∀ (es : List (Str × CV)) (fs : List (Str × Ty)), HasEntries es fs →
    nestingEntries es ≤ Ty.entriesDepth fs
  | [], _, _ => Nat.zero_le _
  | (k, v) :: es, fs, h => by
    obtain ⟨⟨t, hm, ht⟩, h2⟩ := h
    rw [nestingEntries]
    have := has_nesting v t ht
    have := entry_depth hm
    have := has_nestingEntries es fs h2
    omega
end

theorem has_kind (v w : CV) (t : Ty) (hv : Has v t) (hw : Has w t) : kindOf v = kindOf w := by
  cases v <;> cases t <;> first | exact absurd hv id | (cases w <;> first | rfl | exact absurd hw id)

theorem hasEntries_mem {es : List (Str × CV)} {fs : List (Str × Ty)} (h : HasEntries es fs) {k : Str} {v : CV}
    (hm : (k, v) ∈ es) : ∃ t, (k, t) ∈ fs ∧ Has v t := by
  induction es with
  | nil => exact absurd hm List.not_mem_nil
  | cons e es ih =>
    obtain ⟨k', v'⟩ := e
    obtain ⟨h1, h2⟩ := h
    rcases List.mem_cons.1 hm with hm | hm
    · cases hm; exact h1
    · exact ih h2 hm

/-- **C119** What is inside a value that has a type has a type. -/
theorem C119_inside (v w : CV) (h : Typed v) (hi : Inside w v) : Typed w := by
  induction hi with
  | refl => exact h
  | some _ ih | ok _ ih =>
    obtain ⟨t, ht, hd⟩ := h
    cases t <;> first | exact absurd ht id | exact ih ⟨_, ht, by rw [Ty.depth] at hd; omega⟩
  | err _ ih =>
    obtain ⟨t, ht, hd⟩ := h
    cases t <;> first | exact absurd ht id | exact ih ⟨_, ht, by rw [Ty.depth] at hd; omega⟩
  | list _ hm ih =>
    obtain ⟨t, ht, hd⟩ := h
    cases t with
    | list n t => exact ih ⟨t, (hasAll_iff _ t).1 ht.2 _ hm, by rw [Ty.depth] at hd; omega⟩
    | _ => exact absurd ht id
  | tuple _ hm ih =>
    obtain ⟨t, ht, hd⟩ := h
    cases t with
    | tuple fs =>
      obtain ⟨u, hu, hh⟩ := hasEntries_mem ht.2 hm
      have := entry_depth hu
      exact ih ⟨u, hh, by rw [Ty.depth] at hd; omega⟩
    | _ => exact absurd ht id

/-- **C119** The values of a list that has a type are of one kind, and each has a type. -/
theorem C119_list (vs : List CV) (h : Typed (.list vs)) :
    (∀ v ∈ vs, ∀ w ∈ vs, kindOf v = kindOf w) ∧ ∀ v ∈ vs, Typed v := by
  obtain ⟨t, ht, hd⟩ := h
  cases t with
  | list n t =>
    have ha := (hasAll_iff vs t).1 ht.2
    refine ⟨fun v hv w hw => has_kind v w t (ha v hv) (ha w hw), fun v hv => ⟨t, ha v hv, ?_⟩⟩
    rw [Ty.depth] at hd
    omega
  | _ => exact absurd ht id

/-- **C119** A value that has a type is nested at most 32 deep. -/
theorem C119_nesting (v : CV) (h : Typed v) : nesting v ≤ 32 := by
  obtain ⟨t, ht, hd⟩ := h
  have := has_nesting v t ht
  omega

/-- **C119** Values without parts have a type; a list of values of one type that is not nested too deep has one; and
so has what is wrapped as optional or response. -/
theorem C119_typed :
    (∀ v : CV, kindOf v ∈ [.int, .uint, .bool, .principal, .buffer, .ascii, .utf8] → Typed v) ∧ Typed .optNone ∧
    (∀ (vs : List CV) (t : Ty), (∀ v ∈ vs, Has v t) → t.depth < 32 → Typed (.list vs)) ∧
    (∀ (v : CV) (t : Ty), Has v t → t.depth < 32 → Typed (.optSome v) ∧ Typed (.respOk v) ∧ Typed (.respErr v)) := by
  refine ⟨fun v hk => ?_, ⟨.optional .int, trivial, by decide⟩, fun vs t h hd => ?_, fun v t h hd => ⟨?_, ?_, ?_⟩⟩
  · cases v with
    | int => exact ⟨.int, trivial, by decide⟩
    | uint => exact ⟨.uint, trivial, by decide⟩
    | tru => exact ⟨.bool, trivial, by decide⟩
    | fls => exact ⟨.bool, trivial, by decide⟩
    | principalStd => exact ⟨.principal, trivial, by decide⟩
    | principalCon => exact ⟨.principal, trivial, by decide⟩
    | buffer bs => exact ⟨.buffer bs.length, Nat.le_refl _, by simp [Ty.depth]⟩
    | strAscii s => exact ⟨.ascii s.length, Nat.le_refl _, by simp [Ty.depth]⟩
    | strUtf8 s => exact ⟨.utf8 s.length, Nat.le_refl _, by simp [Ty.depth]⟩
    | respOk | respErr | optNone | optSome | list | tuple | lps | fnArgs => exact absurd hk (by simp [kindOf])
  · exact ⟨.list vs.length t, ⟨Nat.le_refl _, (hasAll_iff vs t).2 h⟩, by rw [Ty.depth]; omega⟩
  · exact ⟨.optional t, h, by rw [Ty.depth]; omega⟩
  · exact ⟨.response t .int, h, by rw [Ty.depth, Ty.depth]; omega⟩
  · exact ⟨.response .int t, h, by rw [Ty.depth, Ty.depth]; omega⟩

section
variable [Secp] [Hashes]

/-- A call, under any rules that do not depend on how the memo is padded. -/
theorem call_rules [Secp.Lawful] (rules : Transaction → Prop) (parse : Arr 33 → Option Secp.PK)
    (hp : ∀ k, parse (Secp.serialize k) = some k)
    (b : STXContractCall) (t : Transaction) (ht : b.transaction = .ok t)
    (hlen : b.contract.bytes.length ≤ 128 ∧ b.fnName.bytes.length ≤ 128)
    (hargs : b.fnArgs.length < 2 ^ 32 ∧ ∀ v ∈ b.fnArgs, WellFormed v ∧ Ascending v)
    (hconds : b.postConditions.length < 2 ^ 32 ∧ ∀ c ∈ b.postConditions, WellFormedCondition c ∧ CodeFits c ∧
      ∀ a v code info, c = .nonFungible a v code info → Ascending v) :
    ∃ t' n bs p, t.sign b.sender = .ok t' ∧ t'.verifyOrigin = .ok n ∧ t'.encode = .ok bs ∧
      t'.postConditions = b.postConditions ∧ t'.payload = .contractCall p ∧ p.contract = b.contract ∧ p.name = b.fnName ∧
      p.args = b.fnArgs ∧ (SortingNodeAccepts rules parse bs ↔ rules t') := by
  obtain ⟨hs, bytes, v, hd, hl⟩ := (C57_ok_iff b).1 ⟨t, ht⟩
  obtain ⟨t2, c, g1, _, _, g2, g3, _, _, _, _, _, _, g4, g5⟩ := (C57_contract_call b).2.2.2 bytes v hl hd hs
  rw [ht] at g1
  cases g1
  have hb : AcceptableBody t.postConditions t.payload := by
    rw [g4, g5]
    exact ⟨hconds.1, fun c hc => ⟨(hconds.2 c hc).1, (hconds.2 c hc).2.1⟩,
      ⟨hlen.1, hlen.2, hargs.1, fun v hv => (hargs.2 v hv).1⟩, trivial⟩
  obtain ⟨t', bs, h1, h2, h3⟩ := C80_call_accepted parse hp b t ht hb
  obtain ⟨_, _, _, e⟩ := (sign_iff _ _ _).1 h1
  have hpc : t'.postConditions = b.postConditions := by rw [e]; exact g4
  have hpl : t'.payload = .contractCall ⟨⟨⟨bytes, hl⟩, v⟩, b.contract, b.fnName, b.fnArgs⟩ := by rw [e]; exact g5
  have hau : ∃ c' : SingleSig, c'.mode = .p2pkh ∧ t'.auth = .standard (.single c') := by
    rw [e, g2]; refine ⟨{ c with signature := _ }, ?_, rfl⟩; exact g3
  obtain ⟨c', hm, hau⟩ := hau
  have hw : WellFormedTransaction t' := acceptable_wf (by rw [hau]; exact .inl hm) (by rw [hpc, hpl, ← g4, ← g5]; exact hb)
  obtain ⟨_, _, ⟨⟨n, hv⟩, _⟩, _⟩ := (C80_accepts_iff parse hp t' hw (by rw [hau]; exact trivial) bs h2).1 h3
  refine ⟨t', n, bs, _, h1, hv, h2, hpc, hpl, rfl, rfl, rfl, ?_⟩
  rw [C112_ascending rules parse hp t' hw ?_ bs h2, and_iff_left h3]
  · have hrb : readBack t'.payload = t'.payload := by rw [hpl]; rfl
    rw [hrb]
  · intro w hv
    rcases List.mem_append.1 hv with hv | hv
    · rw [hpl] at hv; exact (hargs.2 w hv).2
    · obtain ⟨c, hm, e⟩ := List.mem_filterMap.1 hv
      rw [hpc] at hm
      cases c with
      | stx => cases e
      | fungible => cases e
      | nonFungible a x code info => cases e; exact (hconds.2 _ hm).2.2 a w code info rfl

/-- **C119** A contract call is built, signed, verified and encoded whatever the types of its arguments; a node that
has rules for names and types accepts it exactly when the names are good and each argument, and each token in a
post-condition, has a type. -/
theorem C119_call [Secp.Lawful] (parse : Arr 33 → Option Secp.PK) (hp : ∀ k, parse (Secp.serialize k) = some k)
    (b : STXContractCall) (t : Transaction) (ht : b.transaction = .ok t)
    (hlen : b.contract.bytes.length ≤ 128 ∧ b.fnName.bytes.length ≤ 128)
    (hargs : b.fnArgs.length < 2 ^ 32 ∧ ∀ v ∈ b.fnArgs, WellFormed v ∧ Ascending v)
    (hconds : b.postConditions.length < 2 ^ 32 ∧ ∀ c ∈ b.postConditions, WellFormedCondition c ∧ CodeFits c ∧
      ∀ a v code info, c = .nonFungible a v code info → Ascending v) :
    ∃ t' n bs, t.sign b.sender = .ok t' ∧ t'.verifyOrigin = .ok n ∧ t'.encode = .ok bs ∧
      (SortingNodeAccepts (fun t => GoodNames t ∧ GoodTypes t) parse bs ↔
        (ContractName b.contract ∧ ClarityName b.fnName ∧ (∀ v ∈ b.fnArgs, ValueNames v) ∧
          ∀ c ∈ b.postConditions, ConditionNames c) ∧
        (∀ v ∈ b.fnArgs, Typed v) ∧ ∀ a v code info, .nonFungible a v code info ∈ b.postConditions → Typed v) := by
  obtain ⟨t', n, bs, p, h1, h2, h3, h4, h5, h6, h7, h8, h9⟩ :=
    call_rules (fun t => GoodNames t ∧ GoodTypes t) parse hp b t ht hlen hargs hconds
  refine ⟨t', n, bs, h1, h2, h3, h9.trans ?_⟩
  have e1 : GoodNames t' ↔ (ContractName b.contract ∧ ClarityName b.fnName ∧ (∀ v ∈ b.fnArgs, ValueNames v) ∧
      ∀ c ∈ b.postConditions, ConditionNames c) := by
    unfold GoodNames
    rw [h4, h5, PayloadNames, h6, h7, h8]
    exact ⟨fun ⟨q1, q2, q3, q4⟩ => ⟨q2, q3, q4, q1⟩, fun ⟨q2, q3, q4, q1⟩ => ⟨q1, q2, q3, q4⟩⟩
  have e2 : GoodTypes t' ↔ ((∀ v ∈ b.fnArgs, Typed v) ∧
      ∀ a v code info, .nonFungible a v code info ∈ b.postConditions → Typed v) := by
    unfold GoodTypes
    constructor
    · intro h
      exact ⟨fun v hv => h v (valuesIn_arg h5 (by rw [h8]; exact hv)),
        fun a v code info hm => h v (valuesIn_token (by rw [h4]; exact hm))⟩
    · rintro ⟨q1, q2⟩ v hv
      rcases List.mem_append.1 hv with hv | hv
      · rw [h5] at hv; exact q1 v (by rw [← h8]; exact hv)
      · obtain ⟨c, hm, e⟩ := List.mem_filterMap.1 hv
        rw [h4] at hm
        cases c with
        | stx => cases e
        | fungible => cases e
        | nonFungible a x code info => cases e; exact q2 a v code info hm
  rw [e1, e2]

/-- **C119** Rules add up: a node that has two sets of rules accepts what nodes with one of them each accept. -/
theorem C119_rules_add (P Q : Transaction → Prop) (parse : Arr 33 → Option Secp.PK) (bytes : Bytes) :
    SortingNodeAccepts (fun t => P t ∧ Q t) parse bytes ↔
      SortingNodeAccepts P parse bytes ∧ SortingNodeAccepts Q parse bytes := by
  constructor
  · rintro ⟨t, h1, ⟨hp, hq⟩, h⟩
    exact ⟨⟨t, h1, hp, h⟩, t, h1, hq, h⟩
  · rintro ⟨⟨t, h1, hp, h⟩, t', h1', hq, _⟩
    have e := h1.symm.trans h1'
    simp only [Option.some.injEq, Prod.mk.injEq, and_true] at e
    subst e
    exact ⟨t, h1, ⟨hp, hq⟩, h⟩

/-- **C119** So a call with a list of values of different kinds anywhere in its arguments, or an argument nested more than
32 deep, is built, signed, verified and encoded without an error, and refused. -/
theorem C119_refused [Secp.Lawful] (parse : Arr 33 → Option Secp.PK) (hp : ∀ k, parse (Secp.serialize k) = some k)
    (b : STXContractCall) (t : Transaction) (ht : b.transaction = .ok t)
    (hlen : b.contract.bytes.length ≤ 128 ∧ b.fnName.bytes.length ≤ 128)
    (hargs : b.fnArgs.length < 2 ^ 32 ∧ ∀ v ∈ b.fnArgs, WellFormed v ∧ Ascending v)
    (hconds : b.postConditions = [])
    (hbad : (∃ a vs v w, a ∈ b.fnArgs ∧ Inside (.list vs) a ∧ v ∈ vs ∧ w ∈ vs ∧ kindOf v ≠ kindOf w) ∨
      ∃ v ∈ b.fnArgs, 32 < nesting v) :
    ∃ t' n bs, t.sign b.sender = .ok t' ∧ t'.verifyOrigin = .ok n ∧ t'.encode = .ok bs ∧
      ¬ SortingNodeAccepts (fun t => GoodNames t ∧ GoodTypes t) parse bs := by
  obtain ⟨t', n, bs, h1, h2, h3, h4⟩ := C119_call parse hp b t ht hlen hargs
    (by rw [hconds]; exact ⟨by show 0 < _; decide, fun _ h => absurd h List.not_mem_nil⟩)
  refine ⟨t', n, bs, h1, h2, h3, fun h => ?_⟩
  have ha := (h4.1 h).2.1
  rcases hbad with ⟨a, vs, v, w, hm, hi, hv, hw, hk⟩ | ⟨v, hv, hn⟩
  · exact hk ((C119_list vs (C119_inside a _ (ha a hm) hi)).1 v hv w hw)
  · have := C119_nesting v (ha v hv); omega

end

/-! ## The hypotheses are satisfiable, and the refusals happen -/

section
open Stacks.Concrete.Ecdsa
attribute [local instance] realSecp Concrete.realHashes
local instance typesLawful : Secp.Lawful := realLawful

/-- A call with one argument. -/
def exTypedCall (v : CV) : STXContractCall := { exNamedCall "pool" "set" with fnArgs := [v] }

theorem exTypedCall_built (v : CV) : ∃ t, (exTypedCall v).transaction = .ok t :=
  (C57_ok_iff _).2 ⟨rfl, [0xa4, 0x6f, 0xf8, 0x88, 0x86, 0xc2, 0xef, 0x97, 0x62, 0xd9, 0x70, 0xb4, 0xd2, 0xc6, 0x36,
    0x78, 0x83, 0x5b, 0xd3, 0x9d], 22, (by
      show C32.c32AddressDecode "SP2J6ZY48GV1EZ5V2V5RB9MP66SW86PYKKNRV9EJ7".toList = _
      decide +kernel), rfl⟩

/-- `some` written `n` times around a number. -/
def exNested : Nat → CV
  | 0 => .uint 1
  | n + 1 => .optSome (exNested n)

theorem exNested_facts (n : Nat) : nesting (exNested n) = n + 1 ∧ WellFormed (exNested n) ∧ Ascending (exNested n) ∧
    ValueNames (exNested n) ∧ ∃ t, Has (exNested n) t ∧ t.depth = n + 1 := by
  induction n with
  | zero => exact ⟨rfl, trivial, trivial, trivial, .uint, trivial, rfl⟩
  | succ n ih =>
    obtain ⟨h1, h2, h3, h4, t, h5, h6⟩ := ih
    exact ⟨by rw [exNested, nesting, h1], h2, h3, h4, .optional t, h5, by rw [Ty.depth, h6]⟩

/-- The network takes a number wrapped in `some` up to 31 times, and no more. -/
example (parse : Arr 33 → Option Secp.PK) (hp : ∀ k, parse (Secp.serialize k) = some k) (n : Nat) :
    ∃ t t' m bs, (exTypedCall (exNested n)).transaction = .ok t ∧ t.sign ⟨7, by decide⟩ = .ok t' ∧
      t'.verifyOrigin = .ok m ∧ t'.encode = .ok bs ∧
      (SortingNodeAccepts (fun t => GoodNames t ∧ GoodTypes t) parse bs ↔ n ≤ 31) := by
  obtain ⟨t, ht⟩ := exTypedCall_built (exNested n)
  obtain ⟨h1, h2, h3, h4, u, h5, h6⟩ := exNested_facts n
  obtain ⟨t', m, bs, g1, g2, g3, g4⟩ := C119_call parse hp _ t ht
    (show (Str.bytes "pool".toList).length ≤ 128 ∧ (Str.bytes "set".toList).length ≤ 128 by decide +kernel)
    ⟨by show 1 < _; decide, fun v hv => by cases List.mem_singleton.1 hv; exact ⟨h2, h3⟩⟩
    ⟨by show 0 < _; decide, fun _ h => absurd h List.not_mem_nil⟩
  refine ⟨t, t', m, bs, ht, g1, g2, g3, g4.trans ⟨fun h => ?_, fun h => ⟨⟨?_, ?_, ?_, ?_⟩, ?_, ?_⟩⟩⟩
  · have := C119_nesting _ (h.2.1 _ List.mem_cons_self); omega
  · show ContractName "pool".toList; decide
  · show ClarityName "set".toList; decide
  · intro v hv; cases List.mem_singleton.1 hv; exact h4
  · exact fun _ h => absurd h List.not_mem_nil
  · intro v hv; cases List.mem_singleton.1 hv; exact ⟨u, h5, by omega⟩
  · exact fun _ _ _ _ h => absurd h List.not_mem_nil

/-- A list of a number and `true` inside an optional value is signed and encoded, and refused. -/
example (parse : Arr 33 → Option Secp.PK) (hp : ∀ k, parse (Secp.serialize k) = some k) :
    ∃ t t' n bs, (exTypedCall (.optSome (.list [.uint 1, .tru]))).transaction = .ok t ∧
      t.sign ⟨7, by decide⟩ = .ok t' ∧ t'.verifyOrigin = .ok n ∧ t'.encode = .ok bs ∧
      ¬ SortingNodeAccepts (fun t => GoodNames t ∧ GoodTypes t) parse bs := by
  obtain ⟨t, ht⟩ := exTypedCall_built (.optSome (.list [.uint 1, .tru]))
  obtain ⟨t', n, bs, h1, h2, h3, h4⟩ := C119_refused parse hp _ t ht (by decide +kernel)
    ⟨by show 1 < _; decide, fun v hv => by
      cases List.mem_singleton.1 hv
      exact ⟨⟨by decide, trivial, trivial, trivial⟩, trivial, trivial, trivial⟩⟩ rfl
    (.inl ⟨_, _, .uint 1, .tru, List.mem_cons_self, .some (.refl _), List.mem_cons_self,
      List.mem_cons_of_mem _ List.mem_cons_self, by decide⟩)
  exact ⟨t, t', n, bs, ht, h1, h2, h3, h4⟩

/-- Lists of tuples with the same names and types, in any order and with texts of different lengths, have a type;
with different names they have none. -/
example : Typed (.list [.tuple [("a".toList, .uint 1), ("b".toList, .strAscii "xy".toList)],
      .tuple [("b".toList, .strAscii "".toList), ("a".toList, .uint 2)]]) ∧
    ¬ Typed (.list [.tuple [("a".toList, .uint 1)], .tuple [("b".toList, .uint 1)]]) := by
  refine ⟨⟨.list 2 (.tuple [("a".toList, .uint), ("b".toList, .ascii 2)]), ?_, by decide +kernel⟩, ?_⟩
  · refine ⟨by decide, ⟨rfl, ⟨.uint, by simp, trivial⟩, ⟨.ascii 2, by simp, show _ ≤ 2 by decide⟩, trivial⟩,
      ⟨rfl, ⟨.ascii 2, by simp, show _ ≤ 2 by decide⟩, ⟨.uint, by simp, trivial⟩, trivial⟩, trivial⟩
  · rintro ⟨t, ht, _⟩
    cases t with
    | list n t =>
      obtain ⟨_, h1, h2, _⟩ := ht
      cases t with
      | tuple fs =>
        obtain ⟨hl, ⟨u, hu, _⟩, _⟩ := h1
        obtain ⟨_, ⟨w, hw, _⟩, _⟩ := h2
        cases fs with
        | nil => cases hl
        | cons f fs =>
          cases fs with
          | cons => cases hl
          | nil =>
            have e1 := congrArg Prod.fst (List.mem_singleton.1 hu)
            have e2 := congrArg Prod.fst (List.mem_singleton.1 hw)
            exact absurd (show "a".toList = "b".toList from e1.trans e2.symm) (by decide)
      | _ => exact absurd h1 id
    | _ => exact absurd ht id

end

end Stacks.Tx

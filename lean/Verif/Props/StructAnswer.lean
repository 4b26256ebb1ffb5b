import Verif.Spec.StructAnswer
import Verif.Props.Derive
import Verif.Props.ReadOnly

/-! # Property C121: structs from the answers of contracts -/

namespace Stacks.Derive
open Stacks.Spec Stacks.Clarity

theorem firstUnder_unique {t : List (Str × CV)} {key : Str} {v w : CV} (hv : FirstUnder t key v)
    (hw : FirstUnder t key w) : v = w := by
  induction t with
  | nil => obtain ⟨pre, post, h, _⟩ := hv; cases pre <;> cases h
  | cons e es ih =>
    obtain ⟨pre, post, h1, h2⟩ := hv
    obtain ⟨pre', post', h3, h4⟩ := hw
    cases pre with
    | nil =>
      cases pre' with
      | nil => cases h1; cases h3; rfl
      | cons a as => cases h1; cases h3; exact absurd rfl (h4 _ List.mem_cons_self)
    | cons a as =>
      cases pre' with
      | nil => cases h1; cases h3; exact absurd rfl (h2 _ List.mem_cons_self)
      | cons b bs =>
        exact ih ⟨as, post, (List.cons.inj h1).2, fun e he => h2 e (List.mem_cons_of_mem _ he)⟩
          ⟨bs, post', (List.cons.inj h3).2, fun e he => h4 e (List.mem_cons_of_mem _ he)⟩

/-- The value under a key is the same once one of the tuples has it. -/
theorem same_value {t t' : List (Str × CV)} {key : Str} {v : CV} (h : FirstUnder t key v) (h' : FirstUnder t' key v) :
    ∀ x, FirstUnder t key x ↔ FirstUnder t' key x := fun _ =>
  ⟨fun hx => firstUnder_unique h hx ▸ h', fun hx => firstUnder_unique h' hx ▸ h⟩

theorem fits_iff_same (scope : Scope) (t t' : List (Str × CV)) (key : Str) (r : Bool) (ft : FieldType) (w : Val)
    (h : Fits scope t key r ft w) : Fits scope t' key r ft w ↔ SameFor scope key t t' ft := by
  cases h with
  | i128 x h => exact ⟨fun g => by cases g with | i128 _ g => exact same_value h g, fun g => .i128 x ((g _).1 h)⟩
  | u128 x h => exact ⟨fun g => by cases g with | u128 _ g => exact same_value h g, fun g => .u128 x ((g _).1 h)⟩
  | i128Response x h =>
    exact ⟨fun g => by cases g with | i128Response _ g => exact same_value h g, fun g => .i128Response x ((g _).1 h)⟩
  | u128Response x h =>
    exact ⟨fun g => by cases g with | u128Response _ g => exact same_value h g, fun g => .u128Response x ((g _).1 h)⟩
  | true r h => exact ⟨fun g => by cases g with | true _ g => exact same_value h g, fun g => .true r ((g _).1 h)⟩
  | false r h => exact ⟨fun g => by cases g with | false _ g => exact same_value h g, fun g => .false r ((g _).1 h)⟩
  | bytes r bs h => exact ⟨fun g => by cases g with | bytes _ _ g => exact same_value h g, fun g => .bytes r bs ((g _).1 h)⟩
  | string r v h =>
    constructor
    · intro g
      generalize he : Val.str v.display = w at g
      cases g with
      | string _ v' g => exact ⟨v, v', h, g, Val.str.inj he⟩
    · rintro ⟨x, x', h1, h2, e⟩
      cases firstUnder_unique h h1
      rw [e]
      exact .string r x' h2
  | strings r vs h =>
    constructor
    · intro g
      generalize he : Val.strs (vs.map CV.display) = w at g
      cases g with
      | strings _ vs' g => exact ⟨vs, vs', h, g, Val.strs.inj he⟩
    · rintro ⟨x, x', h1, h2, e⟩
      cases firstUnder_unique h h1
      rw [e]
      exact .strings r x' h2
  | someI128 r x h =>
    constructor
    · intro g
      cases g with
      | someI128 _ _ g => exact ⟨⟨_, g⟩, fun y => same_value h g _⟩
    · rintro ⟨_, g⟩; exact .someI128 r x ((g x).1 h)
  | noI128 r v h hv =>
    constructor
    · intro g
      cases g with
      | noI128 _ v' g hv' =>
        exact ⟨⟨_, g⟩, fun y => ⟨fun hy => absurd (firstUnder_unique h hy) (hv y),
          fun hy => absurd (firstUnder_unique g hy) (hv' y)⟩⟩
    · rintro ⟨⟨x', g⟩, g'⟩
      refine .noI128 r x' g fun y e => ?_
      subst e
      exact hv y (firstUnder_unique h ((g' y).2 g))
  | someU128 r x h =>
    constructor
    · intro g
      cases g with
      | someU128 _ _ g => exact ⟨⟨_, g⟩, fun y => same_value h g _⟩
    · rintro ⟨_, g⟩; exact .someU128 r x ((g x).1 h)
  | noU128 r v h hv =>
    constructor
    · intro g
      cases g with
      | noU128 _ v' g hv' =>
        exact ⟨⟨_, g⟩, fun y => ⟨fun hy => absurd (firstUnder_unique h hy) (hv y),
          fun hy => absurd (firstUnder_unique g hy) (hv' y)⟩⟩
    · rintro ⟨⟨x', g⟩, g'⟩
      refine .noU128 r x' g fun y e => ?_
      subst e
      exact hv y (firstUnder_unique h ((g' y).2 g))
  | someString r v h =>
    constructor
    · intro g
      generalize he : Val.optStr (some v.display) = w at g
      cases g with
      | someString _ v' g =>
        have he := Option.some.inj (Val.optStr.inj he)
        refine fun s => ⟨?_, ?_⟩
        · rintro ⟨x, hx, rfl⟩
          cases firstUnder_unique h hx
          exact ⟨v', g, he.symm⟩
        · rintro ⟨x, hx, rfl⟩
          cases firstUnder_unique g hx
          exact ⟨v, h, he⟩
      | noString _ g => cases he
    · intro g
      obtain ⟨x, hx, e⟩ := (g v.display).1 ⟨v, h, rfl⟩
      rw [← e]
      exact .someString r x hx
  | noString r h =>
    constructor
    · intro g
      cases g with
      | noString _ g =>
        exact fun s => ⟨fun ⟨x, hx, _⟩ => absurd hx (h x), fun ⟨x, hx, _⟩ => absurd hx (g x)⟩
    · intro g
      refine .noString r fun x hx => ?_
      obtain ⟨y, hy, _⟩ := (g x.display).2 ⟨x, hx, rfl⟩
      exact h y hy
  | nested r name u v h hv =>
    constructor
    · intro g
      cases g with
      | nested _ _ u' _ g hv' => exact ⟨u, u', w, h, g, hv, hv'⟩
    · rintro ⟨u1, u', v', h1, h2, h3, h4⟩
      cases firstUnder_unique h h1
      rw [hv] at h3
      cases h3
      exact .nested r name u' w h2 h4

/-- **C121** What a struct says about the tuple it was made from, exactly: two tuples make the same struct if and
only if they mean the same for every field. -/
theorem C121_says (scope : Scope) (name : Str) (fields : List FieldRecv) (impl : Impl)
    (h : expand ⟨name, some fields⟩ = .ok impl) (t t' : List (Str × CV)) (v : Val) (hv : impl.tryFrom scope t = .ok v) :
    impl.tryFrom scope t' = .ok v ↔
      ∀ f ∈ fields, ∀ key ft, f.key = some key → Written f.ty ft → SameFor scope key t t' ft := by
  rw [C65_success scope name fields impl h] at hv ⊢
  obtain ⟨vs, rfl, hv⟩ := hv
  have step : List.Forall₂ (FieldFits scope t') fields vs ↔
      ∀ f ∈ fields, ∀ key ft, f.key = some key → Written f.ty ft → SameFor scope key t t' ft := by
    clear h
    induction hv with
    | nil => simp
    | @cons f nv fs nvs hf _ ih =>
      rw [List.forall₂_cons, ih, List.forall_mem_cons]
      refine and_congr_left fun _ => ?_
      obtain ⟨hi, key, ft, hk, hw, hfit⟩ := hf
      have e := fits_iff_same scope t t' key _ ft nv.2 hfit
      constructor
      · rintro ⟨_, key', ft', hk', hw', hfit'⟩ key'' ft'' hk'' hw''
        cases hk.symm.trans hk'
        cases hk.symm.trans hk''
        cases C66_types_unambiguous _ _ _ hw hw'
        cases C66_types_unambiguous _ _ _ hw hw''
        exact e.1 hfit'
      · intro g
        exact ⟨hi, key, ft, hk, hw, e.2 (g key ft hk hw)⟩
  rw [← step]
  constructor
  · rintro ⟨vs', e, h'⟩
    cases e; exact h'
  · intro h'; exact ⟨vs, rfl, h'⟩

/-- **C121** The order of a tuple's entries does not matter, if no key is twice in it. -/
theorem C121_any_order (scope : Scope) (name : Str) (fields : List FieldRecv) (impl : Impl)
    (h : expand ⟨name, some fields⟩ = .ok impl) (t t' : List (Str × CV)) (hp : t.Perm t') (hn : (t.map (·.1)).Nodup) :
    impl.tryFrom scope t = impl.tryFrom scope t' := by
  have mem : ∀ (u : List (Str × CV)), (u.map (·.1)).Nodup → ∀ key v, FirstUnder u key v ↔ (key, v) ∈ u := by
    intro u hu key v
    constructor
    · rintro ⟨pre, post, rfl, _⟩; simp
    · intro hm
      obtain ⟨pre, post, rfl⟩ := List.append_of_mem hm
      refine ⟨pre, post, rfl, fun e he hk => ?_⟩
      rw [List.map_append, List.map_cons, List.nodup_append] at hu
      exact hu.2.2 e.1 (List.mem_map_of_mem he) key List.mem_cons_self hk
  refine C65_other_entries_ignored scope name fields impl h t t' fun f _ key _ v => ?_
  rw [mem t hn, mem t' ((hp.map _).nodup_iff.1 hn), hp.mem_iff]

end Stacks.Derive

namespace Stacks.Rpc
open Stacks.Spec Stacks.Clarity Stacks.Derive

section
variable [Http] [Hashes] (escaped : Char → Bool) (fl : Http.F64 → Str) (order : List (Str × J) → List (Str × J))
variable (hslash : escaped '/' = false) (horder : ∀ es, (order es).Perm es) (bytes : Http.Body → Bytes)
  (float : Str → Option Http.F64) (hp : ∀ body j, Read.body float (bytes body) = some j → Http.parseJson body = .ok j)
  (f : Asked → Except Str CV) (hf : ∀ a v, f a = .ok v → WellFormed v)
include hslash horder hp hf

/-- **C121** A struct read from a contract has the fields that fit what the contract returned: the caller gets one if
and only if the contract returned a tuple that every field fits. -/
theorem C121_struct (r : StacksRPC) (server : Request → Reply) (hn : HasContracts escaped fl order bytes float r.url server f)
    (address contract function sender : Str) (args : List CV) (hu : '?' ∉ r.url) (hu' : '#' ∉ r.url)
    (ha : ∀ c ∈ address, UrlPlain c) (hc : ∀ c ∈ contract, UrlPlain c) (hfn : ∀ c ∈ function, UrlPlain c)
    (hargs : ∀ a ∈ args, WellFormed a) (scope : Scope) (name : Str) (fields : List FieldRecv) (impl : Impl)
    (hi : expand ⟨name, some fields⟩ = .ok impl) (s : Val) :
    structOf scope impl (r.readOnly server address contract function args sender).result = some s ↔
      ∃ t vs, f ⟨address, contract, function, sender, args⟩ = .ok (.tuple t) ∧ s = .struct name vs ∧
        List.Forall₂ (FieldFits scope t) fields vs := by
  have hr := C113_call escaped fl order hslash horder bytes float hp f hf r server hn address contract function sender
    args hu hu' ha hc hfn hargs
  generalize (r.readOnly server address contract function args sender).result = result at hr
  cases he : f ⟨address, contract, function, sender, args⟩ with
  | error cause =>
    rw [he] at hr
    rw [show result = _ from hr]
    simp [structOf]
  | ok v =>
    rw [he] at hr
    obtain ⟨h, bs, rfl, h1, h2⟩ := hr
    replace h1 := ((Hex.C02_hex_decode_exact h).1 bs).2 h1
    have hs : structOf scope impl (.ok (.ok ⟨true, "0x".toList ++ h⟩)) =
        match v.cast .tuple with
        | .ok t => match impl.tryFrom scope t with | .ok s => some s | _ => none
        | _ => none := by
      show structOf scope impl (.ok (.ok ⟨true, '0' :: 'x' :: h⟩)) = _
      unfold structOf
      simp only [h1, h2]
      rfl
    rw [hs]
    by_cases ht : ∃ t, v = .tuple t
    · obtain ⟨t, rfl⟩ := ht
      have hc : (CV.tuple t).cast .tuple = .ok t := rfl
      simp only [hc]
      have e := C65_success scope name fields impl hi t s
      constructor
      · intro h
        refine ⟨t, ?_⟩
        cases hx : impl.tryFrom scope t with
        | ok s' =>
          rw [hx] at h
          cases h
          obtain ⟨vs, e1, e2⟩ := e.1 hx
          exact ⟨vs, rfl, e1, e2⟩
        | err _ => rw [hx] at h; cases h
        | panic => rw [hx] at h; cases h
      · rintro ⟨t', vs, e1, e2, e3⟩
        cases e1
        rw [e.2 ⟨vs, e2, e3⟩]
    · have hc : ∀ t, v.cast .tuple ≠ .ok t := by
        intro t h
        exact ht ⟨t, by cases v <;> cases h; rfl⟩
      constructor
      · intro h
        cases hx : v.cast .tuple with
        | ok t => exact absurd hx (hc t)
        | err _ => rw [hx] at h; cases h
        | panic => rw [hx] at h; cases h
      · rintro ⟨t, _, e, _⟩
        cases e
        exact absurd ⟨t, rfl⟩ ht

end

/-! ## The hypotheses are satisfiable -/

section
attribute [local instance] Concrete.realHashes readOnlyHttp

/-- A contract that says what it knows about a token. -/
def tokenContract (a : Asked) : Except Str CV :=
  if a.function = "get-token".toList then
    .ok (.tuple [("a".toList, .int 5), ("b".toList, .uint 7), ("c".toList, .buffer [1, 2]), ("d".toList, .tru)])
  else .error "NoSuchFunction".toList

/-- C121: the struct `Data` of tests/src/test_derive.rs, read from a node. -/
example : ∃ server, HasContracts (fun c => c = '<') id id (fun b => b) some "http://n".toList server tokenContract ∧
    structOf exScope (implOf exData) (StacksRPC.readOnly ⟨"http://n".toList⟩ server "ST1".toList "token".toList
      "get-token".toList [] "ST2".toList).result =
    some (.struct "Data".toList [("a".toList, .int 5), ("b".toList, .uint 7), ("c".toList, .bytes [1, 2]),
      ("d".toList, .str "true".toList)]) := by
  have hp : ∀ (body : Http.Body) (j : J), Read.body (F := Str) some body = some j → Http.parseJson body = .ok j := by
    intro body j h
    show (match Read.body (F := Str) some body with | some j => Except.ok j | none => .error ()) = _
    rw [h]
  have hplain : ∀ s ∈ ["ST1".toList, "token".toList, "get-token".toList], ∀ c ∈ s, UrlPlain c := by
    intro s hs c hc
    simp only [List.mem_cons, List.not_mem_nil, or_false] at hs
    unfold UrlPlain
    rcases hs with rfl | rfl | rfl <;> revert c <;> decide
  have hwf : ∀ a v, tokenContract a = .ok v → WellFormed v := by
    intro a v h
    unfold tokenContract at h
    split at h
    · cases h
      simp only [WellFormed, WellFormedEntries]
      decide
    · cases h
  obtain ⟨server, hs⟩ := hasContracts_exists (fun c => c = '<') id id (fun b => b) (some : Str → Option Http.F64)
    (Str.bytes : Str → Http.Body) (fun _ => rfl) "http://n".toList tokenContract
  refine ⟨server, hs, ?_⟩
  refine (C121_struct _ _ _ (by decide) (fun _ => .refl _) _ _ hp _ hwf ⟨_⟩ server hs _ _ _ _ [] (by decide)
    (by decide) (hplain _ (.head _)) (hplain _ (.tail _ (.head _))) (hplain _ (.tail _ (.tail _ (.head _))))
    (fun _ h => absurd h List.not_mem_nil) exScope "Data".toList _ (implOf exData)
    (exImpls exData (by simp)) _).2 ⟨_, _, rfl, rfl, ?_⟩
  obtain ⟨vs, h1, h2⟩ := (C65_success exScope "Data".toList _ (implOf exData) (exImpls exData (by simp))
    [("a".toList, .int 5), ("b".toList, .uint 7), ("c".toList, .buffer [1, 2]), ("d".toList, .tru)] _).1 rfl
  cases h1
  exact h2

/-- C121: a struct says less than the tuple where a text stands for the value, and where there is no `some`. -/
example : (implOf exData).tryFrom exScope [("a".toList, .int 5), ("b".toList, .uint 7), ("c".toList, .buffer []),
      ("d".toList, .int 1)] =
    (implOf exData).tryFrom exScope [("x".toList, .tru), ("d".toList, .principalStd "1".toList), ("c".toList, .buffer []),
      ("b".toList, .uint 7), ("a".toList, .int 5)] ∧
    SameFor exScope "g".toList [("g".toList, .optNone)] [("g".toList, .optSome (.uint 3))] .optI128 := by
  refine ⟨rfl, ⟨_, [], [], rfl, fun _ h => absurd h List.not_mem_nil⟩, fun x => ⟨fun h => ?_, fun h => ?_⟩⟩
  · cases firstUnder_unique h ⟨[], [], rfl, fun _ h => absurd h List.not_mem_nil⟩
  · cases firstUnder_unique h ⟨[], [], rfl, fun _ h => absurd h List.not_mem_nil⟩

/-- C121: entries in another order. -/
example : (implOf exMeta).tryFrom exScope [("f".toList, .fls), ("e".toList, .tru)] =
    (implOf exMeta).tryFrom exScope [("e".toList, .tru), ("f".toList, .fls)] :=
  C121_any_order exScope "Meta".toList _ _ (exImpls exMeta (by simp)) _ _ (.swap _ _ _) (by decide)

end

end Stacks.Rpc

import Verif.Proofs.Display
import Verif.Proofs.CVDecEq
import Verif.Proofs.Address
import Verif.Spec.Clarity
import Verif.Spec.Assoc
import Verif.Spec.Box

/-! # Properties C31 - C33: equality, casting and tuples -/

namespace Stacks.Clarity
open Stacks.Spec

/-! ### C31: equality -/

/-- **C31** `==` is an equivalence relation, and equal values compare equal. -/
theorem C31_eq_equivalence :
    (∀ v : CV, v.eq v = true) ∧
    (∀ v w : CV, v.eq w = true → w.eq v = true) ∧
    (∀ u v w : CV, u.eq v = true → v.eq w = true → u.eq w = true) := by
  simp only [CV.eq, beq_iff_eq]
  exact ⟨fun _ => trivial, fun _ _ h => h.symm, fun _ _ _ h1 h2 => h1.trans h2⟩

/-- **C31** On integers, booleans, buffers, strings and standard principals `==` is equality. -/
theorem C31_eq_on_scalars :
    (∀ x y, (CV.int x).eq (.int y) = true ↔ x.toInt = y.toInt) ∧
    (∀ x y, (CV.uint x).eq (.uint y) = true ↔ x.toNat = y.toNat) ∧
    (CV.tru.eq .tru = true ∧ CV.fls.eq .fls = true ∧ CV.optNone.eq .optNone = true) ∧
    (∀ a b, (CV.buffer a).eq (.buffer b) = true ↔ a = b) ∧
    (∀ a b, (CV.strAscii a).eq (.strAscii b) = true ↔ a = b) ∧
    (∀ a b, (CV.strUtf8 a).eq (.strUtf8 b) = true ↔ a = b) ∧
    (∀ a b, (CV.lps a).eq (.lps b) = true ↔ a = b) ∧
    (∀ a b, (CV.principalStd a).eq (.principalStd b) = true ↔ a = b) := by
  simp only [CV.eq, beq_iff_eq]
  refine ⟨fun x y => ⟨fun h => ?_, fun h => ?_⟩, fun x y => ⟨fun h => ?_, fun h => ?_⟩, by simp,
    fun a b => ⟨fun h => ?_, fun h => by rw [h]⟩, fun a b => ⟨fun h => ?_, fun h => by rw [h]⟩,
    fun a b => ⟨fun h => ?_, fun h => by rw [h]⟩, fun a b => ⟨fun h => h, fun h => by rw [h]⟩,
    fun a b => ⟨fun h => h, fun h => by rw [h]⟩⟩
  · rw [disp_int, disp_int] at h; exact showInt_inj h
  · rw [disp_int, disp_int, h]
  · rw [disp_uint, disp_uint] at h; exact digits_inj (List.cons.inj h).2
  · rw [disp_uint, disp_uint, h]
  · rw [disp_buffer, disp_buffer, List.append_cancel_left_eq] at h; exact hex_inj h
  · rw [disp_ascii, disp_ascii] at h; simpa using h
  · rw [disp_utf8, disp_utf8] at h; simpa using h

/-- **C31** More generally `==` is equality on all plain values, of any type and any nesting:
those whose strings contain no double quote, contract names no space, quote or closing
parenthesis, tuple keys no space, and whose principals look like addresses. -/
theorem C31_eq_on_plain_values (v w : CV) (hv : PlainText v) (hw : PlainText w) :
    v.eq w = true ↔ v = w := by
  rw [CV.eq, beq_iff_eq]
  refine ⟨fun h => ?_, fun h => by rw [h]⟩
  exact (display_inj v w hv hw [] [] (.inl rfl) (.inl rfl) (by simpa using h)).1

/-- **C31** The requirement on principals is met by every address. -/
theorem C31_addresses_plain [Hashes] (a : Str) (h : CanonicalAddress a) : AddressShaped a := by
  obtain ⟨hash, version, h⟩ := C32.canonical_iff.1 h
  unfold C32.c32Address at h
  split at h
  · cases h
  · rename_i hv
    have hlt : version.toNat < 32 := by
      simp at hv; by_contra hc
      have : ∀ v : UInt8, v = 22 ∨ v = 26 ∨ v = 20 ∨ v = 21 → v.toNat < 32 := by
        rintro v (rfl | rfl | rfl | rfl) <;> decide
      apply hc; apply this
      by_contra hn; push Not at hn
      exact hn.2.2.2 (hv hn.1 hn.2.1 hn.2.2.1)
    obtain ⟨e, he, hs⟩ := C32.c32checkEncode_eq hash.1 hlt
    rw [hs] at h
    cases h
    refine ⟨_, rfl, ?_⟩
    have alnum : ∀ c ∈ "0123456789ABCDEFGHJKMNPQRSTVWXYZabcdefghjkmnpqrstvwxyzOoIiLl".toList,
        c.isAlphanum = true := by decide +kernel
    have key : ∀ c, (c32Value c).isSome → c.isAlphanum = true := fun c hc =>
      alnum c ((C32.C06_c32_accepted_characters c).1 hc)
    intro c hc
    rcases List.mem_cons.1 hc with rfl | hc
    · exact key _ (by rw [C32.c32Char_value hlt]; rfl)
    · exact key c ((C32.c32Decode_ok_iff).1 ⟨_, C32.c32Decode_encode he⟩ c hc)

/-- **C31** (finding) Beyond that, distinct values can compare equal: a list, a contract
principal and a tuple. -/
theorem C31_distinct_values_can_compare_equal :
    ((CV.list [.strAscii "a\" \"b".toList]).eq (.list [.strAscii "a".toList, .strAscii "b".toList]) = true ∧
      CV.list [.strAscii "a\" \"b".toList] ≠ .list [.strAscii "a".toList, .strAscii "b".toList]) ∧
    ((CV.principalCon "a.b".toList "c".toList).eq (.principalCon "a".toList "b.c".toList) = true ∧
      CV.principalCon "a.b".toList "c".toList ≠ .principalCon "a".toList "b.c".toList) ∧
    ((CV.tuple [("a 1) (b".toList, .int 2)]).eq (.tuple [("a".toList, .int 1), ("b".toList, .int 2)]) = true ∧
      CV.tuple [("a 1) (b".toList, .int 2)] ≠ .tuple [("a".toList, .int 1), ("b".toList, .int 2)]) := by
  decide +kernel

example : PlainText (.respOk (.tuple [("k".toList, .list [.int (-5), .strUtf8 "a b)é".toList]),
    ("p".toList, .principalCon "SP2J6ZY48GV1EZ5V2V5RB9MP66SW86PYKKNRV9EJ7".toList "x-y".toList)])) := by
  refine ⟨by decide, ⟨trivial, (by decide : '"' ∉ "a b)é".toList), trivial⟩, by decide, ⟨⟨_, rfl, by decide +kernel⟩, by decide, by decide,
    by decide⟩, trivial⟩

/-! ### C32: casting -/

/-- **C32** On a value of any other type it returns `BadDowncast`; it never panics. -/
theorem C32_cast_cases (k : Kind) (v : CV) :
    (v.kind = k ∧ ∃ x, v.cast k = .ok x ∧ k.box x = v) ∨ (v.kind ≠ k ∧ v.cast k = .err .badDowncast) := by
  cases k <;> cases v <;> first
    | exact .inl ⟨rfl, _, rfl, rfl⟩
    | exact .inr ⟨(by intro h; cases h), rfl⟩

/-- **C32** `cast` succeeds with `x` exactly on the box of `x` at that type. -/
theorem C32_cast_ok_iff (k : Kind) (v : CV) (x : k.Val) : v.cast k = .ok x ↔ v = k.box x := by
  constructor
  · intro h
    rcases C32_cast_cases k v with ⟨_, y, hy, hb⟩ | ⟨_, he⟩
    · rw [h] at hy; cases hy; exact hb.symm
    · rw [h] at he; cases he
  · rintro rfl; cases k <;> rfl

/-- **C32** Casting the inner value of `ok`, `err` and `some`. -/
theorem C32_cast_inner (k : Kind) (inner : CV) (x : k.Val) :
    (castWrapped k inner = .ok x ↔ inner = k.box x) ∧
    (inner.kind ≠ k → castWrapped k inner = .err .badDowncast) := by
  refine ⟨C32_cast_ok_iff k inner x, fun h => ?_⟩
  rcases C32_cast_cases k inner with ⟨h', _⟩ | ⟨_, h'⟩
  · exact absurd h' h
  · exact h'

/-- **C32** Two values that cast to the same type with the same result are the same value. -/
theorem C32_cast_injective (k : Kind) (v w : CV) (x : k.Val) (hv : v.cast k = .ok x) (hw : w.cast k = .ok x) :
    v = w := by
  rw [C32_cast_ok_iff] at hv hw; rw [hv, hw]

example : (CV.optSome (.int 5)).cast .optSome = .ok (.int 5) := rfl
example : (CV.optSome (.int 5)).cast .int = .err .badDowncast := rfl
example : castWrapped .int (.int 5) = .ok 5 := rfl

/-! ### C33: tuples -/

/-- **C33** `get` returns the value of the first entry with the key. -/
theorem C33_get (es : List (Str × CV)) (key : Str) :
    (∀ v, tupleGet es key = some v ↔
      ∃ pre post, es = pre ++ (key, v) :: post ∧ ∀ e ∈ pre, e.1 ≠ key) ∧
    (tupleGet es key = none ↔ ∀ e ∈ es, e.1 ≠ key) := by
  unfold tupleGet
  constructor
  · intro v
    rw [Option.map_eq_some_iff]
    constructor
    · rintro ⟨⟨k, w⟩, h, rfl⟩
      obtain ⟨hk, pre, post, rfl, hp⟩ := List.find?_eq_some_iff_append.1 h
      simp only [beq_iff_eq] at hk
      subst hk
      exact ⟨pre, post, rfl, fun e he => by simpa using hp e he⟩
    · rintro ⟨pre, post, rfl, hp⟩
      refine ⟨(key, v), List.find?_eq_some_iff_append.2 ⟨by simp, pre, post, rfl, fun e he => ?_⟩, rfl⟩
      simpa using hp e he
  · simp

/-- **C33** Assignment through `get_mut` changes the first entry with the key and nothing else;
there is no reference when the key is absent. -/
theorem C33_get_mut (es : List (Str × CV)) (key : Str) (value : CV) :
    (∀ pre old post, es = pre ++ (key, old) :: post → (∀ e ∈ pre, e.1 ≠ key) →
      tupleSet es key value = some (pre ++ (key, value) :: post)) ∧
    ((∀ e ∈ es, e.1 ≠ key) → tupleSet es key value = none) := by
  constructor
  · rintro pre old post rfl hp
    induction pre with
    | nil => simp [tupleSet]
    | cons e pre ih =>
      have h1 := hp e (by simp)
      rw [List.cons_append, tupleSet, if_neg (by simpa using h1), ih (fun e he => hp e (by simp [he]))]
      rfl
  · intro h
    induction es with
    | nil => rfl
    | cons e es ih =>
      rw [tupleSet, if_neg (by simpa using h e (by simp)), ih (fun e he => h e (by simp [he]))]
      rfl

/-- **C33** `insert` appends: an existing key keeps its old value. -/
theorem C33_insert (es : List (Str × CV)) (key key' : Str) (value : CV) :
    tupleInsert es key value = es ++ [(key, value)] ∧
    tupleGet (tupleInsert es key value) key' =
      match tupleGet es key' with
      | some old => some old
      | none => if key' = key then some value else none := by
  refine ⟨rfl, ?_⟩
  unfold tupleGet tupleInsert
  rw [List.find?_append]
  cases h : es.find? (fun e => e.1 == key') with
  | some e => rfl
  | none =>
    by_cases hk : key' = key
    · subst hk; simp
    · rw [if_neg hk]; simp [beq_eq_false_iff_ne.2 (Ne.symm hk)]

/-- **C33** `remove` deletes the first entry with the key and returns its value. -/
theorem C33_remove (es : List (Str × CV)) (key : Str) :
    (∀ pre v post, es = pre ++ (key, v) :: post → (∀ e ∈ pre, e.1 ≠ key) →
      tupleRemove es key = (some v, pre ++ post)) ∧
    ((∀ e ∈ es, e.1 ≠ key) → tupleRemove es key = (none, es)) := by
  constructor
  · rintro pre v post rfl hp
    have : (pre ++ (key, v) :: post).findIdx? (fun e => e.1 == key) = some pre.length := by
      rw [List.findIdx?_append, List.findIdx?_eq_none_iff.2 (by simpa using hp)]
      simp [List.findIdx?_cons]
    unfold tupleRemove
    rw [this]
    simp [List.eraseIdx_append_of_length_le]
  · intro h
    unfold tupleRemove
    rw [List.findIdx?_eq_none_iff.2 (by simpa using h)]

/-- **C33** `remove` returns what `get` does, and other keys are unaffected by `remove`, `insert`
and assignment. -/
theorem C33_other_keys (es : List (Str × CV)) (key key' : Str) (value : CV) (h : key' ≠ key) :
    (tupleRemove es key).1 = tupleGet es key ∧
    tupleGet (tupleRemove es key).2 key' = tupleGet es key' ∧
    tupleGet (tupleInsert es key value) key' = tupleGet es key' ∧
    (∀ es', tupleSet es key value = some es' → tupleGet es' key' = tupleGet es key') := by
  have hb : (key == key') = false := by simpa using Ne.symm h
  refine ⟨?_, ?_, ?_, ?_⟩
  · cases hg : tupleGet es key with
    | none => rw [(C33_remove es key).2 ((C33_get es key).2.1 hg)]
    | some v =>
      obtain ⟨pre, post, rfl, hp⟩ := ((C33_get es key).1 v).1 hg
      rw [(C33_remove _ key).1 pre v post rfl hp]
  · cases hg : tupleGet es key with
    | none => rw [(C33_remove es key).2 ((C33_get es key).2.1 hg)]
    | some v =>
      obtain ⟨pre, post, rfl, hp⟩ := ((C33_get es key).1 v).1 hg
      rw [(C33_remove _ key).1 pre v post rfl hp]
      simp [tupleGet, List.find?_append, hb]
  · rw [(C33_insert es key key' value).2, if_neg h]
    cases tupleGet es key' <;> rfl
  · intro es' he
    cases hg : tupleGet es key with
    | none => rw [(C33_get_mut es key value).2 ((C33_get es key).2.1 hg)] at he; cases he
    | some v =>
      obtain ⟨pre, post, rfl, hp⟩ := ((C33_get es key).1 v).1 hg
      rw [(C33_get_mut _ key value).1 pre v post rfl hp] at he
      cases he
      simp [tupleGet, List.find?_append, hb]

/-- **C33** `keys` and `values` list the entries in order. -/
theorem C33_keys_values (es : List (Str × CV)) :
    (tupleKeys es).zip (tupleValues es) = es ∧ (tupleKeys es).length = es.length ∧
    (tupleValues es).length = es.length := by
  refine ⟨?_, by simp [tupleKeys], by simp [tupleValues]⟩
  induction es with
  | nil => rfl
  | cons e es ih => rw [tupleKeys, tupleValues] at *; simp [ih]

/-- Executing one operation on a tuple. -/
def runOp (es : List (Str × CV)) : TupleOp → List (Str × CV)
  | .insert k v => tupleInsert es k v
  | .remove k => (tupleRemove es k).2
  | .set k v => (tupleSet es k v).getD es

theorem get_decomp {es : List (Str × CV)} {key : Str} :
    (tupleGet es key = none ∧ ∀ e ∈ es, e.1 ≠ key) ∨
    ∃ pre v post, es = pre ++ (key, v) :: post ∧ (∀ e ∈ pre, e.1 ≠ key) ∧ tupleGet es key = some v := by
  cases hg : tupleGet es key with
  | none => exact .inl ⟨rfl, (C33_get es key).2.1 hg⟩
  | some v =>
    obtain ⟨pre, post, h, hp⟩ := ((C33_get es key).1 v).1 hg
    exact .inr ⟨pre, v, post, h, hp, rfl⟩

theorem runOp_sim (es : List (Str × CV)) (m : CMap) (op : TupleOp) (hn : (tupleKeys es).Nodup)
    (hm : ∀ k, tupleGet es k = m k) (hf : ∀ k v, op = .insert k v → m k = none) :
    (tupleKeys (runOp es op)).Nodup ∧ ∀ k, tupleGet (runOp es op) k = m.apply op k := by
  cases op with
  | insert key v =>
    have h0 := hf key v rfl
    rw [← hm] at h0
    constructor
    · have hne := (C33_get es key).2.1 h0
      rw [runOp, tupleInsert, tupleKeys, List.map_append]
      refine List.nodup_append.2 ⟨hn, by simp, ?_⟩
      intro a ha b hb
      obtain ⟨e, he, rfl⟩ := List.mem_map.1 ha
      simp only [List.map_cons, List.map_nil, List.mem_singleton] at hb
      subst hb; exact hne e he
    · intro k
      rw [runOp, (C33_insert es key k v).2, CMap.apply]
      by_cases hk : k = key
      · subst hk; rw [h0, Function.update_self, if_pos rfl]
      · rw [Function.update_of_ne hk, ← hm k, if_neg hk]
        cases tupleGet es k <;> rfl
  | remove key =>
    rcases @get_decomp es key with ⟨hg, hne⟩ | ⟨pre, v, post, rfl, hp, hg⟩
    · rw [runOp, (C33_remove es key).2 hne]
      refine ⟨hn, fun k => ?_⟩
      rw [CMap.apply]
      by_cases hk : k = key
      · subst hk; rw [hg, Function.update_self]
      · rw [Function.update_of_ne hk, hm]
    · have hr := (C33_remove _ key).1 pre v post rfl hp
      constructor
      · rw [runOp, hr]
        refine hn.sublist ?_
        simp only [tupleKeys, List.map_append, List.map_cons]
        exact List.Sublist.append (List.Sublist.refl _) (List.sublist_cons_self _ _)
      · intro k
        rw [CMap.apply]
        by_cases hk : k = key
        · subst hk
          rw [Function.update_self, runOp, hr, (C33_get _ k).2]
          intro e he hek
          rcases List.mem_append.1 he with h | h
          · exact hp e h hek
          · simp only [tupleKeys, List.map_append, List.map_cons] at hn
            have := (List.nodup_cons.1 (List.nodup_append.1 hn).2.1).1
            exact this (List.mem_map.2 ⟨e, h, hek⟩)
        · rw [Function.update_of_ne hk, runOp, (C33_other_keys _ key k v hk).2.1, hm]
  | set key v =>
    rcases @get_decomp es key with ⟨hg, hne⟩ | ⟨pre, old, post, rfl, hp, hg⟩
    · rw [runOp, (C33_get_mut es key v).2 hne]
      refine ⟨hn, fun k => ?_⟩
      rw [CMap.apply, Option.getD_none]
      by_cases hk : k = key
      · subst hk; rw [Function.update_self, ← hm, hg]; rfl
      · rw [Function.update_of_ne hk, hm]
    · have hs := (C33_get_mut _ key v).1 pre old post rfl hp
      constructor
      · rw [runOp, hs, Option.getD_some]
        simpa [tupleKeys] using hn
      · intro k
        rw [CMap.apply]
        by_cases hk : k = key
        · subst hk
          rw [Function.update_self, ← hm, hg, runOp, hs, Option.getD_some]
          exact ((C33_get _ k).1 v).2 ⟨pre, post, rfl, hp⟩
        · rw [Function.update_of_ne hk, ← hm, runOp, hs, Option.getD_some]
          exact (C33_other_keys _ key k v hk).2.2.2 _ hs

/-- **C33** A tuple with distinct keys under any history whose insertions use absent keys is a
finite map: after every such history, lookups agree with the map and the keys stay distinct. -/
theorem C33_finite_map (es : List (Str × CV)) (ops : List TupleOp) (hn : (tupleKeys es).Nodup)
    (hf : FreshInserts (tupleGet es) ops) :
    (tupleKeys (ops.foldl runOp es)).Nodup ∧
    ∀ k, tupleGet (ops.foldl runOp es) k = ops.foldl CMap.apply (tupleGet es) k := by
  suffices H : ∀ (es : List (Str × CV)) (m : CMap), (tupleKeys es).Nodup → (∀ k, tupleGet es k = m k) →
      FreshInserts m ops → (tupleKeys (ops.foldl runOp es)).Nodup ∧
      ∀ k, tupleGet (ops.foldl runOp es) k = ops.foldl CMap.apply m k from H es _ hn (fun _ => rfl) hf
  clear hn hf es
  induction ops with
  | nil => intro es m hn hm _; exact ⟨hn, hm⟩
  | cons op ops ih =>
    intro es m hn hm hf
    obtain ⟨h1, h2⟩ := runOp_sim es m op hn hm hf.1
    exact ih _ _ h1 h2 hf.2

/-- A history that meets the hypotheses, with its outcome. -/
example :
    let es : List (Str × CV) := [("a".toList, .int 1), ("b".toList, .tru)]
    let ops : List TupleOp := [.insert "c".toList .fls, .remove "a".toList, .insert "a".toList (.uint 9), .set "b".toList .optNone]
    (tupleKeys es).Nodup ∧ FreshInserts (tupleGet es) ops ∧
    ops.foldl runOp es = [("b".toList, .optNone), ("c".toList, .fls), ("a".toList, .uint 9)] := by
  refine ⟨by decide +kernel, ⟨fun k v h => ?_, fun k v h => ?_, fun k v h => ?_, fun k v h => ?_, trivial⟩, by decide +kernel⟩ <;>
    cases h <;> decide +kernel

/-- C33 (finding): inserting an existing key leaves the old value visible, and `remove` then
uncovers the inserted one. -/
theorem C33_insert_shadowed :
    let es := tupleInsert [("a".toList, .int 1)] "a".toList (.int 2)
    tupleGet es "a".toList = some (.int 1) ∧
    tupleGet (tupleRemove es "a".toList).2 "a".toList = some (.int 2) := by decide +kernel

/-! ### instances of the theorems with hypotheses -/

-- different values of the same type compare different
example : (CV.list [.int 1, .strUtf8 "a b".toList]).eq (.list [.int 1, .strUtf8 "a c".toList]) = false := by
  rw [Bool.eq_false_iff, ne_eq, C31_eq_on_plain_values (.list [.int 1, .strUtf8 "a b".toList])
    (.list [.int 1, .strUtf8 "a c".toList]) ⟨trivial, (by decide : '"' ∉ "a b".toList), trivial⟩
    ⟨trivial, (by decide : '"' ∉ "a c".toList), trivial⟩]
  decide
example [Hashes] := C31_addresses_plain (addressString 22 (List.replicate 20 7))
  ⟨⟨List.replicate 20 7, rfl⟩, 22, by decide, rfl⟩
example := C32_cast_injective .optSome (.optSome (.int 5)) (.optSome (.int 5)) (.int 5) rfl rfl
example := C33_other_keys [("a".toList, .int 1), ("b".toList, .tru)] "a".toList "b".toList (.uint 7) (by decide)
example := C33_finite_map [("a".toList, .int 1), ("b".toList, .tru)] [.insert "c".toList .fls, .remove "a".toList]
  (by decide) ⟨by rintro k v ⟨⟩; rfl, nofun, trivial⟩

end Stacks.Clarity

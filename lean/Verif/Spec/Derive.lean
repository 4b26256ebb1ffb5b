import Mathlib.Data.List.Forall2
import Verif.Model.Derive

/-! # Specification of `#[derive(FromTuple)]` -/

namespace Stacks.Spec
open Stacks.Derive
open Stacks.Clarity (CV)

/-- The types a field may have. -/
inductive FieldType where
  | i128 | u128 | bool | string | bytes | strings | optI128 | optU128 | optString
  /-- any other type that is a plain name -/
  | nested (name : Str)
deriving DecidableEq

/-- How the types are written: the first four as a single word; `Vec<u8>`, `Vec<String>`,
`Option<i128>`, `Option<u128>`, `Option<String>` and other types at the end of any path. -/
inductive Written : SynType → FieldType → Prop
  | i128 : Written (.path false [⟨"i128".toList, .none⟩]) .i128
  | u128 : Written (.path false [⟨"u128".toList, .none⟩]) .u128
  | bool : Written (.path false [⟨"bool".toList, .none⟩]) .bool
  | string : Written (.path false [⟨"String".toList, .none⟩]) .string
  | bytes (c : Bool) (pre : List Segment) : Written (.path c (pre ++ [⟨"Vec".toList, .angle "u8".toList⟩])) .bytes
  | strings (c : Bool) (pre : List Segment) :
      Written (.path c (pre ++ [⟨"Vec".toList, .angle "String".toList⟩])) .strings
  | optI128 (c : Bool) (pre : List Segment) :
      Written (.path c (pre ++ [⟨"Option".toList, .angle "i128".toList⟩])) .optI128
  | optU128 (c : Bool) (pre : List Segment) :
      Written (.path c (pre ++ [⟨"Option".toList, .angle "u128".toList⟩])) .optU128
  | optString (c : Bool) (pre : List Segment) :
      Written (.path c (pre ++ [⟨"Option".toList, .angle "String".toList⟩])) .optString
  | nested (c : Bool) (pre : List Segment) (name : Str)
      (h : c = false → pre = [] →
        name ∉ ["i128".toList, "u128".toList, "bool".toList, "String".toList]) :
      Written (.path c (pre ++ [⟨name, .none⟩])) (.nested name)

/-- The complaint about a type that is none of the above: there is one message for paths and one for
references, tuples, arrays and so on. -/
def typeComplaint : SynType → CompileError
  | .path _ _ => .unsupportedPath
  | .other => .unsupportedType

/-- The complaint about the fields of a struct: that there are none; that one of them has no name or no
key, wherever it is; else the first unsupported type. -/
inductive Rejected : List FieldRecv → CompileError → Prop
  | unit : Rejected [] .unitStruct
  | missing (fields : List FieldRecv) (f : FieldRecv) (hf : f ∈ fields) (h : f.ident = none ∨ f.key = none) :
      Rejected fields .missingKeyOrName
  | type (pre : List FieldRecv) (f : FieldRecv) (post : List FieldRecv)
      (hn : ∀ g ∈ pre ++ f :: post, g.ident ≠ none ∧ g.key ≠ none) (hp : ∀ g ∈ pre, ∃ ft, Written g.ty ft)
      (hf : ∀ ft, ¬ Written f.ty ft) : Rejected (pre ++ f :: post) (typeComplaint f.ty)

/-- The first entry of a tuple with a key has this value. -/
def FirstUnder (tuple : List (Str × CV)) (key : Str) (v : CV) : Prop :=
  ∃ pre post, tuple = pre ++ (key, v) :: post ∧ ∀ e ∈ pre, e.1 ≠ key

/-- No entry has the key. -/
def Absent (tuple : List (Str × CV)) (key : Str) : Prop := ∀ e ∈ tuple, e.1 ≠ key

section
variable (scope : Scope) (tuple : List (Str × CV)) (key : Str)

/-- The value a field takes, given whether it is marked `response`. -/
inductive Fits : Bool → FieldType → Val → Prop
  | i128 (x) (h : FirstUnder tuple key (.int x)) : Fits false .i128 (.int x)
  | u128 (x) (h : FirstUnder tuple key (.uint x)) : Fits false .u128 (.uint x)
  | i128Response (x) (h : FirstUnder tuple key (.respOk (.int x))) : Fits true .i128 (.int x)
  | u128Response (x) (h : FirstUnder tuple key (.respOk (.uint x))) : Fits true .u128 (.uint x)
  | true (r) (h : FirstUnder tuple key .tru) : Fits r .bool (.bool true)
  | false (r) (h : FirstUnder tuple key .fls) : Fits r .bool (.bool false)
  | string (r v) (h : FirstUnder tuple key v) : Fits r .string (.str v.display)
  | bytes (r bs) (h : FirstUnder tuple key (.buffer bs)) : Fits r .bytes (.bytes bs)
  | strings (r vs) (h : FirstUnder tuple key (.list vs)) : Fits r .strings (.strs (vs.map CV.display))
  | someI128 (r x) (h : FirstUnder tuple key (.optSome (.int x))) : Fits r .optI128 (.optInt (some x))
  | noI128 (r v) (h : FirstUnder tuple key v) (hv : ∀ x, v ≠ .optSome (.int x)) : Fits r .optI128 (.optInt none)
  | someU128 (r x) (h : FirstUnder tuple key (.optSome (.uint x))) : Fits r .optU128 (.optUint (some x))
  | noU128 (r v) (h : FirstUnder tuple key v) (hv : ∀ x, v ≠ .optSome (.uint x)) : Fits r .optU128 (.optUint none)
  | someString (r v) (h : FirstUnder tuple key (.optSome v)) : Fits r .optString (.optStr (some v.display))
  | noString (r) (h : ∀ v, ¬ FirstUnder tuple key (.optSome v)) : Fits r .optString (.optStr none)
  | nested (r name t v) (h : FirstUnder tuple key (.tuple t)) (hv : scope name t = .ok v) : Fits r (.nested name) v

/-- The error a field causes; `struct` is the name of the struct it belongs to. -/
inductive Fails (struct : Str) : Bool → FieldType → Error → Prop
  | absent (r ty) (h : Absent tuple key) (hty : ty ≠ .optString) : Fails struct r ty (.extract key struct)
  | i128 (v) (h : FirstUnder tuple key v) (hv : ∀ x, v ≠ .int x) : Fails struct false .i128 (.match key struct)
  | u128 (v) (h : FirstUnder tuple key v) (hv : ∀ x, v ≠ .uint x) : Fails struct false .u128 (.match key struct)
  | i128NotOk (v) (h : FirstUnder tuple key v) (hv : ∀ w, v ≠ .respOk w) :
      Fails struct true .i128 (.cast key "ResponseOk".toList struct)
  | u128NotOk (v) (h : FirstUnder tuple key v) (hv : ∀ w, v ≠ .respOk w) :
      Fails struct true .u128 (.cast key "ResponseOk".toList struct)
  | i128Response (w) (h : FirstUnder tuple key (.respOk w)) (hw : ∀ x, w ≠ .int x) :
      Fails struct true .i128 (.cast key "Int".toList struct)
  | u128Response (w) (h : FirstUnder tuple key (.respOk w)) (hw : ∀ x, w ≠ .uint x) :
      Fails struct true .u128 (.cast key "UInt".toList struct)
  | bool (r v) (h : FirstUnder tuple key v) (hv : v ≠ .tru ∧ v ≠ .fls) : Fails struct r .bool (.match key struct)
  | bytes (r v) (h : FirstUnder tuple key v) (hv : ∀ bs, v ≠ .buffer bs) : Fails struct r .bytes (.match key struct)
  /-- Here the error names the type `Vec`, not the struct. -/
  | strings (r v) (h : FirstUnder tuple key v) (hv : ∀ vs, v ≠ .list vs) :
      Fails struct r .strings (.cast key "List".toList "Vec".toList)
  /-- Here the error names the type of the field. -/
  | notTuple (r name v) (h : FirstUnder tuple key v) (hv : ∀ t, v ≠ .tuple t) :
      Fails struct r (.nested name) (.cast key "Tuple".toList name)
  | nested (r name t e) (h : FirstUnder tuple key (.tuple t)) (hv : scope name t = .err e) :
      Fails struct r (.nested name) e

end

/-- A declared field and the named value it takes. -/
def FieldFits (scope : Scope) (tuple : List (Str × CV)) (f : FieldRecv) (nv : Str × Val) : Prop :=
  f.ident = some nv.1 ∧ ∃ key ty, f.key = some key ∧ Written f.ty ty ∧
    Fits scope tuple key (f.response == some true) ty nv.2

/-- A declared field and the error it causes. -/
def FieldFails (scope : Scope) (tuple : List (Str × CV)) (struct : Str) (f : FieldRecv) (e : Error) : Prop :=
  ∃ key ty, f.key = some key ∧ Written f.ty ty ∧ Fails scope tuple key struct (f.response == some true) ty e

/-- The `try_from` of derived structs, each able to use the ones after it in the list. -/
def derivedScope (other : Scope) : List Impl → Scope
  | [], name => other name
  | d :: ds, name => if name = d.ident then d.tryFrom (derivedScope other ds) else derivedScope other ds name

end Stacks.Spec

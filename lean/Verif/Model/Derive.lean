import Verif.Model.Clarity

/-! # `stacks_derive/src/from_tuple.rs` and `stacks/src/derive.rs`

The derive macro `FromTuple` in two parts: what it generates for a struct (`expand`), and what the
generated code does (`Extraction.run`, `Impl.tryFrom`). Parsing of Rust source by `syn` and
`darling` is not modelled: the input is the parsed item. -/

namespace Stacks.Derive
open Stacks.Clarity

/-- derive.rs:9-20 `enum Error`. The generated code makes these values as from_tuple.rs:68-104 `__Error` writes
them: the key, the name of the Clarity type and the name of the struct (`stringify!`), in this order. -/
inductive Error where
  | cast (key ty ident : Str)
  | extract (key ident : Str)
  | «match» (key ident : Str)
deriving DecidableEq, Repr

/-! ## The input of the macro -/

/-- `syn::PathArguments`: none, `<...>` (as the text `quote!(#args).to_string()` gives), or
`(...)`. -/
inductive PathArgs where
  | none
  | angle (tokens : Str)
  | paren
deriving DecidableEq, Repr

/-- `syn::PathSegment`. -/
structure Segment where
  ident : Str
  args : PathArgs
deriving DecidableEq, Repr

/-- `syn::Type`: a path (with or without a leading `::`), or anything else (references, tuples,
arrays, ...). -/
inductive SynType where
  | path (leadingColon : Bool) (segments : List Segment)
  | other
deriving DecidableEq, Repr

/-- from_tuple.rs:33-66 `struct FieldRecv`. -/
structure FieldRecv where
  ty : SynType
  ident : Option Str
  key : Option Str
  response : Option Bool
deriving DecidableEq, Repr

/-- from_tuple.rs:22-31 `struct InputRecv`; `none` for an enum. Generics are only copied to the
output and not modelled. -/
structure InputRecv where
  ident : Str
  data : Option (List FieldRecv)
deriving DecidableEq, Repr

/-! ## What is generated -/

/-- The expression generated for a field, with the name of the struct and the key in it. -/
inductive Extraction where
  /-- from_tuple.rs:143-150, 161-168 and 329-339 `__internal_type_cast`: an integer (`Int` or `UInt`) in a `ResponseOk`. -/
  | response (kind : Kind) (ty : Str) (key ident : Str)
  /-- from_tuple.rs:153-154, 171-172, 177-178, 194-195: the value, if it has one of these types. -/
  | ifChain (kinds : List Kind) (key ident : Str)
  /-- from_tuple.rs:182-184: `to_string()`. -/
  | display (key ident : Str)
  /-- from_tuple.rs:201-208: a list, each element `to_string()`; `tyIdent` is the last segment of
  the field's type, used as the struct's name in the `Cast` error. -/
  | strings (key ident tyIdent : Str)
  /-- from_tuple.rs:214-215, 221-222 and 341-358 `__internal_derive_option`. -/
  | optionInt (kind : Kind) (key ident : Str)
  /-- from_tuple.rs:228-237. -/
  | optionString (key ident : Str)
  /-- from_tuple.rs:243-247: `T::try_from` of a tuple. -/
  | nested (tyIdent : Str) (key ident : Str)
deriving DecidableEq

/-- A generated implementation: the struct and its fields, in the order of the declaration. -/
structure Impl where
  ident : Str
  fields : List (Str × Extraction)

/-- The errors reported at compile time. -/
inductive CompileError where
  /-- from_tuple.rs:118-123 -/
  | unitStruct
  /-- from_tuple.rs:125-132 -/
  | missingKeyOrName
  /-- from_tuple.rs:250-253 -/
  | unsupportedPath
  /-- from_tuple.rs:255-258 -/
  | unsupportedType
deriving DecidableEq, Repr

/-- `syn::Path::is_ident`: one segment, without arguments and leading `::`. -/
def isIdent (leadingColon : Bool) (segments : List Segment) (name : Str) : Bool :=
  !leadingColon && segments == [⟨name, .none⟩]

/-- from_tuple.rs:360-372 `__internal_parse_type_path`: the last segment and its arguments. -/
def parseTypePath (segments : List Segment) : Option (Str × Option Str) :=
  match segments.getLast? with
  | none => none
  | some seg =>
    match seg.args with
    | .angle tokens => some (seg.ident, some tokens)
    | .none => some (seg.ident, none)
    | .paren => none

/-- from_tuple.rs:138-259: the expression for a field of type `ty`. -/
def expandField (tyName : Str) (ty : SynType) (key : Str) (response : Option Bool) :
    Outcome CompileError Extraction :=
  match ty with
  | .other => .err .unsupportedType
  | .path lc segs =>
    if isIdent lc segs "i128".toList then
      if response = some true then .ok (.response .int "Int".toList key tyName) else .ok (.ifChain [.int] key tyName)
    else if isIdent lc segs "u128".toList then
      if response = some true then .ok (.response .uint "UInt".toList key tyName)
      else .ok (.ifChain [.uint] key tyName)
    else if isIdent lc segs "bool".toList then .ok (.ifChain [.tru, .fls] key tyName)
    else if isIdent lc segs "String".toList then .ok (.display key tyName)
    else
      match parseTypePath segs with
      | some (ident, some args) =>
        if ident == "Vec".toList && args == "u8".toList then .ok (.ifChain [.buffer] key tyName)
        else if ident == "Vec".toList && args == "String".toList then .ok (.strings key tyName ident)
        else if ident == "Option".toList && args == "i128".toList then .ok (.optionInt .int key tyName)
        else if ident == "Option".toList && args == "u128".toList then .ok (.optionInt .uint key tyName)
        else if ident == "Option".toList && args == "String".toList then .ok (.optionString key tyName)
        else .err .unsupportedPath
      | some (ident, none) => .ok (.nested ident key tyName)
      | none => .err .unsupportedPath

/-- from_tuple.rs:134-264: the loop over the fields. -/
def expandFields (tyName : Str) : List FieldRecv → Outcome CompileError (List (Str × Extraction))
  | [] => .ok []
  | f :: fs =>
    match f.ident, f.key with
    | some ident, some key => do
      let e ← expandField tyName f.ty key f.response
      let es ← expandFields tyName fs
      pure ((ident, e) :: es)
    | _, _ => .err .missingKeyOrName

/-- from_tuple.rs:106-279 `__impl`, called by stacks_derive/src/lib.rs:11-16, where an error becomes a compile
error. An enum makes the macro panic. -/
def expand (input : InputRecv) : Outcome CompileError Impl :=
  match input.data with
  | none => .panic
  | some fields =>
    if fields.isEmpty then .err .unitStruct
    else if fields.any (fun f => f.key.isNone || f.ident.isNone) then .err .missingKeyOrName
    else do
      let fs ← expandFields input.ident fields
      pure ⟨input.ident, fs⟩

/-! ## What the generated code does -/

/-- The Rust value of a field, or of a struct. -/
inductive Val where
  | int (x : BitVec 128)
  | uint (x : BitVec 128)
  | bool (b : Bool)
  | bytes (bs : Bytes)
  | str (s : Str)
  | strs (ss : List Str)
  | optInt (x : Option (BitVec 128))
  | optUint (x : Option (BitVec 128))
  | optStr (s : Option Str)
  | struct (ident : Str) (fields : List (Str × Val))

/-- `T::try_from` for the types `T` in scope, by name: derived or written by hand. -/
abbrev Scope := Str → List (Str × CV) → Outcome Error Val

/-- `into_value` of the types an integer, boolean or byte field is made from. -/
def intoVal : (k : Kind) → k.Val → Option Val
  | .int, x => some (.int x)
  | .uint, x => some (.uint x)
  | .tru, _ => some (.bool true)
  | .fls, _ => some (.bool false)
  | .buffer, bs => some (.bytes bs)
  | _, _ => none

/-- The optional value of an `Option<i128>` or `Option<u128>` field. -/
def optVal : (k : Kind) → Option k.Val → Option Val
  | .int, x => some (.optInt x)
  | .uint, x => some (.optUint x)
  | _, _ => none

/-- The name of a type in the errors of `__internal_if_chain_cast`. -/
def kindName : Kind → Str
  | .int => "Int".toList
  | .uint => "UInt".toList
  | .tru => "True".toList
  | .fls => "False".toList
  | .buffer => "Buffer".toList
  | _ => []

/-- from_tuple.rs:292-331 `__internal_if_chain_cast`: `if value.as_any().is::<T>() { value.cast... }
else if ... else { Err(Match) }`. -/
def runIfChain (key ident : Str) (value : CV) : List Kind → Outcome Error Val
  | [] => .err (.match key ident)
  | k :: ks =>
    if value.kind = k then do
      let x ← (value.cast k).mapErr fun _ => Error.cast key (kindName k) ident
      match intoVal k x with
      | some v => .ok v
      | none => .panic
    else runIfChain key ident value ks

/-- `tuple.get(key).ok_or_else(|| Extract)`: from_tuple.rs:281-290
`__internal_extract_and_cast`. -/
def extract (tuple : List (Str × CV)) (key ident : Str) : Outcome Error CV :=
  Outcome.ofOption (.extract key ident) (tupleGet tuple key)

/-- The value of `result.ok()`, for results without a panic. -/
def okOf {ε α : Type} : Outcome ε α → Option α
  | .ok a => some a
  | _ => none

/-- The generated expressions. (`intoVal` and `optVal` return `none` only for types the macro does
not use there.) -/
def Extraction.run (scope : Scope) (tuple : List (Str × CV)) : Extraction → Outcome Error Val
  | .response kind ty key ident => do
    let value ← extract tuple key ident
    let inner ← (value.cast .respOk).mapErr fun _ => Error.cast key "ResponseOk".toList ident
    let x ← (inner.cast kind).mapErr fun _ => Error.cast key ty ident
    match intoVal kind x with
    | some v => .ok v
    | none => .panic
  | .ifChain kinds key ident => do
    let value ← extract tuple key ident
    runIfChain key ident value kinds
  | .display key ident => do
    let value ← extract tuple key ident
    pure (.str value.display)
  | .strings key ident tyIdent => do
    let value ← extract tuple key ident
    let list ← (value.cast .list).mapErr fun _ => Error.cast key "List".toList tyIdent
    pure (.strs (list.map CV.display))
  | .optionInt kind key ident => do
    let value ← extract tuple key ident
    match optVal kind (okOf do
      let inner ← value.cast .optSome
      castWrapped kind inner) with
    | some v => .ok v
    | none => .panic
  | .optionString key ident =>
    .ok (.optStr (okOf do
      let value ← extract tuple key ident
      let inner ← (value.cast .optSome).mapErr fun _ => Error.cast key "OptionalSome".toList "Option".toList
      pure inner.display))
  | .nested tyIdent key ident => do
    let value ← extract tuple key ident
    let t ← (value.cast .tuple).mapErr fun _ => Error.cast key "Tuple".toList tyIdent
    scope tyIdent t

/-- The fields of the struct literal, in order; the first error is returned. -/
def runFields (scope : Scope) (tuple : List (Str × CV)) :
    List (Str × Extraction) → Outcome Error (List (Str × Val))
  | [] => .ok []
  | (name, e) :: fs => do
    let v ← e.run scope tuple
    let vs ← runFields scope tuple fs
    pure ((name, v) :: vs)

/-- from_tuple.rs:269-278: the generated `try_from`. -/
def Impl.tryFrom (scope : Scope) (i : Impl) (tuple : List (Str × CV)) : Outcome Error Val := do
  let vs ← runFields scope tuple i.fields
  pure (.struct i.ident vs)

/-- `derive.rs:10-19`: `Display` of the error, by `thiserror`. -/
def Error.display : Error → Str
  | .cast key ty ident => "Failed to cast field '".toList ++ key ++ "' as '".toList ++ ty ++
      "' on struct '".toList ++ ident ++ "'".toList
  | .extract key ident => "Failed to extract value for field '".toList ++ key ++ "' on '".toList ++ ident ++
      "'".toList
  | .match key ident => "Failed to match value for field '".toList ++ key ++ "' on '".toList ++ ident ++ "'".toList

end Stacks.Derive

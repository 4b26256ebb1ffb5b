import Verif.Model.Derive

/-! # The tests of `/repo/tests/src/test_derive.rs` replayed on the model

Tests of the model's faithfulness, by evaluation in the kernel; not property theorems. -/

namespace Stacks.Derive.Vectors
open Stacks.Clarity

/-- A type written as a plain identifier. -/
def ident (s : String) : SynType := .path false [⟨s.toList, .none⟩]

/-- A type written as `T<args>`. -/
def app (s a : String) : SynType := .path false [⟨s.toList, .angle a.toList⟩]

/-- A field with `#[stacks(key = "..")]`. -/
def field (key name : String) (ty : SynType) (response : Option Bool := none) : FieldRecv :=
  ⟨ty, some name.toList, some key.toList, response⟩

/-- The structs of `test_derive_from_tuple` (test_derive.rs:23-85). -/
def structs : List InputRecv := [
  ⟨"Payload".toList, some [field "data" "data" (ident "Data"), field "meta" "meta" (ident "Meta"),
    field "response" "response" (ident "Response"), field "options" "options" (ident "Options"),
    field "vector" "vector" (ident "Vector")]⟩,
  ⟨"Data".toList, some [field "a" "a" (ident "i128"), field "b" "b" (ident "u128"),
    field "c" "c" (app "Vec" "u8"), field "d" "d" (ident "String")]⟩,
  ⟨"Meta".toList, some [field "e" "e" (ident "bool"), field "f" "f" (ident "bool")]⟩,
  ⟨"Options".toList, some [field "g" "g" (app "Option" "i128"), field "h" "h" (app "Option" "i128"),
    field "i" "i" (app "Option" "u128"), field "j" "j" (app "Option" "u128"),
    field "k" "k" (app "Option" "String"), field "l" "l" (app "Option" "String")]⟩,
  ⟨"Response".toList, some [field "m" "m" (ident "u128") (some true), field "n" "n" (ident "i128") (some true)]⟩,
  ⟨"Vector".toList, some [field "o" "o" (app "Vec" "String")]⟩]

/-- The implementations generated for them, looked up by name; nested to the given depth. -/
def scope : Nat → Scope
  | 0, _, _ => .panic
  | n + 1, name, tuple =>
    match structs.find? (·.ident == name) with
    | none => .panic
    | some input =>
      match expand input with
      | .ok i => i.tryFrom (scope n) tuple
      | _ => .panic

/-- Text of a value, for comparing. -/
def render : Val → Nat → Str
  | _, 0 => []
  | .int x, _ => 'i' :: showInt x.toInt
  | .uint x, _ => 'u' :: Nat.toDigits 10 x.toNat
  | .bool b, _ => if b then ['T'] else ['F']
  | .bytes bs, _ => 'b' :: Hex.bytesToHex bs
  | .str s, _ => 's' :: s
  | .strs ss, _ => '[' :: ss.flatMap (· ++ [';'])
  | .optInt x, _ => 'i' :: (x.map fun x => showInt x.toInt).getD ['-']
  | .optUint x, _ => 'u' :: (x.map fun x => Nat.toDigits 10 x.toNat).getD ['-']
  | .optStr s, _ => 's' :: s.getD ['-']
  | .struct name fs, n + 1 => name ++ '{' :: fs.flatMap (fun f => f.1 ++ ':' :: render f.2 n ++ [',']) ++ ['}']

/-- A tuple entry. -/
def e (k : String) (v : CV) : Str × CV := (k.toList, v)

/-- test_derive.rs:87-138: the tuple of `test_derive_from_tuple`. -/
def input : List (Str × CV) := [
  e "data" (.tuple [e "a" (.int 1), e "b" (.uint 1), e "c" (.buffer [1, 2, 3]), e "d" (.principalStd "STX000001".toList)]),
  e "meta" (.tuple [e "e" .tru, e "f" .fls]),
  e "response" (.tuple [e "m" (.respOk (.uint 1)), e "n" (.respOk (.int 1))]),
  e "options" (.tuple [e "g" (.optSome (.int 1)), e "h" .optNone, e "i" (.optSome (.uint 1)), e "j" .optNone,
    e "k" (.optSome (.principalCon "STX000001".toList "contract".toList)), e "l" .optNone]),
  e "vector" (.tuple [e "o" (.list [.principalStd "STX0001".toList, .principalStd "STX0002".toList])])]

/-- test_derive.rs:21-159 `test_derive_from_tuple`. -/
example : (match scope 3 "Payload".toList input with | .ok v => render v 5 | _ => []) =
    ("Payload{data:Data{a:i1,b:u1,c:b010203,d:sSTX000001,},meta:Meta{e:T,f:F,},response:Response{m:u1,n:i1,}," ++
    "options:Options{g:i1,h:i-,i:u1,j:u-,k:sSTX000001.contract,l:s-,},vector:Vector{o:[STX0001;STX0002;,},}").toList := by
  decide +kernel

/-- test_derive.rs:163-195: the struct of `test_derive_from_tuple_to_string`. -/
def strings : InputRecv := ⟨"Payload".toList, some (["int", "uint", "buffer", "true", "false", "p_s", "p_c",
  "response_ok", "response_err", "optional_some", "optional_none", "list", "tuple", "string_ascii",
  "string_utf8"].map fun k => field k k (ident "String"))⟩

/-- test_derive.rs:197-217: its tuple. -/
def input2 : List (Str × CV) := [
  e "int" (.int 1), e "uint" (.uint 1), e "buffer" (.buffer [1, 2, 3]), e "true" .tru, e "false" .fls,
  e "p_s" (.principalStd "STX000001".toList), e "p_c" (.principalCon "STX000001".toList "contract".toList),
  e "response_ok" (.respOk (.int 1)), e "response_err" (.respErr (.int 1)), e "optional_some" (.optSome (.int 1)),
  e "optional_none" .optNone, e "list" (.list [.int 1, .uint 1]),
  e "tuple" (.tuple [e "hello" (.int 1), e "x" (.uint 2)]), e "string_ascii" (.strAscii "hello world".toList),
  e "string_utf8" (.strUtf8 "hello ሴ".toList)]

/-- test_derive.rs:161-236 `test_derive_from_tuple_to_string`. -/
example : (match expand strings with
    | .ok i => match i.tryFrom (fun _ _ => .panic) input2 with
      | .ok (.struct _ fs) => fs.map fun f => render f.2 1
      | _ => []
    | _ => []) = ["s1", "su1", "s0x010203", "strue", "sfalse", "sSTX000001", "sSTX000001.contract", "s(ok 1)",
      "s(err 1)", "s(some 1)", "snone", "s(list 1 u1)", "s(tuple (hello 1) (x u2))", "s\"hello world\"",
      "su\"hello ሴ\""].map String.toList := by
  decide +kernel

end Stacks.Derive.Vectors

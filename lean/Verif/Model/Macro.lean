import Verif.Model.Condition

/-! # The literal macros: `clarity!` (`clarity/macro.rs`) and `post_condition!` (`condition.rs`)

The rules of a macro are a function on token lists, tried from the first to the last as
`macro_rules!` does. What the expansion means is given by `Eval`, a big-step semantics of the few
Rust expressions the macros accept and produce. An expression that does not compile has no value.
Simplified: expressions other than macro calls and constructor calls are given by their values
(`Rust.lit`); an integer has the type the constructor asks for; spans, lifetimes and moves are left
out. -/

namespace Stacks.Macro
open Stacks.Clarity (CV)
open Stacks.Tx (ConditionCode AssetInfo Condition)

/-- The identifiers that occur in the rules, and all others. -/
inductive Word where
  | Int | UInt | Buffer | True | False | PrincipalStandard | PrincipalContract
  | ResponseOk | ResponseErr | OptionalSome | OptionalNone | List | Tuple
  | StringAscii | StringUtf8 | FnArguments | LengthPrefixedStr
  | STXCondition | FungibleCondition | NonFungibleCondition
  | STXPostCondition | FungiblePostCondition | NonFungiblePostCondition | PostConditions
  | box | empty | gen
  | other (name : String)
deriving DecidableEq

/-- The two macros. -/
inductive Name where
  | clarity | postCondition
deriving DecidableEq

/-- Values of Rust expressions. `int` is an integer literal or a value of the integer type asked
for, `str` a `&str`, `string` a `String`, `bytes` anything with `to_vec()` giving bytes, `clarity`
a value of one of the Clarity types, `box` a `Box<dyn Clarity>`,
`postCondition` one of the three post-condition types, `condition` a `Box<dyn Condition>`. -/
inductive Value where
  | int (z : Int)
  | str (s : Str)
  | string (s : Str)
  | bytes (bs : Bytes)
  | vecU8 (bs : Bytes)
  | clarity (v : CV)
  | box (v : CV)
  | pair (a b : Value)
  | vec (rs : List Value)
  | code (c : ConditionCode)
  | info (i : AssetInfo)
  | postCondition (c : Condition)
  | condition (c : Condition)
  | conditions (cs : List Condition)

mutual
/-- Tokens: an `@`, an identifier, a comma, an expression (`$x:expr`), a group in parentheses. -/
inductive Tok where
  | at
  | ident (w : Word)
  | comma
  | expr (e : Rust)
  | paren (ts : List Tok)
/-- Rust expressions: one given by its value; a call of a macro, by the path `$crate::` (or
`stacks_rs::`) or by its bare name; `T::new(...)`; `Box::new(e) as Box<dyn Clarity>`;
`Box::new(e) as Box<dyn Condition>`; `e.to_string()`; `e.to_vec()`; `vec![...]` (also `Vec::new()`
followed by `push`es); a pair. -/
inductive Rust where
  | lit (r : Value)
  | call (m : Name) (byPath : Bool) (ts : List Tok)
  | new (ty : Word) (args : List Rust)
  | boxed (e : Rust)
  | boxedCondition (e : Rust)
  | toString (e : Rust)
  | toVec (e : Rust)
  | vec (es : List Rust)
  | pair (a b : Rust)
end

/-- `$(, $args:expr)*` up to the end. -/
def exprArgs : List Tok → Option (List Rust)
  | [] => some []
  | .comma :: .expr e :: ts => (exprArgs ts).map (e :: ·)
  | _ => none

/-- `$(, ($key:expr, $value:expr))*` up to the end. -/
def entryArgs : List Tok → Option (List (Rust × Rust))
  | [] => some []
  | .comma :: .paren [.expr k, .comma, .expr v] :: ts => (entryArgs ts).map ((k, v) :: ·)
  | _ => none

/-- `clarity!(@box e)`, written without `$crate` inside the rules. -/
def claBox (e : Rust) : Rust := .call .clarity false [.at, .ident .box, .expr e]

/-- macro.rs:10-34 `macro_rules! clarity`, rule by rule; `none` if no rule matches, and for the
rule of line 16, whose right-hand side `@empty, Buffer` is not an expression. -/
def expandClarity : List Tok → Option Rust
  | [.at, .ident .box, .expr e] => some (.boxed e)
  | [.at, .ident .empty, .comma, .ident i] => some (.new i [.vec []])
  | [.ident .Int, .comma, .expr x] => some (.new .Int [x])
  | [.ident .UInt, .comma, .expr x] => some (.new .UInt [x])
  | [.ident .Buffer, .comma, .expr x] => some (.new .Buffer [.toVec x])
  | [.ident .Buffer] => none
  | [.ident .True] => some (.new .True [])
  | [.ident .False] => some (.new .False [])
  | [.ident .PrincipalStandard, .comma, .expr x] => some (.new .PrincipalStandard [.toString x])
  | [.ident .PrincipalContract, .comma, .expr x, .comma, .expr y] =>
    some (.new .PrincipalContract [.pair (.toString x) (.toString y)])
  | [.ident .ResponseOk, .comma, .expr x] => some (.new .ResponseOk [claBox x])
  | [.ident .ResponseErr, .comma, .expr x] => some (.new .ResponseErr [claBox x])
  | [.ident .OptionalSome, .comma, .expr x] => some (.new .OptionalSome [claBox x])
  | [.ident .OptionalNone] => some (.new .OptionalNone [])
  | [.ident .List] => some (.call .clarity false [.at, .ident .empty, .comma, .ident .List])
  | [.ident .Tuple] => some (.call .clarity false [.at, .ident .empty, .comma, .ident .Tuple])
  | [.ident .StringAscii, .comma, .expr x] => some (.new .StringAscii [.toString x])
  | [.ident .StringUtf8, .comma, .expr x] => some (.new .StringUtf8 [.toString x])
  | [.ident .FnArguments] =>
    some (.call .clarity false [.at, .ident .empty, .comma, .ident .FnArguments])
  | [.ident .LengthPrefixedStr, .comma, .expr x] => some (.new .LengthPrefixedStr [.toString x])
  | .ident .List :: ts => (exprArgs ts).map fun es => .new .List [.vec (es.map claBox)]
  | .ident .Tuple :: ts => (entryArgs ts).map fun es =>
    .new .Tuple [.vec (es.map fun e => .pair (.toString e.1) (claBox e.2))]
  | .ident .FnArguments :: ts => (exprArgs ts).map fun es => .new .FnArguments [.vec (es.map claBox)]
  | _ => none

/-- The arguments of a call: expressions with commas in between, possibly one at the end. -/
def callArgs : List Tok → Option (List Rust)
  | [] => some []
  | [.expr e] => some [e]
  | .expr e :: .comma :: ts => (callArgs ts).map (e :: ·)
  | _ => none

/-- `$(($type:ident, $($args:tt)*)),* $(,)?` up to the end. -/
def groups : List Tok → Option (List (Word × List Tok))
  | [] => some []
  | [.comma] => some []
  | .paren (.ident w :: .comma :: args) :: ts => (moreGroups ts).map ((w, args) :: ·)
  | _ => none
where
  /-- After the first group: each further one follows a comma. -/
  moreGroups : List Tok → Option (List (Word × List Tok))
    | [] => some []
    | [.comma] => some []
    | .comma :: .paren (.ident w :: .comma :: args) :: ts => (moreGroups ts).map ((w, args) :: ·)
    | _ => none

/-- `$crate::post_condition!(@gen w, args)`. -/
def genCall (w : Word) (args : List Tok) : Rust :=
  .call .postCondition true ([.at, .ident .gen, .ident w, .comma] ++ args)

/-- `$crate::post_condition!(@box e)`. -/
def condBox (e : Rust) : Rust := .call .postCondition true [.at, .ident .box, .expr e]

/-- condition.rs:36-50 `macro_rules! post_condition`, rule by rule: the third rule is that of
the groups, tried before those below it. -/
def expandCondition : List Tok → Option Rust
  | [.at, .ident .box, .expr e] => some (.boxedCondition e)
  | [] => some (.new .PostConditions [.vec []])
  | ts =>
    match groups ts with
    | some gs => some (.new .PostConditions [.vec (gs.map fun g => genCall g.1 g.2)])
    | none =>
      match ts with
      | .ident w :: .comma :: args => some (genCall w args)
      | .at :: .ident .gen :: .ident .STXCondition :: .comma :: args =>
        (callArgs args).map fun es => condBox (.new .STXPostCondition es)
      | .at :: .ident .gen :: .ident .FungibleCondition :: .comma :: args =>
        (callArgs args).map fun es => condBox (.new .FungiblePostCondition es)
      | .at :: .ident .gen :: .ident .NonFungibleCondition :: .comma :: args =>
        (callArgs args).map fun es => condBox (.new .NonFungiblePostCondition es)
      | _ => none

/-- The expansion of a call. -/
def expand : Name → List Tok → Option Rust
  | .clarity => expandClarity
  | .postCondition => expandCondition

/-- `e.to_string()`: of text the text, of an integer its decimal form, of a Clarity value its
displayed form. -/
def toStringOf : Value → Option Str
  | .str s => some s
  | .string s => some s
  | .int z => some (if z < 0 then '-' :: Nat.toDigits 10 z.natAbs else Nat.toDigits 10 z.natAbs)
  | .clarity v => some v.display
  | .box v => some v.display
  | _ => none

/-- `e.to_vec()` of bytes. -/
def toVecOf : Value → Option Bytes
  | .bytes bs => some bs
  | .vecU8 bs => some bs
  | _ => none

/-- A `Vec<Box<dyn Clarity>>`. -/
def boxes : List Value → Option (List CV)
  | [] => some []
  | .box v :: rs => (boxes rs).map (v :: ·)
  | _ => none

/-- A `Vec<(String, Box<dyn Clarity>)>`. -/
def entries : List Value → Option (List (Str × CV))
  | [] => some []
  | .pair (.string k) (.box v) :: rs => (entries rs).map ((k, v) :: ·)
  | _ => none

/-- A `Vec<Box<dyn Condition>>`. -/
def conditionsOf : List Value → Option (List Condition)
  | [] => some []
  | .condition c :: rs => (conditionsOf rs).map (c :: ·)
  | _ => none

/-- A `u64`. -/
def u64Of (z : Int) : Option UInt64 :=
  if 0 ≤ z ∧ z < 2 ^ 64 then some (UInt64.ofNat z.toNat) else none

/-- `T::new(...)`: macro.rs:37-58 for the types of clarity/impl.rs and for `PostConditions`
(condition.rs:86-90); condition.rs:157-170, 214-228, 273-288 for the post-conditions. `none` if the
arguments do not have the types asked for. -/
def construct : Word → List Value → Option Value
  | .Int, [.int z] =>
    if -2 ^ 127 ≤ z ∧ z < 2 ^ 127 then some (.clarity (.int (BitVec.ofInt 128 z))) else none
  | .UInt, [.int z] =>
    if 0 ≤ z ∧ z < 2 ^ 128 then some (.clarity (.uint (BitVec.ofInt 128 z))) else none
  | .Buffer, [.vecU8 bs] => some (.clarity (.buffer bs))
  | .Buffer, [.vec []] => some (.clarity (.buffer []))
  | .True, [] => some (.clarity .tru)
  | .False, [] => some (.clarity .fls)
  | .PrincipalStandard, [.string s] => some (.clarity (.principalStd s))
  | .PrincipalContract, [.pair (.string a) (.string n)] => some (.clarity (.principalCon a n))
  | .ResponseOk, [.box v] => some (.clarity (.respOk v))
  | .ResponseErr, [.box v] => some (.clarity (.respErr v))
  | .OptionalSome, [.box v] => some (.clarity (.optSome v))
  | .OptionalNone, [] => some (.clarity .optNone)
  | .List, [.vec rs] => (boxes rs).map fun vs => .clarity (.list vs)
  | .Tuple, [.vec rs] => (entries rs).map fun es => .clarity (.tuple es)
  | .FnArguments, [.vec rs] => (boxes rs).map fun vs => .clarity (.fnArgs vs)
  | .StringAscii, [.string s] => some (.clarity (.strAscii s))
  | .StringUtf8, [.string s] => some (.clarity (.strUtf8 s))
  | .LengthPrefixedStr, [.string s] => some (.clarity (.lps s))
  | .STXPostCondition, [.clarity a, .int z, .code c] => (u64Of z).map fun n => .postCondition (.stx a n c)
  | .FungiblePostCondition, [.clarity a, .int z, .code c, .info i] =>
    (u64Of z).map fun n => .postCondition (.fungible a n c i)
  | .NonFungiblePostCondition, [.clarity a, .clarity n, .code c, .info i] =>
    some (.postCondition (.nonFungible a n c i))
  | .PostConditions, [.vec rs] => (conditionsOf rs).map .conditions
  | _, _ => none

mutual
/-- `Eval scope e r`: with the macros for which `scope` is true imported by name, `e` compiles and
has the value `r`. A call by path needs no import. -/
inductive Eval (scope : Name → Bool) : Rust → Value → Prop
  | lit {r} : Eval scope (.lit r) r
  | call {m p ts e r} : p = true ∨ scope m = true → expand m ts = some e → Eval scope e r →
      Eval scope (.call m p ts) r
  | new {ty es rs r} : EvalAll scope es rs → construct ty rs = some r → Eval scope (.new ty es) r
  | boxed {e v} : Eval scope e (.clarity v) → Eval scope (.boxed e) (.box v)
  | boxedCondition {e c} : Eval scope e (.postCondition c) → Eval scope (.boxedCondition e) (.condition c)
  | toString {e r s} : Eval scope e r → toStringOf r = some s → Eval scope (.toString e) (.string s)
  | toVec {e r bs} : Eval scope e r → toVecOf r = some bs → Eval scope (.toVec e) (.vecU8 bs)
  | vec {es rs} : EvalAll scope es rs → Eval scope (.vec es) (.vec rs)
  | pair {a b r s} : Eval scope a r → Eval scope b s → Eval scope (.pair a b) (.pair r s)
/-- The same for each expression of a list. -/
inductive EvalAll (scope : Name → Bool) : List Rust → List Value → Prop
  | nil : EvalAll scope [] []
  | cons {e r es rs} : Eval scope e r → EvalAll scope es rs → EvalAll scope (e :: es) (r :: rs)
end

end Stacks.Macro

import Verif.Model.Macro

/-! # Literals written with the macros

How a user writes a Clarity value with `clarity!` and post-conditions with `post_condition!`: the
name of the type, then the parts, separated by commas. -/

namespace Stacks.Spec
open Stacks.Clarity (CV)
open Stacks.Tx (Condition)
open Stacks.Macro

/-- The argument `clarity!(...)` of an enclosing macro call. -/
def nested (ts : List Tok) : Tok := .expr (.call .clarity false ts)

/-- The tokens `, e` for each expression. -/
def argToks : List Rust → List Tok
  | [] => []
  | e :: es => .comma :: .expr e :: argToks es

/-- The tokens `, (k, e)` for each pair of expressions. -/
def pairToks : List (Rust × Rust) → List Tok
  | [] => []
  | (k, e) :: es => .comma :: .paren [.expr k, .comma, .expr e] :: pairToks es

/-- Keys with text and expressions with Clarity values. -/
inductive Entries (σ : Name → Bool) : List (Rust × Rust) → List (Str × CV) → Prop
  | nil : Entries σ [] []
  | cons {k r s e v es vs} : Eval σ k r → toStringOf r = some s → Eval σ e (.clarity v) →
      Entries σ es vs → Entries σ ((k, e) :: es) ((s, v) :: vs)

/-- A string literal. -/
def text (s : Str) : Tok := .expr (.lit (.str s))

mutual
/-- What is written between the parentheses of `clarity!(...)` for a value, each part in turn being
written with `clarity!`. -/
def written : CV → List Tok
  | .int x => [.ident .Int, .comma, .expr (.lit (.int x.toInt))]
  | .uint x => [.ident .UInt, .comma, .expr (.lit (.int x.toNat))]
  | .buffer bs => [.ident .Buffer, .comma, .expr (.lit (.bytes bs))]
  | .tru => [.ident .True]
  | .fls => [.ident .False]
  | .principalStd a => [.ident .PrincipalStandard, .comma, text a]
  | .principalCon a n => [.ident .PrincipalContract, .comma, text a, .comma, text n]
  | .respOk v => [.ident .ResponseOk, .comma, nested (written v)]
  | .respErr v => [.ident .ResponseErr, .comma, nested (written v)]
  | .optNone => [.ident .OptionalNone]
  | .optSome v => [.ident .OptionalSome, .comma, nested (written v)]
  | .list vs => .ident .List :: writtenAll vs
  | .tuple es => .ident .Tuple :: writtenEntries es
  | .strAscii s => [.ident .StringAscii, .comma, text s]
  | .strUtf8 s => [.ident .StringUtf8, .comma, text s]
  | .lps s => [.ident .LengthPrefixedStr, .comma, text s]
  | .fnArgs vs => .ident .FnArguments :: writtenAll vs
/-- `, clarity!(...)` for each value. -/
def writtenAll : List CV → List Tok
  | [] => []
  | v :: vs => .comma :: nested (written v) :: writtenAll vs
/-- `, ("key", clarity!(...))` for each entry. -/
def writtenEntries : List (Str × CV) → List Tok
  | [] => []
  | (k, v) :: es => .comma :: .paren [text k, .comma, nested (written v)] :: writtenEntries es
end

/-- The value has no values inside it: numbers, buffers, booleans, principals, `none`, strings. -/
def Flat : CV → Prop
  | .respOk _ | .respErr _ | .optSome _ | .list _ | .tuple _ | .fnArgs _ => False
  | _ => True

/-- The name of the type of a value. -/
def typeName : CV → Word
  | .int _ => .Int
  | .uint _ => .UInt
  | .buffer _ => .Buffer
  | .tru => .True
  | .fls => .False
  | .principalStd _ => .PrincipalStandard
  | .principalCon _ _ => .PrincipalContract
  | .respOk _ => .ResponseOk
  | .respErr _ => .ResponseErr
  | .optNone => .OptionalNone
  | .optSome _ => .OptionalSome
  | .list _ => .List
  | .tuple _ => .Tuple
  | .strAscii _ => .StringAscii
  | .strUtf8 _ => .StringUtf8
  | .lps _ => .LengthPrefixedStr
  | .fnArgs _ => .FnArguments

/-- A kind of post-condition and expressions for its parts, and the condition they give. -/
inductive CondValue (σ : Name → Bool) : Word → List Rust → Condition → Prop
  | stx {a v n z c k} : Eval σ a (.clarity v) → Eval σ n (.int z) → 0 ≤ z → z < 2 ^ 64 →
      Eval σ c (.code k) → CondValue σ .STXCondition [a, n, c] (.stx v (.ofNat z.toNat) k)
  | fungible {a v n z c k i j} : Eval σ a (.clarity v) → Eval σ n (.int z) → 0 ≤ z → z < 2 ^ 64 →
      Eval σ c (.code k) → Eval σ i (.info j) →
      CondValue σ .FungibleCondition [a, n, c, i] (.fungible v (.ofNat z.toNat) k j)
  | nonFungible {a v n w c k i j} : Eval σ a (.clarity v) → Eval σ n (.clarity w) →
      Eval σ c (.code k) → Eval σ i (.info j) →
      CondValue σ .NonFungibleCondition [a, n, c, i] (.nonFungible v w k j)

/-- `Kind, e, ...`. -/
def condToks (g : Word × List Rust) : List Tok := .ident g.1 :: argToks g.2

/-- `(Kind, e, ...), (Kind, e, ...), ...`. -/
def groupToks : List (Word × List Rust) → List Tok
  | [] => []
  | [g] => [.paren (condToks g)]
  | g :: gs => .paren (condToks g) :: .comma :: groupToks gs

/-- What is written for a post-condition: the name of its kind and its parts. -/
def conditionParts : Condition → Word × List Rust
  | .stx a n c => (.STXCondition, [.lit (.clarity a), .lit (.int n.toNat), .lit (.code c)])
  | .fungible a n c i =>
    (.FungibleCondition, [.lit (.clarity a), .lit (.int n.toNat), .lit (.code c), .lit (.info i)])
  | .nonFungible a n c i =>
    (.NonFungibleCondition, [.lit (.clarity a), .lit (.clarity n), .lit (.code c), .lit (.info i)])

end Stacks.Spec

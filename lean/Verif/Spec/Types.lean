import Verif.Spec.Names

/-! # Which values have a type

Values of Clarity have types: the values of a list share one, and types are not nested more than 32 deep. These rules of
the reference node are not in /repo and are taken from the language's reference and the node's source as commonly
known. Its limit on the size of values is left out. -/

namespace Stacks.Spec
open Stacks.Tx
open Stacks.Clarity (CV)

/-- The types. The numbers are greatest lengths. -/
inductive Ty where
  | int | uint | bool | principal
  | buffer (max : Nat)
  | ascii (max : Nat)
  | utf8 (max : Nat)
  | optional (t : Ty)
  | response (ok err : Ty)
  | list (max : Nat) (t : Ty)
  | tuple (es : List (Str × Ty))

mutual
/-- How deep a type is nested. -/
def Ty.depth : Ty → Nat
  | .int | .uint | .bool | .principal | .buffer _ | .ascii _ | .utf8 _ => 1
  | .optional t => t.depth + 1
  | .response t u => max t.depth u.depth + 1
  | .list _ t => t.depth + 1
  | .tuple es => Ty.entriesDepth es + 1
/-- The greatest depth among the entries of a tuple. -/
def Ty.entriesDepth : List (Str × Ty) → Nat
  | [] => 0
  | (_, t) :: es => max t.depth (Ty.entriesDepth es)
end

mutual
/-- The value has the type. -/
def Has : CV → Ty → Prop
  | .int _, .int => True
  | .uint _, .uint => True
  | .tru, .bool => True
  | .fls, .bool => True
  | .principalStd _, .principal => True
  | .principalCon _ _, .principal => True
  | .buffer bs, .buffer n => bs.length ≤ n
  | .strAscii s, .ascii n => s.length ≤ n
  | .strUtf8 s, .utf8 n => s.length ≤ n
  | .optNone, .optional _ => True
  | .optSome v, .optional t => Has v t
  | .respOk v, .response t _ => Has v t
  | .respErr v, .response _ t => Has v t
  | .list vs, .list n t => vs.length ≤ n ∧ HasAll vs t
  | .tuple es, .tuple fs => es.length = fs.length ∧ HasEntries es fs
  | _, _ => False
/-- All values of a list have the type. -/
def HasAll : List CV → Ty → Prop
  | [], _ => True
  | v :: vs, t => Has v t ∧ HasAll vs t
/-- Each entry of a tuple has the type that the tuple's type gives to its name. -/
def HasEntries : List (Str × CV) → List (Str × Ty) → Prop
  | [], _ => True
  | (k, v) :: es, fs => (∃ t, (k, t) ∈ fs ∧ Has v t) ∧ HasEntries es fs
end

/-- The value has a type, nested at most 32 deep. -/
def Typed (v : CV) : Prop := ∃ t, Has v t ∧ t.depth ≤ 32

/-- All arguments and tokens in a transaction have one. -/
def GoodTypes [Secp] (t : Transaction) : Prop := ∀ v ∈ valuesIn t, Typed v

/-! ## Kinds of values -/

/-- The kinds of values: no type has values of two kinds. -/
inductive ValueKind where
  | int | uint | bool | principal | buffer | ascii | utf8 | optional | response | list | tuple | other
deriving DecidableEq

/-- The kind of a value. -/
def kindOf : CV → ValueKind
  | .int _ => .int
  | .uint _ => .uint
  | .tru | .fls => .bool
  | .principalStd _ | .principalCon _ _ => .principal
  | .buffer _ => .buffer
  | .strAscii _ => .ascii
  | .strUtf8 _ => .utf8
  | .optNone | .optSome _ => .optional
  | .respOk _ | .respErr _ => .response
  | .list _ => .list
  | .tuple _ => .tuple
  | .lps _ | .fnArgs _ => .other

mutual
/-- How deep a value is nested. -/
def nesting : CV → Nat
  | .optSome v | .respOk v | .respErr v => nesting v + 1
  | .list vs => nestingAll vs + 1
  | .tuple es => nestingEntries es + 1
  | .int _ | .uint _ | .tru | .fls | .principalStd _ | .principalCon _ _ | .buffer _ | .strAscii _ | .strUtf8 _
  | .optNone | .lps _ | .fnArgs _ => 1
/-- The greatest depth in a list. -/
def nestingAll : List CV → Nat
  | [] => 0
  | v :: vs => max (nesting v) (nestingAll vs)
/-- The greatest depth in a tuple. -/
def nestingEntries : List (Str × CV) → Nat
  | [] => 0
  | (_, v) :: es => max (nesting v) (nestingEntries es)
end

/-- The first value is the second, or inside it. -/
inductive Inside : CV → CV → Prop
  | refl (v) : Inside v v
  | some {w v} : Inside w v → Inside w (.optSome v)
  | ok {w v} : Inside w v → Inside w (.respOk v)
  | err {w v} : Inside w v → Inside w (.respErr v)
  | list {w v vs} : Inside w v → v ∈ vs → Inside w (.list vs)
  | tuple {w v k es} : Inside w v → (k, v) ∈ es → Inside w (.tuple es)

end Stacks.Spec

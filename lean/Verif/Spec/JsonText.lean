import Verif.Spec.Hex
import Verif.Model.Basic

/-! # The grammar of JSON (RFC 8259)

`JsonText v t` says that the text `t` is a way to write the JSON value `v`. It is a relation, given
rule by rule as in the RFC, with white space and all escapes, and does not mention how the crate
writes JSON. A number is kept as it is written. -/

namespace Stacks.Spec

/-- JSON values. Objects keep the order of their members, and repetitions. -/
inductive JsonVal where
  | null
  | bool (b : Bool)
  | number (lexeme : Str)
  | string (s : Str)
  | array (vs : List JsonVal)
  | object (es : List (Str × JsonVal))

/-- White space. -/
def Ws (t : Str) : Prop := ∀ c ∈ t, c ∈ [' ', '\t', '\n', '\r']

/-- The two-character escapes: the character after the backslash and what it stands for. -/
def shortEscapes : List (Char × Char) :=
  [('"', '"'), ('\\', '\\'), ('/', '/'), ('b', '\x08'), ('f', '\x0c'), ('n', '\n'), ('r', '\r'), ('t', '\t')]

/-- Four hexadecimal digits, of either case, and their value. -/
inductive Hex4 : Nat → Str → Prop
  | mk {a b c d : Char} {i j k l : Nat} : hexValue a = some i → hexValue b = some j →
      hexValue c = some k → hexValue d = some l →
      Hex4 (((i * 16 + j) * 16 + k) * 16 + l) [a, b, c, d]

/-- The ways to write one character between quotation marks: itself, unless it is a control
character, a quotation mark or a backslash; a two-character escape; its number in the first
plane; two surrogates otherwise. -/
inductive CharText : Char → Str → Prop
  | plain {c} : 0x20 ≤ c.toNat → c ≠ '"' → c ≠ '\\' → CharText c [c]
  | short {c e} : (e, c) ∈ shortEscapes → CharText c ['\\', e]
  | unit {c h} : Hex4 c.toNat h → CharText c ('\\' :: 'u' :: h)
  | pair {c hi lo h l} : Hex4 hi h → Hex4 lo l → 0xd800 ≤ hi → hi < 0xdc00 → 0xdc00 ≤ lo → lo < 0xe000 →
      c.toNat = 0x10000 + (hi - 0xd800) * 0x400 + (lo - 0xdc00) →
      CharText c ('\\' :: 'u' :: h ++ '\\' :: 'u' :: l)

/-- Characters one after the other. -/
inductive CharsText : Str → Str → Prop
  | nil : CharsText [] []
  | cons {c w s t} : CharText c w → CharsText s t → CharsText (c :: s) (w ++ t)

/-- A string in quotation marks. -/
inductive StringText : Str → Str → Prop
  | mk {s t} : CharsText s t → StringText s ('"' :: t ++ ['"'])

/-- Decimal digits, at least one. -/
def Digits (t : Str) : Prop := t ≠ [] ∧ ∀ c ∈ t, c ∈ "0123456789".toList

/-- Numbers: an optional minus sign, digits without a leading zero unless it is the only one, an
optional fraction, an optional exponent. -/
inductive NumberText : Str → Prop
  | mk {m i f e : Str} : m = [] ∨ m = ['-'] → Digits i → (i.head? = some '0' → i = ['0']) →
      (f = [] ∨ ∃ d, Digits d ∧ f = '.' :: d) →
      (e = [] ∨ ∃ x s d, (x = 'e' ∨ x = 'E') ∧ (s = [] ∨ s = ['+'] ∨ s = ['-']) ∧ Digits d ∧ e = x :: s ++ d) →
      NumberText (m ++ i ++ f ++ e)

mutual
/-- The text is a way to write the value, without white space around it. -/
inductive JsonText : JsonVal → Str → Prop
  | null : JsonText .null "null".toList
  | tru : JsonText (.bool true) "true".toList
  | fls : JsonText (.bool false) "false".toList
  | number {t} : NumberText t → JsonText (.number t) t
  | string {s t} : StringText s t → JsonText (.string s) t
  | noItems {w} : Ws w → JsonText (.array []) ('[' :: w ++ [']'])
  | array {vs t} : ItemsText vs t → JsonText (.array vs) ('[' :: t ++ [']'])
  | noMembers {w} : Ws w → JsonText (.object []) ('{' :: w ++ ['}'])
  | object {es t} : MembersText es t → JsonText (.object es) ('{' :: t ++ ['}'])
/-- One or more values with commas in between. -/
inductive ItemsText : List JsonVal → Str → Prop
  | one {v a t b} : Ws a → JsonText v t → Ws b → ItemsText [v] (a ++ t ++ b)
  | more {v vs a t b u} : Ws a → JsonText v t → Ws b → ItemsText vs u →
      ItemsText (v :: vs) (a ++ t ++ b ++ ',' :: u)
/-- One or more members with commas in between. -/
inductive MembersText : List (Str × JsonVal) → Str → Prop
  | one {k v a q b c t d} : Ws a → StringText k q → Ws b → Ws c → JsonText v t → Ws d →
      MembersText [(k, v)] (a ++ q ++ b ++ ':' :: (c ++ t ++ d))
  | more {k v es a q b c t d u} : Ws a → StringText k q → Ws b → Ws c → JsonText v t → Ws d →
      MembersText es u → MembersText ((k, v) :: es) (a ++ q ++ b ++ ':' :: (c ++ t ++ d ++ ',' :: u))
end

/-- A whole document: a value with white space around it. -/
def Document (v : JsonVal) (t : Str) : Prop :=
  ∃ a w b, Ws a ∧ JsonText v w ∧ Ws b ∧ t = a ++ w ++ b

end Stacks.Spec

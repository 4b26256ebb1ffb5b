import Verif.Model.JsonText
import Verif.Spec.Condition
import Verif.Spec.JsonRead
import Verif.Spec.JsonBody
import Verif.Spec.Rpc

/-! # Read-only calls, as a node sees them

A node gets a method, a path and a text in JSON. What it is asked follows from these alone. The path
is made from the URL by the HTTP library, by the rules for URLs of browsers (WHATWG) that `ureq`
follows; what they say about segments of dots and about blanks at the ends of a URL is left out, as
the names that are put into URLs here have neither. -/

namespace Stacks.Spec
open Stacks.Rpc Stacks.Clarity

/-- One byte in the path of a URL: a percent sign and two digits. -/
def percent (b : UInt8) : Str :=
  ['%', (hexDigits.getD (b.toNat / 16) '0').toUpper, (hexDigits.getD (b.toNat % 16) '0').toUpper]

/-- The path that is sent for the part of a URL that follows the address of the node: up to the first
question mark or number sign, without tabs and line ends, with slashes for backslashes, and with the
bytes of some characters (`escaped`) written in hexadecimal. -/
def sentPath (escaped : Char → Bool) (rest : Str) : Str :=
  ((rest.filter fun c => c ∉ ['\t', '\n', '\r']).takeWhile fun c => c ∉ ['?', '#']).flatMap fun c =>
    if c = '\\' then ['/'] else if escaped c then (Str.bytes [c]).flatMap percent else [c]

/-- The parts of a path between slashes. -/
def segments : Str → List Str
  | [] => [[]]
  | c :: cs =>
    match segments cs with
    | [] => []
    | s :: ss => if c = '/' then [] :: s :: ss else (c :: s) :: ss

/-- The bytes a segment stands for. -/
def unescaped : Str → Option Bytes
  | [] => some []
  | '%' :: h :: l :: cs => do
    let b ← hexBytes? [h, l]
    let bs ← unescaped cs
    pure (b.map UInt8.ofNat ++ bs)
  | '%' :: _ => none
  | c :: cs => do
    let bs ← unescaped cs
    pure (Str.bytes [c] ++ bs)

/-- The text a segment stands for. -/
def segmentText (s : Str) : Option Str := (unescaped s).bind fromUtf8

/-- The bytes a text in hexadecimal stands for, with or without `0x` in front. -/
def hexArgument (s : Str) : Option Bytes :=
  (hexBytes? (if "0x".toList <+: s then s.drop 2 else s)).map fun ns => ns.map UInt8.ofNat

/-- A question for the result of a function of a contract. -/
structure Asked where
  address : Str
  contract : Str
  function : Str
  sender : Str
  args : List CV

section
variable [Http] [Hashes] (escaped : Char → Bool) (fl : Http.F64 → Str) (order : List (Str × J) → List (Str × J))

/-- A request is, for the node at `base`, this question: it is a POST of a JSON text, whose members are written
in some order (`order`). The path is `/v2/contracts/call-read/` and address, contract and function; the text is an
object that gives the sender, and the arguments in hexadecimal. -/
def Asks (base : Str) (q : Request) (a : Asked) : Prop :=
  q.method = "POST".toList ∧
  (∃ rest, '?' ∉ base ∧ '#' ∉ base ∧ q.url = base ++ rest ∧
    (segments (sentPath escaped rest)).map segmentText =
      [some [], some "v2".toList, some "contracts".toList, some "call-read".toList, some a.address, some a.contract,
        some a.function]) ∧
  ∃ (es : List (Str × J)) (fs : List (Str × JsonVal)) (hs : List Str), q.body = .json (.obj es) ∧
    Document (.object fs) ((Json.obj (order es)).text fl) ∧
    (∀ v, ("sender".toList, v) ∈ fs ↔ v = .string a.sender) ∧
    (∀ v, ("arguments".toList, v) ∈ fs ↔ v = .array (hs.map .string)) ∧
    List.Forall₂ (fun h v => ∃ bs, hexArgument h = some bs ∧ readValue.run bs = some (v, [])) hs a.args

/-- A node at `base` that has the contracts `f`: asked for a result it replies with a JSON text that has the
bytes of the result in hexadecimal, after `0x`, or the cause of the failure. -/
def HasContracts (bytes : Http.Body → Bytes) (float : Str → Option Http.F64) (base : Str) (server : Request → Reply)
    (f : Asked → Except Str CV) : Prop :=
  ∀ q a, Asks escaped fl order base q a → ∃ code j, code < 400 ∧ RepliesJson bytes float (server q) code j ∧
    match f a with
    | .ok v => ∃ h, hexBytes? h = some ((sip005 v).map UInt8.toNat) ∧ IsReadOnlyOk j ⟨true, "0x".toList ++ h⟩
    | .error cause => IsReadOnlyErr j ⟨false, cause⟩ ∧ ∀ x, ¬ IsReadOnlyOk j x

/-- What the caller gets is what the contract says: a text that, after `0x`, is the hexadecimal form of bytes
that the crate decodes to the value, or the cause of the failure. -/
def Returns (answer : Except Str CV) (result : Outcome Rpc.Error ReadOnlyResponse) : Prop :=
  match answer with
  | .ok v => ∃ h bs, result = .ok (.ok ⟨true, "0x".toList ++ h⟩) ∧ hexBytes? h = some (bs.map UInt8.toNat) ∧ Clarity.decode bs = .ok v
  | .error cause => result = .ok (.err ⟨false, cause⟩)

end

/-- Letters, digits and the signs of names in contracts that mean nothing in a URL. -/
def UrlPlain (c : Char) : Prop := c.isAlphanum = true ∨ c ∈ "-_!+<>=*".toList

/-- The signs of names in contracts. -/
def NameChar (c : Char) : Prop := UrlPlain c ∨ c = '/' ∨ c = '?'

end Stacks.Spec

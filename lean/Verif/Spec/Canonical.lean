import Verif.Spec.Node

/-! # Nodes that keep the entries of tuples ordered by name

The reference node reads a tuple into a map ordered by name, refuses it if a name occurs twice, and
hashes its own serialisation of what it has read. So the hash against which it checks a signature is
that of the transaction with the entries of all tuples in ascending order, whatever the order in which
they were sent. It also has rules for names and values (`Rules` stands for any such rules). -/

namespace Stacks.Spec
open Stacks.Tx
open Stacks.Clarity (CV)

/-! ## The order -/

/-- The order of byte strings: by the first byte in which they differ, or the shorter first. -/
def bytesLt : Bytes → Bytes → Bool
  | _, [] => false
  | [], _ :: _ => true
  | a :: as, b :: bs => if a = b then bytesLt as bs else a < b

/-- The order of names. -/
def nameLt (a b : Str) : Prop := bytesLt a.bytes b.bytes = true

instance (a b : Str) : Decidable (nameLt a b) := inferInstanceAs (Decidable (_ = true))

mutual
/-- In every tuple inside the value the names are in ascending order. -/
def Ascending : CV → Prop
  | .int _ | .uint _ | .buffer _ | .tru | .fls | .principalStd _ | .principalCon _ _ | .optNone
  | .strAscii _ | .strUtf8 _ | .lps _ => True
  | .respOk v | .respErr v | .optSome v => Ascending v
  | .list vs | .fnArgs vs => AscendingAll vs
  | .tuple es => (es.map Prod.fst).Pairwise nameLt ∧ AscendingEntries es
/-- In every value of a list. -/
def AscendingAll : List CV → Prop
  | [] => True
  | v :: vs => Ascending v ∧ AscendingAll vs
/-- In every value of a tuple. -/
def AscendingEntries : List (Str × CV) → Prop
  | [] => True
  | (_, v) :: es => Ascending v ∧ AscendingEntries es
end

mutual
/-- In every tuple inside the value the names are different. -/
def NamesDiffer : CV → Prop
  | .int _ | .uint _ | .buffer _ | .tru | .fls | .principalStd _ | .principalCon _ _ | .optNone
  | .strAscii _ | .strUtf8 _ | .lps _ => True
  | .respOk v | .respErr v | .optSome v => NamesDiffer v
  | .list vs | .fnArgs vs => NamesDifferAll vs
  | .tuple es => (es.map Prod.fst).Nodup ∧ NamesDifferEntries es
/-- In every value of a list. -/
def NamesDifferAll : List CV → Prop
  | [] => True
  | v :: vs => NamesDiffer v ∧ NamesDifferAll vs
/-- In every value of a tuple. -/
def NamesDifferEntries : List (Str × CV) → Prop
  | [] => True
  | (_, v) :: es => NamesDiffer v ∧ NamesDifferEntries es
end

/-! ## Sorting -/

/-- Inserts an entry before the first one with a greater name. -/
def insertEntry (e : Str × CV) : List (Str × CV) → List (Str × CV)
  | [] => [e]
  | f :: fs => if nameLt e.1 f.1 then e :: f :: fs else f :: insertEntry e fs

mutual
/-- The value with the entries of all tuples sorted. -/
def sorted : CV → CV
  | .respOk v => .respOk (sorted v)
  | .respErr v => .respErr (sorted v)
  | .optSome v => .optSome (sorted v)
  | .list vs => .list (sortedAll vs)
  | .fnArgs vs => .fnArgs (sortedAll vs)
  | .tuple es => .tuple (sortedEntries es)
  | v => v
/-- Of every value of a list. -/
def sortedAll : List CV → List CV
  | [] => []
  | v :: vs => sorted v :: sortedAll vs
/-- Of every value of a tuple, and of the tuple itself. -/
def sortedEntries : List (Str × CV) → List (Str × CV)
  | [] => []
  | (k, v) :: es => insertEntry (k, sorted v) (sortedEntries es)
end

/-- In a post-condition: the token. -/
def sortedCondition : Condition → Condition
  | .nonFungible a token code info => .nonFungible a (sorted token) code info
  | c => c

/-- In a payload: the arguments. -/
def sortedPayload : Payload → Payload
  | .contractCall p => .contractCall { p with args := p.args.map sorted }
  | p => p

section
variable [Secp]

/-- The values in a transaction that may contain tuples: arguments and tokens. -/
def valuesIn (t : Transaction) : List CV :=
  (match t.payload with
    | .contractCall p => p.args
    | .tokenTransfer _ => []) ++
  t.postConditions.filterMap fun
    | .nonFungible _ token _ _ => some token
    | _ => none

/-- The transaction with the entries of all tuples sorted. -/
def sortedTransaction (t : Transaction) : Transaction :=
  { t with postConditions := t.postConditions.map sortedCondition, payload := sortedPayload t.payload }

variable [Hashes]

/-- Such a node accepts the bytes: as in `NodeAccepts`, but names in a tuple differ, the node's rules
are met, and what is signed is the transaction with sorted tuples. -/
def SortingNodeAccepts (rules : Transaction → Prop) (parse : Arr 33 → Option Secp.PK) (bytes : Bytes) : Prop :=
  ∃ t, (readTransaction parse).run bytes = some (t, []) ∧ rules t ∧ (∀ v ∈ valuesIn t, NamesDiffer v) ∧
    (∀ c ∈ t.postConditions, CodeFits c) ∧ ToAccount t.payload ∧
    SatisfiedAuth (Hashes.sha512_256 (signingPreimage (sortedTransaction t))) t.auth

end

end Stacks.Spec

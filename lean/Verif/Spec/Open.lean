import Verif.Model.Open
import Verif.Spec.Signing

/-! # Specification for values, post-conditions and payloads of any implementation (C114) -/

namespace Stacks.Spec
open Stacks.Open Stacks.Tx
open Stacks.Clarity (CV Error)

section
variable [Hashes]

/-- A size in four bytes, or the error of a size that does not fit. -/
def sizePiece (n : Nat) : Outcome Error Bytes := if n < 2 ^ 32 then .ok (beBytes 4 n) else .err .tryFromInt

/-- A name of at most 128 bytes, with its length in front. -/
def namePiece (s : Str) : Outcome Error Bytes :=
  if s.bytes.length ≤ 128 then .ok (UInt8.ofNat s.bytes.length :: s.bytes) else .err (.badStringLength s.bytes.length 128)

mutual
/-- The pieces written for a value, in order. What a value of another implementation writes is one
piece, and so is what a value of the crate's own types writes (C22, C70). -/
def pieces : Obj → List (Outcome Error Bytes)
  | .crate v => [v.encode]
  | .respOk o => .ok [0x07] :: pieces o
  | .respErr o => .ok [0x08] :: pieces o
  | .optSome o => .ok [0x0a] :: pieces o
  | .list os => .ok [0x0b] :: sizePiece os.length :: piecesAll os
  | .tuple es => .ok [0x0c] :: sizePiece es.length :: piecesEntries es
  | .fnArgs os => sizePiece os.length :: piecesAll os
  | .foreign encode _ _ _ => [encode]

/-- The pieces of several values. -/
def piecesAll : List Obj → List (Outcome Error Bytes)
  | [] => []
  | o :: os => pieces o ++ piecesAll os

/-- The pieces of the entries of a tuple. -/
def piecesEntries : List (Str × Obj) → List (Outcome Error Bytes)
  | [] => []
  | (k, o) :: es => namePiece k :: pieces o ++ piecesEntries es
end

/-- What comes of writing pieces: all of them in a row, or the outcome of the first that fails. -/
def inOrder : List (Outcome Error Bytes) → Outcome Error Bytes
  | [] => .ok []
  | .ok b :: ps =>
    match inOrder ps with
    | .ok bs => .ok (b ++ bs)
    | r => r
  | r :: _ => r

/-- `o` stands for the crate's value `v`: it is built the same way, with values of other implementations
in places where they answer `encode` as the value in that place does. -/
inductive StandsFor : Obj → CV → Prop
  | crate (v : CV) : StandsFor (.crate v) v
  | foreign {e : Outcome Error Bytes} {d g : Str} {a : Option CV} {v : CV} : e = v.encode →
      StandsFor (.foreign e d g a) v
  | respOk {o : Obj} {v : CV} : StandsFor o v → StandsFor (.respOk o) (.respOk v)
  | respErr {o : Obj} {v : CV} : StandsFor o v → StandsFor (.respErr o) (.respErr v)
  | optSome {o : Obj} {v : CV} : StandsFor o v → StandsFor (.optSome o) (.optSome v)
  | list {ps : List (Obj × CV)} : (∀ p ∈ ps, StandsFor p.1 p.2) →
      StandsFor (.list (ps.map (·.1))) (.list (ps.map (·.2)))
  | fnArgs {ps : List (Obj × CV)} : (∀ p ∈ ps, StandsFor p.1 p.2) →
      StandsFor (.fnArgs (ps.map (·.1))) (.fnArgs (ps.map (·.2)))
  | tuple {ps : List (Str × Obj × CV)} : (∀ p ∈ ps, StandsFor p.2.1 p.2.2) →
      StandsFor (.tuple (ps.map fun p => (p.1, p.2.1))) (.tuple (ps.map fun p => (p.1, p.2.2)))

/-- The principal that a value shows to a post-condition: its own if it is one of the crate's principals,
what `as_any` exposes if it is a value of another implementation. -/
def shownPrincipal : Obj → Option CV
  | .crate (.principalStd a) => some (.principalStd a)
  | .crate (.principalCon a n) => some (.principalCon a n)
  | .foreign _ _ _ (some (.principalStd a)) => some (.principalStd a)
  | .foreign _ _ _ (some (.principalCon a n)) => some (.principalCon a n)
  | _ => none

/-- The pieces of a payload. A memo of more than 34 bytes is refused before anything is written. -/
def payloadPieces : OPayload → List (Outcome Error Bytes)
  | .tokenTransfer address amount memo =>
    [if memo.bytes.length ≤ 34 then .ok [0x00] else .err (.badStringLength memo.bytes.length 34)] ++
      pieces address ++ [.ok (beBytes 8 amount.toNat), .ok (memoField memo)]
  | .contractCall address contract name args =>
    [.ok (0x02 :: address.version :: address.hash.1), namePiece contract, namePiece name] ++ pieces (.fnArgs args)
  | .foreign encode => [encode]

/-- The crate's own conditions, as conditions of any implementation. -/
def ofCondition : Condition → OCond
  | .stx a n c => .stx (.crate a) n c
  | .fungible a n c i => .fungible (.crate a) n c i
  | .nonFungible a x c i => .nonFungible (.crate a) (.crate x) c i

/-- The crate's own payloads, as payloads of any implementation. -/
def ofPayload : Payload → OPayload
  | .tokenTransfer p => .tokenTransfer (.crate p.address) p.amount p.memo
  | .contractCall p => .contractCall p.address p.contract p.name (p.args.map .crate)

section
variable [Secp]

omit [Hashes] in
/-- The crate's own transactions, as transactions with parts of any implementation. -/
def ofTransaction (t : Transaction) : OTransaction :=
  ⟨t.version, t.chainId, t.auth, t.anchorMode, t.postConditionMode, t.postConditions.map ofCondition, ofPayload t.payload⟩

/-- The parts of a transaction that may be of other implementations write these bytes: the number of
post-conditions, each post-condition, and the payload. -/
def Body (t : OTransaction) (conditions payload : Bytes) : Prop :=
  (t.postConditions.length < 2 ^ 32 ∧ ∃ bs, inOrder (t.postConditions.map OCond.encode) = .ok bs ∧
    conditions = beBytes 4 t.postConditions.length ++ bs) ∧
  t.payload.encode = .ok payload

omit [Hashes] in
/-- The bytes of a transaction with that body. -/
def openBytes (t : OTransaction) (conditions payload : Bytes) : Bytes :=
  [versionNumber t.version] ++ beBytes 4 (chainNumber t.chainId) ++ authBytes t.auth ++
    [anchorNumber t.anchorMode, postModeNumber t.postConditionMode] ++ conditions ++ payload

omit [Hashes] in
/-- The bytes hashed for the first signature. -/
def openPreimage (t : OTransaction) (conditions payload : Bytes) : Bytes :=
  openBytes { t with auth := clearedAuth t.auth } conditions payload

/-- The open transaction `o` stands for the crate's `t`: the header and the authorization are the same, and
the post-conditions and the payload answer `encode` as those of `t` do. -/
structure Matches (o : OTransaction) (t : Transaction) : Prop where
  version : o.version = t.version
  chainId : o.chainId = t.chainId
  auth : o.auth = t.auth
  anchorMode : o.anchorMode = t.anchorMode
  postConditionMode : o.postConditionMode = t.postConditionMode
  conditions : opostConditionsEncode o.postConditions = postConditionsEncode t.postConditions
  payload : o.payload.encode = t.payload.encode

/-- Two signers over such transactions, at the same hash and with the same switches. -/
structure SignerMatches (o : OSigner) (s : Signer) : Prop where
  tx : Matches o.tx s.tx
  hash : o.hash = s.hash
  originSigned : o.originSigned = s.originSigned
  verifyOversign : o.verifyOversign = s.verifyOversign
  verifyOverlap : o.verifyOverlap = s.verifyOverlap

omit [Hashes] [Secp] in
/-- Two calls end alike: both succeed with results so related, both fail with the same error, or both
panic. -/
inductive Alike {ε α β : Type} (R : α → β → Prop) : Outcome ε α → Outcome ε β → Prop
  | ok {a : α} {b : β} : R a b → Alike R (.ok a) (.ok b)
  | err (e : ε) : Alike R (.err e) (.err e)
  | panic : Alike R .panic .panic

/-- A call on a signer whose transaction has parts of any implementation. -/
def openCall : SignerOp → OSigner → Outcome TxError OSigner
  | .signOrigin k, s => s.signOrigin k
  | .signSponsor k, s => s.signSponsor k
  | .appendOrigin k, s => s.appendOrigin k

/-- Walking the participants in order: signing or appending the key, stopping at an error. -/
def openWalk : OSigner → List Participant → Outcome TxError OSigner
  | s, [] => .ok s
  | s, .signs k :: ps => do
    let s' ← s.signOrigin k
    openWalk s' ps
  | s, .absent k :: ps => do
    let s' ← s.appendOrigin k
    openWalk s' ps

end

end

end Stacks.Spec

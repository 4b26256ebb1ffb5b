import Verif.Spec.Clarity
import Verif.Model.Payload

/-! # Specification of transaction payloads (SIP-005) -/

namespace Stacks.Spec
open Stacks.Tx

/-- The memo field: the UTF-8 bytes of the memo, then zero bytes up to 34. -/
def memoField (memo : Str) : Bytes := memo.bytes ++ List.replicate (34 - memo.bytes.length) 0

/-- The memo as read back: followed by NUL characters up to 34 bytes. -/
def paddedMemo (memo : Str) : Str := memo ++ List.replicate (34 - memo.bytes.length) '\x00'

section
variable [Hashes]

/-- A token transfer: type 0, recipient, 8-byte amount, memo. -/
def tokenTransferBytes (p : TokenTransfer) : Bytes :=
  0x00 :: sip005 p.address ++ beBytes 8 p.amount.toNat ++ memoField p.memo

/-- A contract call: type 2, version and hash of the contract's address, contract name, function
name, 4-byte count of arguments, arguments. -/
def contractCallBytes (p : ContractCall) : Bytes :=
  0x02 :: p.address.version :: p.address.hash.1 ++ sized8 p.contract ++ sized8 p.name ++
    beBytes 4 p.args.length ++ (p.args.map sip005).flatten

/-- Either payload. -/
def payloadBytes : Payload → Bytes
  | .tokenTransfer p => tokenTransferBytes p
  | .contractCall p => contractCallBytes p

/-- The payloads that have an encoding. -/
def EncodablePayload : Payload → Prop
  | .tokenTransfer p => Encodable p.address ∧ p.memo.bytes.length ≤ 34
  | .contractCall p => p.contract.bytes.length ≤ 128 ∧ p.name.bytes.length ≤ 128 ∧ p.args.length < 2 ^ 32 ∧
      ∀ v ∈ p.args, Encodable v

/-- A token transfer to a well-formed recipient with a memo of at most 34 bytes. -/
def WellFormedTransfer (p : TokenTransfer) : Prop :=
  WellFormed p.address ∧ p.memo.bytes.length ≤ 34

/-- A contract call with names of at most 128 bytes and well-formed arguments. -/
def WellFormedCall (p : ContractCall) : Prop :=
  p.contract.bytes.length ≤ 128 ∧ p.name.bytes.length ≤ 128 ∧ p.args.length < 2 ^ 32 ∧
    ∀ v ∈ p.args, WellFormed v

/-- Either payload. -/
def WellFormedPayload : Payload → Prop
  | .tokenTransfer p => WellFormedTransfer p
  | .contractCall p => WellFormedCall p

end

/-- What decoding an encoded payload gives: the same, with the memo padded. -/
def readBack : Payload → Payload
  | .tokenTransfer p => .tokenTransfer { p with memo := paddedMemo p.memo }
  | .contractCall p => .contractCall p

/-- The memo, if there is one, does not end in a NUL character. -/
def MemoUnpadded : Payload → Prop
  | .tokenTransfer p => p.memo.getLast? ≠ some '\x00'
  | .contractCall _ => True

end Stacks.Spec

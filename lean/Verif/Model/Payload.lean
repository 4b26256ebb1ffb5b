import Verif.Model.Clarity

/-! # `stacks/src/transaction/payload.rs` -/

namespace Stacks.Tx
open Stacks.Clarity (CV Error)

/-- payload.rs:24. -/
def payloadTokenTransfer : UInt8 := 0x00
/-- payload.rs:26. -/
def payloadContractCall : UInt8 := 0x02

/-- payload.rs:57-64 `struct TokenTransferPayload`. -/
structure TokenTransfer where
  address : CV
  amount : UInt64
  memo : Str

/-- payload.rs:136-145 `struct ContractCallPayload` (the two `LengthPrefixedStr` and the
`FnArguments` are shown by the values they wrap). -/
structure ContractCall where
  address : C32.Address
  contract : Str
  name : Str
  args : List CV

/-- payload.rs:29-30: `Box<dyn Payload>`, as the sum of the crate's two payload types. -/
inductive Payload where
  | tokenTransfer (p : TokenTransfer)
  | contractCall (p : ContractCall)

/-- payload.rs:89-91: `for (i, byte) in bytes.iter().enumerate() { buff[i] = *byte }`, starting
at index `i`. -/
def writeBytes {ε : Type} (buff : Bytes) (i : Nat) : Bytes → Outcome ε Bytes
  | [] => .ok buff
  | b :: bs => if i < buff.length then writeBytes (buff.set i b) (i + 1) bs else .panic

section
variable [Hashes]

/-- payload.rs:82-99 `TokenTransferPayload::encode`. -/
def TokenTransfer.encode (p : TokenTransfer) : Outcome Error Bytes :=
  let memoBytes := List.replicate 34 (0 : UInt8)
  if p.memo.len > 34 then .err (.badStringLength p.memo.len 34)
  else do
    let memoBytes ← writeBytes memoBytes 0 p.memo.bytes
    let addr ← p.address.encode
    pure ([payloadTokenTransfer] ++ addr ++ be64 p.amount ++ memoBytes)

/-- payload.rs:101-129 `TokenTransferPayload::decode`. (`amount_bytes.try_into()?` cannot fail on
a slice of 8 bytes.) -/
def TokenTransfer.decode (bytes : Bytes) : Outcome Error TokenTransfer := do
  let tag ← idx bytes 0
  if tag ≠ payloadTokenTransfer then .err (.unexpectedType tag)
  else do
    let offset := 1
    let rest ← sliceFrom bytes offset
    let address ← Clarity.decode rest
    let addrLen ← address.len
    let offset := offset + addrLen
    let amountBytes ← slice bytes offset (offset + 8)
    let amount := UInt64.ofNat (beVal amountBytes)
    let offset := offset + 8
    let memoBytes ← slice bytes offset (offset + 34)
    let memo ← Clarity.stringFromUtf8 memoBytes
    pure ⟨address, amount, memo⟩

/-- payload.rs:164-172 `ContractCallPayload::encode`. -/
def ContractCall.encode (p : ContractCall) : Outcome Error Bytes := do
  let contract ← (CV.lps p.contract).encode
  let name ← (CV.lps p.name).encode
  let args ← (CV.fnArgs p.args).encode
  pure ([payloadContractCall] ++ [p.address.version] ++ p.address.hash.1 ++ contract ++ name ++ args)

/-- payload.rs:174-206 `ContractCallPayload::decode`. -/
def ContractCall.decode (bytes : Bytes) : Outcome Error ContractCall := do
  let tag ← idx bytes 0
  if tag ≠ payloadContractCall then .err (.unexpectedType tag)
  else do
    let offset := 1
    let version ← idx bytes offset
    let offset := offset + 1
    let hs ← slice bytes offset (offset + 20)
    let hash ← hash160New hs
    let offset := offset + 20
    let rest ← sliceFrom bytes offset
    let contract ← Clarity.lpsDecode rest
    let contractLen ← (CV.lps contract).len
    let rest ← sliceFrom bytes (offset + contractLen)
    let name ← Clarity.lpsDecode rest
    let nameLen ← (CV.lps name).len
    let rest ← sliceFrom bytes (offset + contractLen + nameLen)
    let args ← Clarity.fnArgsDecode rest
    pure ⟨⟨hash, version⟩, contract, name, args⟩

/-- payload.rs:33-35 `<Box<dyn Payload>>::encode`. -/
def Payload.encode : Payload → Outcome Error Bytes
  | .tokenTransfer p => p.encode
  | .contractCall p => p.encode

/-- payload.rs:37-52 `<Box<dyn Payload>>::decode`. -/
def Payload.decode (bytes : Bytes) : Outcome Error Payload := do
  let tag ← idx bytes 0
  if tag = payloadTokenTransfer then do
    let p ← TokenTransfer.decode bytes
    pure (.tokenTransfer p)
  else if tag = payloadContractCall then do
    let p ← ContractCall.decode bytes
    pure (.contractCall p)
  else .err (.unexpectedType tag)

end

end Stacks.Tx

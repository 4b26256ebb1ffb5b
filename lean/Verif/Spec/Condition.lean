import Verif.Spec.Payload
import Verif.Model.Condition

/-! # Specification of post-conditions (SIP-005): the bytes, and a reader for them -/

namespace Stacks.Spec
open Stacks.Tx
open Stacks.Clarity (CV)

/-- SIP-005's numbers for the condition codes. -/
def conditionCode : ConditionCode → UInt8
  | .eq => 1
  | .gt => 2
  | .gte => 3
  | .lt => 4
  | .lte => 5
  | .hasNot => 16
  | .has => 17

/-- The account a post-condition is about. -/
def conditionAddress : Condition → CV
  | .stx a _ _ => a
  | .fungible a _ _ _ => a
  | .nonFungible a _ _ _ => a

/-- Standard or contract principal. -/
def IsPrincipal (v : CV) : Prop :=
  (∃ a, v = .principalStd a) ∨ (∃ a n, v = .principalCon a n)

variable [Hashes]

/-- Principals inside post-conditions have their own type bytes: 2 standard, 3 contract. -/
def principalField : CV → Bytes
  | .principalStd a => 0x02 :: addrBytes a
  | .principalCon a n => 0x03 :: (addrBytes a ++ sized8 n)
  | _ => []

/-- Address, contract name, asset name. -/
def assetField (i : AssetInfo) : Bytes := addrBytes i.address ++ sized8 i.name ++ sized8 i.asset

/-- The three kinds of post-condition. -/
def conditionBytes : Condition → Bytes
  | .stx a amount code =>
    [0x00] ++ principalField a ++ [conditionCode code] ++ beBytes 8 amount.toNat
  | .fungible a amount code info =>
    [0x01] ++ principalField a ++ assetField info ++ [conditionCode code] ++ beBytes 8 amount.toNat
  | .nonFungible a token code info =>
    [0x02] ++ principalField a ++ assetField info ++ sip005 token ++ [conditionCode code]

/-- A 4-byte count and the conditions. -/
def conditionsBytes (cs : List Condition) : Bytes :=
  beBytes 4 cs.length ++ (cs.map conditionBytes).flatten

/-- The asset information has an encoding. -/
def EncodableAsset (i : AssetInfo) : Prop :=
  DenotesAddress i.address ∧ i.name.bytes.length ≤ 128 ∧ i.asset.bytes.length ≤ 128

/-- The condition has an encoding. -/
def EncodableCondition : Condition → Prop
  | .stx a _ _ => IsPrincipal a ∧ Encodable a
  | .fungible a _ _ info => (IsPrincipal a ∧ Encodable a) ∧ EncodableAsset info
  | .nonFungible a token _ info => (IsPrincipal a ∧ Encodable a) ∧ EncodableAsset info ∧ Encodable token

/-- Asset information with a canonical address. -/
def WellFormedAsset (i : AssetInfo) : Prop :=
  CanonicalAddress i.address ∧ i.name.bytes.length ≤ 128 ∧ i.asset.bytes.length ≤ 128

/-- Post-conditions about canonical principals and, for tokens, standard Clarity values. -/
def WellFormedCondition : Condition → Prop
  | .stx a _ _ => IsPrincipal a ∧ WellFormed a
  | .fungible a _ _ info => (IsPrincipal a ∧ WellFormed a) ∧ WellFormedAsset info
  | .nonFungible a token _ info => (IsPrincipal a ∧ WellFormed a) ∧ WellFormedAsset info ∧ WellFormed token

/-! ## A reader -/

/-- Consumes bytes from the front, or fails. -/
abbrev Reader (α : Type) := StateT Bytes Option α

/-- One byte. -/
def readByte : Reader UInt8 := fun
  | [] => none
  | b :: bs => some (b, bs)

/-- `n` bytes. -/
def readBytes (n : Nat) : Reader Bytes := fun bs =>
  if n ≤ bs.length then some (bs.take n, bs.drop n) else none

/-- A big-endian number of `n` bytes. -/
def readNat (n : Nat) : Reader Nat := do
  let bs ← readBytes n
  pure (beVal bs)

/-- A version and 20 bytes, as an address string. -/
def readAddress : Reader Str := do
  let version ← readByte
  let hash ← readBytes 20
  if KnownVersion version then pure (addressString version hash) else failure

/-- UTF-8 text of `n` bytes. -/
def readText (n : Nat) : Reader Str := do
  let bs ← readBytes n
  match fromUtf8 bs with
  | some s => pure s
  | none => failure

/-- A name: a one-byte length, at most 128, and that many bytes of text. -/
def readName : Reader Str := do
  let n ← readByte
  if n.toNat ≤ 128 then readText n.toNat else failure

/-- A principal. -/
def readPrincipal : Reader CV := do
  let t ← readByte
  let a ← readAddress
  if t = 2 then pure (.principalStd a)
  else if t = 3 then do
    let n ← readName
    pure (.principalCon a n)
  else failure

/-- Asset information. -/
def readAsset : Reader AssetInfo := do
  let a ← readAddress
  let n ← readName
  let s ← readName
  pure ⟨a, n, s⟩

/-- A condition code. -/
def readCode : Reader ConditionCode := do
  let b ← readByte
  if b = 1 then pure .eq
  else if b = 2 then pure .gt
  else if b = 3 then pure .gte
  else if b = 4 then pure .lt
  else if b = 5 then pure .lte
  else if b = 16 then pure .hasNot
  else if b = 17 then pure .has
  else failure

/-- `n` things. -/
def readMany {α : Type} (r : Reader α) : Nat → Reader (List α)
  | 0 => pure []
  | n + 1 => do
    let x ← r
    let xs ← readMany r n
    pure (x :: xs)

/-- A Clarity value nested at most `depth` deep: its type byte, and what SIP-005 says follows. -/
def readNested : Nat → Reader CV
  | 0 => failure
  | depth + 1 => do
    let t ← readByte
    match t.toNat with
    | 0x00 => do
      let x ← readNat 16
      pure (.int (BitVec.ofNat 128 x))
    | 0x01 => do
      let x ← readNat 16
      pure (.uint (BitVec.ofNat 128 x))
    | 0x02 => do
      let n ← readNat 4
      let bs ← readBytes n
      pure (.buffer bs)
    | 0x03 => pure .tru
    | 0x04 => pure .fls
    | 0x05 => do
      let a ← readAddress
      pure (.principalStd a)
    | 0x06 => do
      let a ← readAddress
      let n ← readName
      pure (.principalCon a n)
    | 0x07 => do
      let v ← readNested depth
      pure (.respOk v)
    | 0x08 => do
      let v ← readNested depth
      pure (.respErr v)
    | 0x09 => pure .optNone
    | 0x0a => do
      let v ← readNested depth
      pure (.optSome v)
    | 0x0b => do
      let n ← readNat 4
      let vs ← readMany (readNested depth) n
      pure (.list vs)
    | 0x0c => do
      let n ← readNat 4
      let es ← readMany (do
        let k ← readName
        let v ← readNested depth
        pure (k, v)) n
      pure (.tuple es)
    | 0x0d => do
      let n ← readNat 4
      let s ← readText n
      if ∀ c ∈ s, c.toNat < 128 then pure (.strAscii s) else failure
    | 0x0e => do
      let n ← readNat 4
      let s ← readText n
      pure (.strUtf8 s)
    | _ => failure

/-- A Clarity value. (A value of `n` bytes is not nested deeper than `n`.) -/
def readValue : Reader CV := fun bs => readNested bs.length bs

/-- A post-condition. -/
def readCondition : Reader Condition := do
  let t ← readByte
  let a ← readPrincipal
  if t = 0 then do
    let code ← readCode
    let amount ← readNat 8
    pure (.stx a (UInt64.ofNat amount) code)
  else do
    let info ← readAsset
    if t = 1 then do
      let code ← readCode
      let amount ← readNat 8
      pure (.fungible a (UInt64.ofNat amount) code info)
    else if t = 2 then do
      let token ← readValue
      let code ← readCode
      pure (.nonFungible a token code info)
    else failure

/-- A list of post-conditions. -/
def readConditions : Reader (List Condition) := do
  let n ← readNat 4
  readMany readCondition n

end Stacks.Spec

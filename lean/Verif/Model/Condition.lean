import Verif.Model.Clarity

/-! # `stacks/src/transaction/condition.rs` -/

namespace Stacks.Tx
open Stacks.Clarity (CV Error)

/-- condition.rs:59-74 `enum ConditionCode`. -/
inductive ConditionCode where
  | eq | gt | gte | lt | lte | hasNot | has
deriving DecidableEq, Repr

/-- condition.rs:61-73: the discriminants, `code as u8`. -/
def ConditionCode.toU8 : ConditionCode → UInt8
  | .eq => 0x01
  | .gt => 0x02
  | .gte => 0x03
  | .lt => 0x04
  | .lte => 0x05
  | .hasNot => 0x10
  | .has => 0x11

/-- condition.rs:79-84 `enum PostConditionMode`. -/
inductive PostConditionMode where
  | allow | deny
deriving DecidableEq, Repr

/-- condition.rs:80-83: the discriminants. -/
def PostConditionMode.toU8 : PostConditionMode → UInt8
  | .allow => 0x01
  | .deny => 0x02

/-- condition.rs:321-328 `struct AssetInfo` (the wrappers are shown by the wrapped strings). -/
structure AssetInfo where
  address : Str
  name : Str
  asset : Str
deriving DecidableEq

/-- condition.rs:53-54, 148-155, 203-212, 262-271: `Box<dyn Condition>`, as the sum of the crate's
three post-condition types. -/
inductive Condition where
  | stx (address : CV) (amount : UInt64) (code : ConditionCode)
  | fungible (address : CV) (amount : UInt64) (code : ConditionCode) (info : AssetInfo)
  | nonFungible (address name : CV) (code : ConditionCode) (info : AssetInfo)

section
variable [Hashes]

/-- condition.rs:175-183 (the same code at 233-241 and 293-301): the bytes pushed for the
principal. `cast_as` picks the concrete type. -/
def principalBytes (address : CV) : Outcome Error Bytes :=
  match address.cast .principalStd with
  | .ok a => do
    let e ← (CV.principalStd a).encode
    let r ← sliceFrom e 1
    pure ([0x02] ++ r)
  | _ => match address.cast .principalCon with
    | .ok (a, n) => do
      let e ← (CV.principalCon a n).encode
      let r ← sliceFrom e 1
      pure ([0x03] ++ r)
    | _ => .err .badDowncast

/-- condition.rs:344-350 `AssetInfo::encode`. -/
def AssetInfo.encode (i : AssetInfo) : Outcome Error Bytes := do
  let a ← (CV.principalStd i.address).encode
  let a ← sliceFrom a 1
  let n ← (CV.lps i.name).encode
  let s ← (CV.lps i.asset).encode
  pure (a ++ n ++ s)

/-- condition.rs:172-188 `STXPostCondition::encode`, 230-247 `FungiblePostCondition::encode`,
290-307 `NonFungiblePostCondition::encode`. -/
def Condition.encode : Condition → Outcome Error Bytes
  | .stx address amount code => do
    let p ← principalBytes address
    pure ([0x00] ++ p ++ [code.toU8] ++ be64 amount)
  | .fungible address amount code info => do
    let p ← principalBytes address
    let i ← info.encode
    pure ([0x01] ++ p ++ i ++ [code.toU8] ++ be64 amount)
  | .nonFungible address name code info => do
    let p ← principalBytes address
    let i ← info.encode
    let n ← name.encode
    pure ([0x02] ++ p ++ i ++ n ++ [code.toU8])

/-- condition.rs:97-99: the encodings of the conditions in order, stopping at the first error. -/
def encodeConditions : List Condition → Outcome Error Bytes
  | [] => .ok []
  | c :: cs => do
    let e ← c.encode
    let r ← encodeConditions cs
    pure (e ++ r)

/-- condition.rs:93-102 `PostConditions::encode`. -/
def postConditionsEncode (cs : List Condition) : Outcome Error Bytes := do
  let n ← Clarity.lenBytes cs.length
  let r ← encodeConditions cs
  pure (n ++ r)

/-- condition.rs:105-110 (and 191-196, 250-255, 310-315, 353-358): the decoders are
`unimplemented!()`. -/
def postConditionsDecode (_ : Bytes) : Outcome Error (List Condition) := .panic

end

end Stacks.Tx

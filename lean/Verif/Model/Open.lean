import Verif.Model.Debug

/-! # Values, post-conditions and payloads of any implementation

`Clarity` (clarity/mod.rs:89-90), `Condition` (condition.rs:53-54) and `Payload` (payload.rs:29-30) are
public traits: a user of the crate may implement them, and `PostConditions` (condition.rs:86-90)
implements `Clarity` too. The types `CV`, `Condition` and `Payload` are the crate's own types; the types
here also hold values of other implementations, shown by what their methods answer (taken to be the same
at every call). The functions are the crate's, modelled a second time over these types. -/

namespace Stacks.Open
open Stacks.Clarity
open Stacks.Tx
open Stacks.C32 (Mode)

/-- clarity/mod.rs:89-90: `Box<dyn Clarity>`.

* `crate v` is a value made of the crate's types only;
* the following seven are the crate's types that hold other boxed values (mod.rs:157-171);
* `foreign` is a value of another implementation: the answer of `encode`, the displayed and the debug
  text, and the value of one of the crate's types that its `as_any` exposes (`none` for one
  that exposes itself, as is usual, or a type unknown to the crate). -/
inductive Obj where
  | crate (v : CV)
  | respOk (o : Obj)
  | respErr (o : Obj)
  | optSome (o : Obj)
  | list (os : List Obj)
  | tuple (es : List (Str × Obj))
  | fnArgs (os : List Obj)
  | foreign (encode : Outcome Error Bytes) (display debug : Str) (asAny : Option CV)

section
variable [Hashes]

mutual
/-- `Codec::encode` of the value in the box: `CV.encode`'s lines of impl.rs for the types that hold other
values (405-409, 443-447, 481-485, 556-565, 688-698, 905-914). -/
def Obj.encode : Obj → Outcome Error Bytes
  | .crate v => v.encode
  | .respOk o => do
    let e ← o.encode
    pure ([idRespOk] ++ e)
  | .respErr o => do
    let e ← o.encode
    pure ([idRespErr] ++ e)
  | .optSome o => do
    let e ← o.encode
    pure ([idSome] ++ e)
  | .list os => do
    let n ← lenBytes os.length
    let body ← Obj.encodeAll os
    pure ([idList] ++ n ++ body)
  | .tuple es => do
    let n ← lenBytes es.length
    let body ← Obj.encodeEntries es
    pure ([idTuple] ++ n ++ body)
  | .fnArgs os => do
    let n ← lenBytes os.length
    let body ← Obj.encodeAll os
    pure (n ++ body)
  | .foreign encode _ _ _ => encode

/-- impl.rs:560-562 and 909-911. -/
def Obj.encodeAll : List Obj → Outcome Error Bytes
  | [] => .ok []
  | o :: os => do
    let e ← o.encode
    let r ← Obj.encodeAll os
    pure (e ++ r)

/-- impl.rs:692-695. -/
def Obj.encodeEntries : List (Str × Obj) → Outcome Error Bytes
  | [] => .ok []
  | (k, o) :: es => do
    let ke ← lpsEncode k
    let ve ← o.encode
    let r ← Obj.encodeEntries es
    pure (ke ++ ve ++ r)
end

end

mutual
/-- `Display::fmt`: impl.rs:424-428, 462-466, 500-504, 590-601, 726-737, 936-947. -/
def Obj.display : Obj → Str
  | .crate v => v.display
  | .respOk o => "(ok ".toList ++ o.display ++ ")".toList
  | .respErr o => "(err ".toList ++ o.display ++ ")".toList
  | .optSome o => "(some ".toList ++ o.display ++ ")".toList
  | .list os => "(list ".toList ++ Obj.displayAll os ++ ")".toList
  | .tuple es => "(tuple ".toList ++ Obj.displayEntries es ++ ")".toList
  | .fnArgs os => "(fn-args ".toList ++ Obj.displayAll os ++ ")".toList
  | .foreign _ display _ _ => display

/-- impl.rs:593-598 and 939-944. -/
def Obj.displayAll : List Obj → Str
  | [] => []
  | o :: os => o.display ++ (if os.isEmpty then [] else ' ' :: Obj.displayAll os)

/-- impl.rs:729-734. -/
def Obj.displayEntries : List (Str × Obj) → Str
  | [] => []
  | (k, o) :: es => '(' :: k ++ ' ' :: o.display ++ ")".toList ++
      (if es.isEmpty then [] else ' ' :: Obj.displayEntries es)
end

mutual
/-- `Debug::fmt`: impl.rs:430-434, 468-472, 506-510 (the displayed form), 603-614, 739-750, 949-960. -/
def Obj.debug : Obj → Str
  | .crate v => v.debug
  | .respOk o => "OkCV(".toList ++ o.debug ++ ")".toList
  | .respErr o => "ErrCV(".toList ++ o.debug ++ ")".toList
  | .optSome o => "SomeCV(".toList ++ o.display ++ ")".toList
  | .list os => "ListCV(".toList ++ Obj.debugAll os ++ ")".toList
  | .tuple es => "TupleCV(".toList ++ Obj.debugEntries es ++ ")".toList
  | .fnArgs os => "FnArguments(".toList ++ Obj.debugAll os ++ ")".toList
  | .foreign _ _ debug _ => debug

/-- impl.rs:606-611 and 952-957. -/
def Obj.debugAll : List Obj → Str
  | [] => []
  | o :: os => o.debug ++ (if os.isEmpty then [] else ", ".toList ++ Obj.debugAll os)

/-- impl.rs:742-747. -/
def Obj.debugEntries : List (Str × Obj) → Str
  | [] => []
  | (k, o) :: es => k ++ ": ".toList ++ o.debug ++ (if es.isEmpty then [] else ", ".toList ++ Obj.debugEntries es)
end

/-- macro.rs:70-74 `PartialEq::eq` (for two values of the same concrete type of the crate). -/
def Obj.eq (a b : Obj) : Bool := a.display == b.display

/-- macro.rs:104-110 `Cast::cast_as::<T>` for `Box<dyn Clarity>`, where `T` is a type of the crate that
holds no boxed value (`k`): `as_any().downcast_ref::<T>()`. -/
def Obj.castAs (k : Kind) : Obj → Outcome Error k.Val
  | .crate v => v.cast k
  | .foreign _ _ _ (some v) => v.cast k
  | _ => .err .badDowncast

/-! ## Post-conditions -/

/-- condition.rs:53-54: `Box<dyn Condition>`; `foreign` is one of another implementation. -/
inductive OCond where
  | stx (address : Obj) (amount : UInt64) (code : ConditionCode)
  | fungible (address : Obj) (amount : UInt64) (code : ConditionCode) (info : AssetInfo)
  | nonFungible (address name : Obj) (code : ConditionCode) (info : AssetInfo)
  | foreign (encode : Outcome Error Bytes) (debug : Str)

section
variable [Hashes]

/-- condition.rs:175-183, 233-241, 293-301. -/
def oprincipalBytes (address : Obj) : Outcome Error Bytes :=
  match address.castAs .principalStd with
  | .ok a => do
    let e ← (CV.principalStd a).encode
    let r ← sliceFrom e 1
    pure ([0x02] ++ r)
  | _ => match address.castAs .principalCon with
    | .ok (a, n) => do
      let e ← (CV.principalCon a n).encode
      let r ← sliceFrom e 1
      pure ([0x03] ++ r)
    | _ => .err .badDowncast

/-- condition.rs:172-188, 230-247, 290-307. -/
def OCond.encode : OCond → Outcome Error Bytes
  | .stx address amount code => do
    let p ← oprincipalBytes address
    pure ([0x00] ++ p ++ [code.toU8] ++ be64 amount)
  | .fungible address amount code info => do
    let p ← oprincipalBytes address
    let i ← info.encode
    pure ([0x01] ++ p ++ i ++ [code.toU8] ++ be64 amount)
  | .nonFungible address name code info => do
    let p ← oprincipalBytes address
    let i ← info.encode
    let n ← name.encode
    pure ([0x02] ++ p ++ i ++ n ++ [code.toU8])
  | .foreign encode _ => encode

/-- condition.rs:97-99. -/
def oencodeConditions : List OCond → Outcome Error Bytes
  | [] => .ok []
  | c :: cs => do
    let e ← c.encode
    let r ← oencodeConditions cs
    pure (e ++ r)

/-- condition.rs:93-102 `PostConditions::encode`. -/
def opostConditionsEncode (cs : List OCond) : Outcome Error Bytes := do
  let n ← Clarity.lenBytes cs.length
  let r ← oencodeConditions cs
  pure (n ++ r)

end

/-- condition.rs:147, 202 and 261 `#[derive(Debug)]`. -/
def OCond.debug : OCond → Str
  | .stx address amount code =>
    "STXPostCondition { address: ".toList ++ address.debug ++ ", amount: ".toList ++ Nat.toDigits 10 amount.toNat ++
      ", code: ".toList ++ code.debug ++ " }".toList
  | .fungible address amount code info =>
    "FungiblePostCondition { address: ".toList ++ address.debug ++ ", amount: ".toList ++
      Nat.toDigits 10 amount.toNat ++ ", code: ".toList ++ code.debug ++ ", info: ".toList ++ info.debug ++ " }".toList
  | .nonFungible address name code info =>
    "NonFungiblePostCondition { address: ".toList ++ address.debug ++ ", name: ".toList ++ name.debug ++
      ", code: ".toList ++ code.debug ++ ", info: ".toList ++ info.debug ++ " }".toList
  | .foreign _ debug => debug

/-- The elements of a `Vec` in `{:?}`. -/
def oconditionsDebugAll : List OCond → Str
  | [] => []
  | c :: cs => c.debug ++ (if cs.isEmpty then [] else ", ".toList ++ oconditionsDebugAll cs)

/-- condition.rs:119-129 `Display` and `Debug` of `PostConditions`. -/
def opostConditionsDisplay (cs : List OCond) : Str := "[".toList ++ oconditionsDebugAll cs ++ "]".toList

/-- condition.rs:86-129: a `PostConditions` as a `Box<dyn Clarity>`. Its `as_any` exposes itself, which is
none of the types `Kind` lists. -/
def Obj.postConditions [Hashes] (cs : List OCond) : Obj :=
  .foreign (opostConditionsEncode cs) (opostConditionsDisplay cs) (opostConditionsDisplay cs) none

/-! ## Payloads -/

/-- payload.rs:29-30: `Box<dyn Payload>`; `foreign` is one of another implementation. -/
inductive OPayload where
  | tokenTransfer (address : Obj) (amount : UInt64) (memo : Str)
  | contractCall (address : C32.Address) (contract name : Str) (args : List Obj)
  | foreign (encode : Outcome Error Bytes)

section
variable [Hashes]

/-- payload.rs:33-35, 82-99 and 164-172. -/
def OPayload.encode : OPayload → Outcome Error Bytes
  | .tokenTransfer address amount memo =>
    if memo.len > 34 then .err (.badStringLength memo.len 34)
    else do
      let memoBytes ← writeBytes (List.replicate 34 (0 : UInt8)) 0 memo.bytes
      let addr ← address.encode
      pure ([payloadTokenTransfer] ++ addr ++ be64 amount ++ memoBytes)
  | .contractCall address contract name args => do
    let contract ← (CV.lps contract).encode
    let name ← (CV.lps name).encode
    let args ← (Obj.fnArgs args).encode
    pure ([payloadContractCall] ++ [address.version] ++ address.hash.1 ++ contract ++ name ++ args)
  | .foreign encode => encode

end

/-! ## Transactions -/

section
variable [Secp]

/-- base.rs:41-58 `struct Transaction`. -/
structure OTransaction where
  version : TransactionVersion
  chainId : ChainID
  auth : Auth
  anchorMode : AnchorMode
  postConditionMode : PostConditionMode
  postConditions : List OCond
  payload : OPayload

/-- base.rs:98-100. -/
def OTransaction.setFee (t : OTransaction) (fee : UInt64) : OTransaction := { t with auth := t.auth.setFee fee }

/-- base.rs:103-105. -/
def OTransaction.setNonce (t : OTransaction) (nonce : UInt64) : OTransaction :=
  { t with auth := t.auth.setNonce nonce }

variable [Hashes]

/-- base.rs:171-183 `Transaction::encode`. -/
def OTransaction.encode (t : OTransaction) : Outcome Clarity.Error Bytes := do
  let auth ← t.auth.encode
  let conditions ← opostConditionsEncode t.postConditions
  let payload ← t.payload.encode
  pure ([t.version.toU8] ++ beBytes 4 t.chainId.toU32.toNat ++ auth ++ [t.anchorMode.toU8] ++
    [t.postConditionMode.toU8] ++ conditions ++ payload)

/-- base.rs:92-95 `Transaction::hash`. -/
def OTransaction.hash (t : OTransaction) : Outcome TxError (Arr 32) := do
  let bytes ← t.encode.mapErr Error.clarity
  pure (signatureHash bytes)

/-- base.rs:113-117 `Transaction::initial_hash`. -/
def OTransaction.initialHash (t : OTransaction) : Outcome TxError (Arr 32) :=
  OTransaction.hash { t with auth := t.auth.reset }

/-- base.rs:108-110 `Transaction::verify_origin`. -/
def OTransaction.verifyOrigin (t : OTransaction) : Outcome TxError (Arr 32) := do
  let h ← t.initialHash
  t.auth.verifyOrigin h

/-- base.rs:120-126 `Transaction::sign_next_origin`. -/
def OTransaction.signNextOrigin (t : OTransaction) (hash : Arr 32) (key : Secp.SK) :
    Outcome TxError (OTransaction × Arr 32) := do
  let (c, next) ← signAndAppend t.auth.origin hash authTypeStandard key
  pure ({ t with auth := t.auth.setOrigin c }, next)

/-- base.rs:129-135 `Transaction::sign_next_sponsor`. -/
def OTransaction.signNextSponsor (t : OTransaction) (hash : Arr 32) (key : Secp.SK) :
    Outcome TxError (OTransaction × Arr 32) := do
  let s ← t.auth.sponsor
  let (c, next) ← signAndAppend s hash authTypeSponsored key
  let a ← t.auth.setSponsor c
  pure ({ t with auth := a }, next)

omit [Hashes] in
/-- base.rs:138-145 `Transaction::append_next_origin`. -/
def OTransaction.appendNextOrigin (t : OTransaction) (key : Secp.PK) : Outcome TxError OTransaction :=
  match t.auth.origin.mode with
  | .p2sh | .p2wsh => do
    let c ← t.auth.origin.modify (.addPublicKey key)
    pure { t with auth := t.auth.setOrigin c }
  | .p2pkh | .p2wpkh => .err .badSpendingConditionModification

/-- signer.rs:18-30 `struct TransactionSigner`. -/
structure OSigner where
  tx : OTransaction
  hash : Arr 32
  originSigned : Bool
  verifyOversign : Bool
  verifyOverlap : Bool

/-- signer.rs:34-44. -/
def OSigner.new (tx : OTransaction) : Outcome TxError OSigner := do
  let hash ← tx.initialHash
  pure ⟨tx, hash, false, true, true⟩

/-- signer.rs:47-66. -/
def OSigner.newSponsor (tx : OTransaction) (sponsor : Spending) : Outcome TxError OSigner :=
  if !tx.auth.isSponsored then .err .badSpendingConditionModification
  else do
    let auth ← tx.auth.setSponsor sponsor
    let tx := { tx with auth := auth }
    let hash ← tx.verifyOrigin
    let signer ← OSigner.new tx
    pure { signer with hash := hash, originSigned := true, verifyOversign := true, verifyOverlap := true }

/-- signer.rs:69-82. -/
def OSigner.signOrigin (s : OSigner) (key : Secp.SK) : Outcome TxError OSigner :=
  if s.verifyOverlap && s.originSigned then .err .originPostSponsorSign
  else do
    let origin := s.tx.auth.origin
    let over ← (if s.verifyOversign then do
        let n ← origin.signatures
        pure (decide (origin.reqSignatures ≤ n))
      else pure false : Outcome TxError Bool)
    if over then .err .originOversign
    else do
      let (tx, next) ← s.tx.signNextOrigin s.hash key
      pure { s with tx := tx, hash := next }

/-- signer.rs:85-96. -/
def OSigner.signSponsor (s : OSigner) (key : Secp.SK) : Outcome TxError OSigner := do
  let sponsor ← s.tx.auth.sponsor
  let over ← (if s.verifyOversign then do
      let n ← sponsor.signatures
      pure (decide (sponsor.reqSignatures ≤ n))
    else pure false : Outcome TxError Bool)
  if over then .err .sponsorOversign
  else do
    let (tx, next) ← s.tx.signNextSponsor s.hash key
    pure { s with tx := tx, hash := next, originSigned := true }

omit [Hashes] in
/-- signer.rs:99-105. -/
def OSigner.appendOrigin (s : OSigner) (key : Secp.PK) : Outcome TxError OSigner :=
  if s.verifyOverlap && s.originSigned then .err .originPostSponsorAppend
  else do
    let tx ← s.tx.appendNextOrigin key
    pure { s with tx := tx }

/-- base.rs:85-89 `Transaction::sign`. -/
def OTransaction.sign (t : OTransaction) (key : Secp.SK) : Outcome TxError OTransaction := do
  let signer ← OSigner.new t
  let signer ← signer.signOrigin key
  pure signer.tx

end

end Stacks.Open

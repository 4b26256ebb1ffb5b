import Verif.Spec.Condition
import Verif.Spec.Secp
import Verif.Model.Transaction

/-! # Specification of transactions (SIP-005): the bytes, a reader, and what is signed -/

namespace Stacks.Spec
open Stacks.Tx
open Stacks.Clarity (CV)
open Stacks.C32 (Mode)

/-! ## Numbers -/

def modeNumber : Mode → UInt8
  | .p2pkh => 0
  | .p2sh => 1
  | .p2wpkh => 2
  | .p2wsh => 3

def versionNumber : TransactionVersion → UInt8
  | .mainnet => 0
  | .testnet => 128

def chainNumber : ChainID → Nat
  | .mainnet => 1
  | .testnet => 2147483648

def anchorNumber : AnchorMode → UInt8
  | .strict => 1
  | .micro => 2
  | .any => 3

def postModeNumber : PostConditionMode → UInt8
  | .allow => 1
  | .deny => 2

section
variable [Secp]

/-! ## Layout of spending conditions and authorizations -/

/-- A public key (type 0, 33 bytes) or a signature (type 2, 65 bytes). -/
def fieldBytes : AuthField → Bytes
  | .pk k => 0x00 :: (Secp.serialize k).1
  | .msg s => 0x02 :: s.1

/-- Single signature: mode, signer, nonce, fee, key encoding 0, signature. Several signatures:
mode, signer, nonce, fee, 4-byte number of fields, fields, 2-byte number of required signatures. -/
def spendingBytes : Spending → Bytes
  | .single c =>
    [modeNumber c.mode] ++ c.signer.1 ++ beBytes 8 c.nonce.toNat ++ beBytes 8 c.fee.toNat ++ [0x00] ++ c.signature.1
  | .multi c =>
    [modeNumber c.mode] ++ c.signer.1 ++ beBytes 8 c.nonce.toNat ++ beBytes 8 c.fee.toNat ++
      beBytes 4 c.fields.length ++ (c.fields.map fieldBytes).flatten ++ beBytes 2 c.required.toNat

/-- Type 4 and the origin, or type 5, origin and sponsor. -/
def authBytes : Auth → Bytes
  | .standard o => 0x04 :: spendingBytes o
  | .sponsored o s => 0x05 :: (spendingBytes o ++ spendingBytes s)

/-- The fields of a condition. -/
def fieldsOf : Spending → List AuthField
  | .single _ => []
  | .multi c => c.fields

/-- The fields of an authorization. -/
def authFields : Auth → List AuthField
  | .standard o => fieldsOf o
  | .sponsored o s => fieldsOf o ++ fieldsOf s

/-- Modes fit the kind of condition (as the constructors ensure), and the number of fields fits
in 4 bytes. -/
def WellFormedSpending : Spending → Prop
  | .single c => c.mode = .p2pkh ∨ c.mode = .p2wpkh
  | .multi c => (c.mode = .p2sh ∨ c.mode = .p2wsh) ∧ c.fields.length < 2 ^ 32

/-- Both parts. -/
def WellFormedAuth : Auth → Prop
  | .standard o => WellFormedSpending o
  | .sponsored o s => WellFormedSpending o ∧ WellFormedSpending s

/-- The mode fits the kind of condition, as `SpendingConditionStandard::new` and
`SpendingConditionMultiSig::new` ensure. -/
def ModeFits : Spending → Prop
  | .single c => c.mode = .p2pkh ∨ c.mode = .p2wpkh
  | .multi c => c.mode = .p2sh ∨ c.mode = .p2wsh

/-- The number of fields fits in 4 bytes. -/
def SmallSpending : Spending → Prop
  | .single _ => True
  | .multi c => c.fields.length < 2 ^ 32

/-- Both parts. -/
def SmallAuth : Auth → Prop
  | .standard o => SmallSpending o
  | .sponsored o s => SmallSpending o ∧ SmallSpending s

/-! ## What is signed

The transaction with fee, nonce and signatures of the origin cleared and the sponsor replaced by
a single-signature condition of zeros. -/

/-- 65 zero bytes. -/
def noSignature : Arr 65 := ⟨List.replicate 65 0, by simp⟩

/-- The condition without fee, nonce and signatures. -/
def clearedSpending : Spending → Spending
  | .single c => .single ⟨c.mode, 0, 0, c.signer, noSignature⟩
  | .multi c => .multi ⟨c.mode, 0, 0, c.signer, [], c.required⟩

/-- The sponsor before there is one. -/
def noSponsor : Spending := .single ⟨.p2pkh, 0, 0, ⟨List.replicate 20 0, by simp⟩, noSignature⟩

/-- The authorization without fee, nonce, signatures and sponsor. -/
def clearedAuth : Auth → Auth
  | .standard o => .standard (clearedSpending o)
  | .sponsored o _ => .sponsored (clearedSpending o) noSponsor

/-- What a transaction says apart from fee, nonce, signatures and sponsor. -/
structure SignedContent where
  version : TransactionVersion
  chainId : ChainID
  sponsored : Bool
  mode : Mode
  signer : Arr 20
  /-- For multi-sig origins: how many signatures are required. -/
  required : Option UInt8
  anchorMode : AnchorMode
  postConditionMode : PostConditionMode
  postConditions : List Condition
  payload : Payload

/-- The signer hash of a condition. -/
def signerOf : Spending → Arr 20
  | .single c => c.signer
  | .multi c => c.signer

/-- The number of required signatures of a multi-sig condition. -/
def requiredOf : Spending → Option UInt8
  | .single _ => none
  | .multi c => some c.required

/-- The content of a transaction, with the memo padded. -/
def signedContent (t : Transaction) : SignedContent :=
  ⟨t.version, t.chainId, t.auth.isSponsored, t.auth.origin.mode, signerOf t.auth.origin,
    requiredOf t.auth.origin, t.anchorMode, t.postConditionMode, t.postConditions, readBack t.payload⟩

variable [Hashes]

/-! ## Operations that may happen to a transaction while it is being signed -/

/-- One call of the API that changes a transaction. -/
inductive Step : Transaction → Transaction → Prop where
  | setFee (t : Transaction) (fee : UInt64) : Step t (t.setFee fee)
  | setNonce (t : Transaction) (nonce : UInt64) : Step t (t.setNonce nonce)
  | sign (t t' : Transaction) (k : Secp.SK) : t.sign k = .ok t' → Step t t'
  | signOrigin (s s' : Signer) (k : Secp.SK) : s.signOrigin k = .ok s' → Step s.tx s'.tx
  | signSponsor (s s' : Signer) (k : Secp.SK) : s.signSponsor k = .ok s' → Step s.tx s'.tx
  | appendOrigin (s s' : Signer) (k : Secp.PK) : s.appendOrigin k = .ok s' → Step s.tx s'.tx
  | newSponsor (t : Transaction) (c : Spending) (s : Signer) : Signer.newSponsor t c = .ok s → Step t s.tx
  | setSponsor (t : Transaction) (c : Spending) (a : Auth) : t.auth.setSponsor c = .ok a → Step t { t with auth := a }
  | modifyOrigin (t : Transaction) (m : Modification) (c : Spending) :
      t.auth.origin.modify m = .ok c → Step t { t with auth := t.auth.setOrigin c }

/-! ## Setters -/

/-- The single signature of a condition, if it is of that kind. -/
def signatureOf : Spending → Option (Arr 65)
  | .single c => some c.signature
  | .multi _ => none

/-- Everything but the origin's fee and nonce is equal. -/
def OtherwiseEqual (t t' : Transaction) : Prop :=
  t.version = t'.version ∧ t.chainId = t'.chainId ∧ t.anchorMode = t'.anchorMode ∧
  t.postConditionMode = t'.postConditionMode ∧ t.postConditions = t'.postConditions ∧ t.payload = t'.payload ∧
  t.auth.sponsor = t'.auth.sponsor ∧ t.auth.origin.mode = t'.auth.origin.mode ∧
  signerOf t.auth.origin = signerOf t'.auth.origin ∧ requiredOf t.auth.origin = requiredOf t'.auth.origin ∧
  signatureOf t.auth.origin = signatureOf t'.auth.origin ∧ fieldsOf t.auth.origin = fieldsOf t'.auth.origin

/-- A call of `set_fee` or `set_nonce`. -/
inductive Setter where
  | fee (x : UInt64)
  | nonce (x : UInt64)

omit [Hashes] in
/-- The transaction after a sequence of calls. -/
def runSetters (t : Transaction) : List Setter → Transaction
  | [] => t
  | .fee x :: ss => runSetters (t.setFee x) ss
  | .nonce x :: ss => runSetters (t.setNonce x) ss

/-- The last value written by `set_fee`, if any. -/
def lastFee (start : UInt64) : List Setter → UInt64
  | [] => start
  | .fee x :: ss => lastFee x ss
  | .nonce _ :: ss => lastFee start ss

/-- The last value written by `set_nonce`, if any. -/
def lastNonce (start : UInt64) : List Setter → UInt64
  | [] => start
  | .fee _ :: ss => lastNonce start ss
  | .nonce x :: ss => lastNonce x ss

/-! ## Layout of transactions -/

/-- Version, chain id, authorization, anchor mode, post-condition mode, post-conditions, payload. -/
def transactionBytes (t : Transaction) : Bytes :=
  [versionNumber t.version] ++ beBytes 4 (chainNumber t.chainId) ++ authBytes t.auth ++
    [anchorNumber t.anchorMode, postModeNumber t.postConditionMode] ++ conditionsBytes t.postConditions ++
    payloadBytes t.payload

/-- The bytes hashed for the first signature. -/
def signingPreimage (t : Transaction) : Bytes := transactionBytes { t with auth := clearedAuth t.auth }

/-- All parts are well-formed. -/
def WellFormedTransaction (t : Transaction) : Prop :=
  WellFormedAuth t.auth ∧ t.postConditions.length < 2 ^ 32 ∧ (∀ c ∈ t.postConditions, WellFormedCondition c) ∧
    WellFormedPayload t.payload

/-- The post-conditions and the payload have an encoding. -/
def EncodableBody (t : Transaction) : Prop :=
  t.postConditions.length < 2 ^ 32 ∧ (∀ c ∈ t.postConditions, EncodableCondition c) ∧ EncodablePayload t.payload

/-! ## A reader -/

/-- `n` bytes as an array. -/
def readArr (n : Nat) : Reader (Arr n) := fun bs =>
  if h : n ≤ bs.length then some (⟨bs.take n, by simp [h]⟩, bs.drop n) else none

/-- An enumeration, by the numbers of its values. -/
def readEnum {α : Type} (table : List (UInt8 × α)) : Reader α := do
  let b ← readByte
  match table.lookup b with
  | some a => pure a
  | none => failure

omit [Hashes] in
/-- A field; `parse` reads a serialized public key. -/
def readField (parse : Arr 33 → Option Secp.PK) : Reader AuthField := do
  let t ← readByte
  if t = 0 then do
    let bs ← readArr 33
    match parse bs with
    | some k => pure (.pk k)
    | none => failure
  else if t = 2 then do
    let s ← readArr 65
    pure (.msg s)
  else failure

omit [Hashes] in
/-- A spending condition: the mode tells its kind. -/
def readSpending (parse : Arr 33 → Option Secp.PK) : Reader Spending := do
  let mode ← readEnum [(0, Mode.p2pkh), (1, .p2sh), (2, .p2wpkh), (3, .p2wsh)]
  let signer ← readArr 20
  let nonce ← readNat 8
  let fee ← readNat 8
  if mode = .p2pkh ∨ mode = .p2wpkh then do
    let enc ← readByte
    let signature ← readArr 65
    if enc = 0 then pure (.single ⟨mode, UInt64.ofNat fee, UInt64.ofNat nonce, signer, signature⟩)
    else failure
  else do
    let n ← readNat 4
    let fields ← readMany (readField parse) n
    let required ← readNat 2
    if required < 256 then
      pure (.multi ⟨mode, UInt64.ofNat fee, UInt64.ofNat nonce, signer, fields, UInt8.ofNat required⟩)
    else failure

omit [Hashes] in
/-- An authorization. -/
def readAuth (parse : Arr 33 → Option Secp.PK) : Reader Auth := do
  let t ← readByte
  let o ← readSpending parse
  if t = 4 then pure (.standard o)
  else if t = 5 then do
    let s ← readSpending parse
    pure (.sponsored o s)
  else failure

omit [Secp] in
/-- A payload. -/
def readPayload : Reader Payload := do
  let t ← readByte
  if t = 0 then do
    let recipient ← readValue
    let amount ← readNat 8
    let memo ← readBytes 34
    match fromUtf8 memo with
    | some memo => pure (.tokenTransfer ⟨recipient, UInt64.ofNat amount, memo⟩)
    | none => failure
  else if t = 2 then do
    let version ← readByte
    let hash ← readArr 20
    let contract ← readName
    let name ← readName
    let n ← readNat 4
    let args ← readMany readValue n
    pure (.contractCall ⟨⟨hash, version⟩, contract, name, args⟩)
  else failure

/-- A transaction. -/
def readTransaction (parse : Arr 33 → Option Secp.PK) : Reader Transaction := do
  let version ← readEnum [(0, TransactionVersion.mainnet), (128, .testnet)]
  let chain ← readNat 4
  let auth ← readAuth parse
  let anchor ← readEnum [(1, AnchorMode.strict), (2, .micro), (3, .any)]
  let mode ← readEnum [(1, PostConditionMode.allow), (2, .deny)]
  let conditions ← readConditions
  let payload ← readPayload
  if chain = 1 then pure ⟨version, .mainnet, auth, anchor, mode, conditions, payload⟩
  else if chain = 2147483648 then pure ⟨version, .testnet, auth, anchor, mode, conditions, payload⟩
  else failure

end

end Stacks.Spec

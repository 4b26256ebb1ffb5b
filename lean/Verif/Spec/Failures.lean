import Verif.Spec.Panics
import Verif.Spec.TransactionErrors
import Verif.Spec.Rpc
import Verif.Spec.Hex
import Verif.Spec.Wallet

/-! # The errors that calls report

`FailsWith` says which of the calls listed in Model/Api.lean return an error, and which error. -/

namespace Stacks.Spec
open Stacks.Clarity (CV Kind)
open Stacks.Tx

/-! ## Strings -/

/-- The first character that is not a Base58 digit, if the table has an entry for it. -/
inductive B58Fails : Str → B58.Error → Prop
  | badChar {l c r} : (∀ x ∈ l, x ∈ b58Alphabet) → c ∉ b58Alphabet → c.toNat < 0x100 →
      B58Fails (l ++ c :: r) (.badChar c)

/-! ## Replies -/

section
variable [Rpc.Http]

/-- A question that is answered with JSON: no reply, a status of an error, or a body that is not what was asked
for. -/
inductive AnswerFails {α : Type} (P : Rpc.J → α → Prop) : Rpc.Reply → Rpc.Error → Prop
  | transport {e} : AnswerFails P (.transport e) (.ureq (.transport e))
  | status {code body} : 400 ≤ code → AnswerFails P (.response code body) (.ureq (.status code body))
  | body {code body x} : code < 400 → Unreadable P body x → AnswerFails P (.response code body) (.io x)

/-- The answer to a question for a fee: text with a status of an error, otherwise JSON. -/
inductive FeeAnswerFails : Rpc.Reply → Rpc.Error → Prop
  | transport {e} : FeeAnswerFails (.transport e) (.ureq (.transport e))
  | text {code body x} : 400 ≤ code → Rpc.Http.intoString body = .error x →
      FeeAnswerFails (.response code body) (.io x)
  | body {code body x} : code < 400 → Unreadable IsFeeOk body x → FeeAnswerFails (.response code body) (.io x)

/-- The answer to a broadcast: JSON with a status of an error, otherwise text. -/
inductive BroadcastAnswerFails : Rpc.Reply → Rpc.Error → Prop
  | transport {e} : BroadcastAnswerFails (.transport e) (.ureq (.transport e))
  | text {code body x} : code < 400 → Rpc.Http.intoString body = .error x →
      BroadcastAnswerFails (.response code body) (.io x)
  | body {code body x} : 400 ≤ code → Unreadable IsBroadcastErr body x →
      BroadcastAnswerFails (.response code body) (.io x)

end

/-! ## The calls -/

section
variable [Secp] [Hashes] [Bip] [Rpc.Http]

/-- The conditions that a modification fits. -/
def SuitsCondition : Spending → Modification → Prop
  | .single _, .setSignature _ => True
  | .multi _, .addSignature _ | .multi _, .addPublicKey _ => True
  | _, _ => False

/-- The signature, as an object of the library: its recovery id, then its bytes. -/
inductive IntoRecovFails (sig : Arr 65) : Secp.Err → Prop
  | id {b rest} : sig.1 = b :: rest → 4 ≤ b.toNat → IntoRecovFails sig Secp.invalidRecId
  | bytes {id : Fin 4} {rest e} : sig.1 = UInt8.ofNat id :: rest → Secp.fromCompact rest id = .error e →
      IntoRecovFails sig e

/-- The calls that return an error, and the error. -/
inductive FailsWith : Api → ApiError → Prop
  /-- Hexadecimal text of odd length (in bytes); text that is not hexadecimal. -/
  | hexLength {s} : (String.ofList s).utf8ByteSize % 2 = 1 →
      FailsWith (.hexToBytes s) (.hex (.unpaddedHex s (String.ofList s).utf8ByteSize))
  | hexChar {s} : (String.ofList s).utf8ByteSize % 2 = 0 → hexBytes? s = none →
      FailsWith (.hexToBytes s) (.hex .badChar)
  /-- C32 and Base58 text. -/
  | c32Text {s e} : C32Fails s e → FailsWith (.c32Decode s) (.c32 e)
  | c32Check {s e} : C32CheckFails s e → FailsWith (.c32checkDecode s) (.c32 e)
  | addressVersion {b v} : ¬ KnownVersion v → FailsWith (.c32Address b v) (.c32 (.unknownAddressVersion v))
  | addressText {s e} : AddressFails s e → FailsWith (.c32AddressDecode s) (.c32 e)
  | address {s e} : AddressFails s e → FailsWith (.addressFromStr s) (.c32 e)
  | b58Text {s e} : B58Fails s e → FailsWith (.b58Decode s) (.b58 e)
  | b58CheckText {s e} : B58Fails s e → FailsWith (.base58checkDecode s) (.b58 e)
  | b58Checksum {s v data given} : SpellsB58 s (v :: (data ++ given)) → given.length = 4 →
      given ≠ checksum4 (v :: data) → FailsWith (.base58checkDecode s)
        (.b58 (.badChecksum (B58.debugBytes given) (B58.debugBytes (Hashes.sha256 (Hashes.sha256 (v :: data)).1).1)))
  /-- Signatures. -/
  | signatureLength {b} : b.length ≠ 65 → FailsWith (.signatureFromSlice b) (.hash (.invalidMessageSigLength b.length))
  | intoRecov {s e} : IntoRecovFails s e → FailsWith (.signatureIntoRecov s) (.hash (.secp256k1 e))
  | nextVerify {h typ fee nonce s e} : RecoverFails (presignDigest h typ fee nonce) s e →
      FailsWith (.nextVerify h typ fee nonce s) (.hash (.secp256k1 e))
  /-- Values: what they contain cannot be written; they are of another type. -/
  | encode {v e} : EncodeFails v e → FailsWith (.encode v) (.clarity e)
  | len {v e} : EncodeFails v e → FailsWith (.len v) (.clarity e)
  | hex {v e} : EncodeFails v e → FailsWith (.hex v) (.clarity e)
  | hexPrefixed {v e} : EncodeFails v e → FailsWith (.hexPrefixed v) (.clarity e)
  | cast {k v} : v.kind ≠ k → FailsWith (.cast k v) (.clarity .badDowncast)
  /-- Bytes of a value. -/
  | decode {b e} : DecodeFails b e → FailsWith (.decode b) (.clarity e)
  | typed {k t r e} : identifierOf k = some t → DecodeFails (t :: r) e →
      FailsWith (.decodeAs k (t :: r)) (.clarity e)
  | otherType {k i t r} : identifierOf k = some i → t ≠ i → k ≠ .strUtf8 →
      FailsWith (.decodeAs k (t :: r)) (.clarity (.badIdentifier i t))
  | anyType {t r e} : DecodeFails (0x0e :: r) e → FailsWith (.decodeAs .strUtf8 (t :: r)) (.clarity e)
  | name {n r} : n.length < 256 → NotUtf8 n →
      FailsWith (.decodeAs .lps ([UInt8.ofNat n.length] ++ n ++ r)) (.clarity .tryFromUtf8)
  | arguments {b e} : ArgumentsFail b e → FailsWith (.decodeAs .fnArgs b) (.clarity e)
  /-- Parts of a transaction. -/
  | asset {a e} : AssetFails a e → FailsWith (.encodeAsset a) (.clarity e)
  | condition {c e} : ConditionFails c e → FailsWith (.encodeCondition c) (.clarity e)
  | conditions {cs e} : ConditionsFail cs e → FailsWith (.encodeConditions cs) (.clarity e)
  | payload {p e} : PayloadFails p e → FailsWith (.encodePayload p) (.clarity e)
  | spending {c} : ¬ SmallSpending c → FailsWith (.encodeSpending c) (.clarity .tryFromInt)
  | auth {a} : ¬ SmallAuth a → FailsWith (.encodeAuth a) (.clarity .tryFromInt)
  | transaction {t e} : TransactionFails t e → FailsWith (.encodeTransaction t) (.clarity e)
  | transferType {t r} : t ≠ 0x00 → FailsWith (.decodeTransfer (t :: r)) (.clarity (.unexpectedType t))
  | transferBytes {r e} : PayloadDecodeFails (0x00 :: r) e → FailsWith (.decodeTransfer (0x00 :: r)) (.clarity e)
  | callType {t r} : t ≠ 0x02 → FailsWith (.decodeCall (t :: r)) (.clarity (.unexpectedType t))
  | callBytes {r e} : PayloadDecodeFails (0x02 :: r) e → FailsWith (.decodeCall (0x02 :: r)) (.clarity e)
  | payloadBytes {b e} : PayloadDecodeFails b e → FailsWith (.decodePayload b) (.clarity e)
  /-- Modifications of the other kind of condition, and of a sponsor that is not there. -/
  | modify {c m} : ¬ SuitsCondition c m → FailsWith (.modify c m) (.transaction .badSpendingConditionModification)
  | sponsor {o} : FailsWith (.sponsor (.standard o)) (.transaction .badSpendingConditionModification)
  | setSponsor {o c} : FailsWith (.setSponsor (.standard o) c) (.transaction .badSpendingConditionModification)
  /-- Verification: see the verdicts. -/
  | verifySpending {c h typ e} : SpendingVerdict h typ c (.err e) → FailsWith (.verifySpending c h typ) (.transaction e)
  | verifyAuth {a h e} : AuthVerdict h a (.err e) → FailsWith (.verifyAuth a h) (.transaction e)
  | verifyAuthOrigin {a h e} : SpendingVerdict h 4 (originOf a) (.err e) →
      FailsWith (.verifyAuthOrigin a h) (.transaction e)
  | verifyBody {t e} : BodyFails t e → FailsWith (.verifyOrigin t) (.transaction (.clarity e))
  | verifyOrigin {t e} : EncodableBody t →
      SpendingVerdict (Hashes.sha512_256 (signingPreimage t)) 4 (originOf t.auth) (.err e) →
      FailsWith (.verifyOrigin t) (.transaction e)
  /-- Hashes. -/
  | hash {t e} : TransactionFails t e → FailsWith (.hash t) (.transaction (.clarity e))
  | initialHash {t e} : BodyFails t e → FailsWith (.initialHash t) (.transaction (.clarity e))
  /-- Signing: what is signed, then the number of signatures, then the mode of the condition. -/
  | signBody {t k e} : BodyFails t e → FailsWith (.sign t k) (.transaction (.clarity e))
  | signOversign {t k} : EncodableBody t → signatureCount (originOf t.auth) < 65536 →
      requiredCount (originOf t.auth) ≤ signatureCount (originOf t.auth) →
      FailsWith (.sign t k) (.transaction .originOversign)
  | signMode {t k} : EncodableBody t → signatureCount (originOf t.auth) < requiredCount (originOf t.auth) →
      ¬ ModeFits (originOf t.auth) → FailsWith (.sign t k) (.transaction .badSpendingConditionModification)
  | newSigner {t e} : BodyFails t e → FailsWith (.newSigner t) (.transaction (.clarity e))
  | newSponsorStandard {t c o} : t.auth = .standard o →
      FailsWith (.newSponsor t c) (.transaction .badSpendingConditionModification)
  | newSponsorBody {t c o p e} : t.auth = .sponsored o p → BodyFails t e →
      FailsWith (.newSponsor t c) (.transaction (.clarity e))
  | newSponsorOrigin {t c o p e} : t.auth = .sponsored o p → EncodableBody t →
      SpendingVerdict (Hashes.sha512_256 (signingPreimage t)) 4 o (.err e) →
      FailsWith (.newSponsor t c) (.transaction e)
  | signOriginOverlap {s k} : s.verifyOverlap = true → s.originSigned = true →
      FailsWith (.signOrigin s k) (.transaction .originPostSponsorSign)
  | signOriginOversign {s k} : ¬ (s.verifyOverlap = true ∧ s.originSigned = true) → s.verifyOversign = true →
      signatureCount (originOf s.tx.auth) < 65536 →
      requiredCount (originOf s.tx.auth) ≤ signatureCount (originOf s.tx.auth) →
      FailsWith (.signOrigin s k) (.transaction .originOversign)
  | signOriginMode {s k} : ¬ (s.verifyOverlap = true ∧ s.originSigned = true) →
      (s.verifyOversign = true → signatureCount (originOf s.tx.auth) < requiredCount (originOf s.tx.auth)) →
      ¬ ModeFits (originOf s.tx.auth) → FailsWith (.signOrigin s k) (.transaction .badSpendingConditionModification)
  | signSponsorStandard {s k o} : s.tx.auth = .standard o →
      FailsWith (.signSponsor s k) (.transaction .badSpendingConditionModification)
  | signSponsorOversign {s k o c} : s.tx.auth = .sponsored o c → s.verifyOversign = true →
      signatureCount c < 65536 → requiredCount c ≤ signatureCount c →
      FailsWith (.signSponsor s k) (.transaction .sponsorOversign)
  | signSponsorMode {s k o c} : s.tx.auth = .sponsored o c →
      (s.verifyOversign = true → signatureCount c < requiredCount c) → ¬ ModeFits c →
      FailsWith (.signSponsor s k) (.transaction .badSpendingConditionModification)
  | appendOverlap {s k} : s.verifyOverlap = true → s.originSigned = true →
      FailsWith (.appendOrigin s k) (.transaction .originPostSponsorAppend)
  | appendSingle {s k c} : ¬ (s.verifyOverlap = true ∧ s.originSigned = true) → originOf s.tx.auth = .single c →
      FailsWith (.appendOrigin s k) (.transaction .badSpendingConditionModification)
  | appendMode {s k c} : ¬ (s.verifyOverlap = true ∧ s.originSigned = true) → originOf s.tx.auth = .multi c →
      ¬ (c.mode = .p2sh ∨ c.mode = .p2wsh) →
      FailsWith (.appendOrigin s k) (.transaction .badSpendingConditionModification)
  /-- The address of a contract. -/
  | contractCall {b e} : AddressFails b.address e → FailsWith (.contractCall b) (.clarity (.c32 e))
  /-- Wallets: what the libraries for BIP39, BIP32 and keys report. -/
  | mnemonic {s e} : Bip.parseMnemonic s = .error e → FailsWith (.fromSecretKey s) (.wallet (.bip39 e))
  | path {s m e} : Bip.parseMnemonic s = .ok m → Bip.parsePath "m/44'/5757'/0'/0".toList = .error e →
      FailsWith (.fromSecretKey s) (.wallet (.bip32 e))
  | root {s m p e} : Bip.parseMnemonic s = .ok m → Bip.parsePath "m/44'/5757'/0'/0".toList = .ok p →
      Bip.deriveFromPath (Bip.toSeed m []) p = .error e → FailsWith (.fromSecretKey s) (.wallet (.bip32 e))
  | account {w i e} : (∀ a, (i, a) ∉ w.accounts) → Bip.deriveChild w.ext i = .error e →
      FailsWith (.getAccount w i) (.wallet (.bip32 e))
  | walletPrivateKey {w e} : Bip.skFromSlice (Bip.privateBytes w.ext).1 = .error e →
      FailsWith (.walletPrivateKey w) (.wallet (.secp256k1 e))
  | walletPublicKey {w e} : Bip.pkFromSlice (Bip.publicBytes w.ext).1 = .error e →
      FailsWith (.walletPublicKey w) (.wallet (.secp256k1 e))
  | accountPrivateKey {a e} : Bip.skFromSlice (Bip.privateBytes a.ext).1 = .error e →
      FailsWith (.accountPrivateKey a) (.wallet (.secp256k1 e))
  | accountPublicKey {a e} : Bip.pkFromSlice (Bip.publicBytes a.ext).1 = .error e →
      FailsWith (.accountPublicKey a) (.wallet (.secp256k1 e))
  /-- The client: what cannot be written, then what is answered. -/
  | info {r server e} : AnswerFails IsNodeInfo (server (infoRequest r.url)) e → FailsWith (.rpcInfo r server) (.rpc e)
  | accountInfo {r server a e} : AnswerFails IsAddressInfo (server (accountRequest r.url a)) e →
      FailsWith (.rpcAddress r server a) (.rpc e)
  | feePayload {r server t e} : PayloadFails t.payload e → FailsWith (.rpcEstimateFee r server t) (.rpc (.clarity e))
  | feeTransaction {r server t e} : EncodablePayload t.payload → TransactionFails t e →
      FailsWith (.rpcEstimateFee r server t) (.rpc (.clarity e))
  | fee {r server t e} : SmallAuth t.auth → EncodableBody t →
      FeeAnswerFails (server (feeQuestion r.url (hexText (Spec.payloadBytes t.payload)) (transactionBytes t).length)) e →
      FailsWith (.rpcEstimateFee r server t) (.rpc e)
  | broadcastTransaction {r server t e} : TransactionFails t e →
      FailsWith (.rpcBroadcast r server t) (.rpc (.clarity e))
  | broadcast {r server t e} : SmallAuth t.auth → EncodableBody t →
      BroadcastAnswerFails (server (broadcastRequest r.url (transactionBytes t))) e →
      FailsWith (.rpcBroadcast r server t) (.rpc e)
  | readOnlyArgument {r server a c f pre v post sender e} : (∀ p ∈ pre, Encodable p) → EncodeFails v e →
      FailsWith (.rpcReadOnly r server a c f (pre ++ v :: post) sender) (.rpc (.clarity e))
  | readOnly {r server a c f args sender e} : (∀ p ∈ args, Encodable p) →
      AnswerFails IsReadOnly (server (readOnlyRequest r.url a c f sender
        (args.map fun p => hexText (sip005 p)))) e →
      FailsWith (.rpcReadOnly r server a c f args sender) (.rpc e)

/-! ## Errors that are never reported -/

/-- Not one of the two that are left over from conversions that cannot fail. -/
def ReportedC32 (e : C32.Error) : Prop := e ≠ .tryFromInt ∧ e ≠ .tryFromUtf8

/-- Not the one left over from a conversion that cannot fail. -/
def ReportedClarity (e : Clarity.Error) : Prop :=
  e ≠ .tryFromSlice ∧ e ≠ .c32 .tryFromInt ∧ e ≠ .c32 .tryFromUtf8

/-- Not `Secp256k1`, `TryFromInt`, or an error of a hash other than that of a signature. -/
def ReportedTx : TxError → Prop
  | .secp256k1 _ | .tryFromInt => False
  | .hash (.secp256k1 _) => True
  | .hash _ => False
  | .clarity e => ReportedClarity e
  | _ => True

/-- The client passes on the errors of encoding. -/
def ReportedRpc : Rpc.Error → Prop
  | .clarity e => ReportedClarity e
  | _ => True

/-- The errors that some call may report. -/
def Reported : ApiError → Prop
  | .hex _ => True
  | .c32 e => ReportedC32 e
  | .b58 (.badChar _) | .b58 (.badChecksum _ _) => True
  | .b58 _ => False
  | .hash .tryFromInt => False
  | .hash _ => True
  | .clarity e => ReportedClarity e
  | .transaction e => ReportedTx e
  | .wallet (.c32 _) => False
  | .wallet _ => True
  | .rpc e => ReportedRpc e

end

end Stacks.Spec

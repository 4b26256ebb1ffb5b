import Verif.Spec.Failures
import Verif.Spec.Box
import Verif.Model.ApiValue

/-! # What calls return

`GivesBack` says which of the calls listed in Model/Api.lean return a value, and which value. -/

namespace Stacks.Spec
open Stacks.Clarity (CV Kind)
open Stacks.Tx

/-! ## Strings -/

/-- The digits of Base58 that write bytes: a `1` for every leading zero byte, then the number; with one `1` too many
if there are only zeros. -/
def b58Text (bs : Bytes) : Str :=
  if bs ≠ [] ∧ ∀ b ∈ bs, b = 0 then List.replicate (bs.length + 1) '1'
  else List.replicate (leadingZeros (bs.map UInt8.toNat)) '1' ++
    (numDigits 58 (numValue 256 (bs.map UInt8.toNat))).map b58Char

/-! ## Networks -/

/-- The version of transactions: the test networks share one. -/
def networkVersion : Network → TransactionVersion
  | .mainnet => .mainnet
  | .testnet | .mocknet => .testnet
  | .custom v _ _ => v

/-- The id of the chain. -/
def networkChainId : Network → ChainID
  | .mainnet => .mainnet
  | .testnet | .mocknet => .testnet
  | .custom _ c _ => c

/-! ## Replies -/

section
variable [Rpc.Http]

/-- A question that is answered with JSON. -/
inductive Answers {α : Type} (P : Rpc.J → α → Prop) : Rpc.Reply → α → Prop
  | body {code body j x} : code < 400 → Rpc.Http.parseJson body = .ok j → P j x → Answers P (.response code body) x

/-- The answer to a question for a fee: text with a status of an error, otherwise JSON. -/
inductive FeeAnswers : Rpc.Reply → Rpc.EstimateFeeResponse → Prop
  | text {code body s} : 400 ≤ code → Rpc.Http.intoString body = .ok s → FeeAnswers (.response code body) (.err s)
  | body {code body j x} : code < 400 → Rpc.Http.parseJson body = .ok j → IsFeeOk j x →
      FeeAnswers (.response code body) (.ok x)

/-- The answer to a broadcast: JSON with a status of an error, otherwise text. -/
inductive BroadcastAnswers : Rpc.Reply → Rpc.BroadcastResponse → Prop
  | text {code body s} : code < 400 → Rpc.Http.intoString body = .ok s → BroadcastAnswers (.response code body) (.ok s)
  | body {code body j x} : 400 ≤ code → Rpc.Http.parseJson body = .ok j → IsBroadcastErr j x →
      BroadcastAnswers (.response code body) (.err x)

end

/-! ## The calls -/

section
variable [Secp] [Hashes] [Bip] [Rpc.Http]

/-- The condition of a payment from a key, without signature. -/
def unsignedCondition (key : Secp.SK) (fee nonce : UInt64) : Spending :=
  .single ⟨.p2pkh, fee, nonce, hash160Of (Secp.serialize (Secp.pub key)).1, noSignature⟩

/-- The calls that return a value, and the value. -/
inductive GivesBack : Api → ApiValue → Prop
  /-- The bytes that hexadecimal text spells. -/
  | hexToBytes {s b} : hexBytes? s = some (b.map UInt8.toNat) → GivesBack (.hexToBytes s) (.bytes b)
  /-- C32: the digits of the bytes; of the version, the bytes and the checksum; the same after `S`. -/
  | c32Encode {b} : GivesBack (.c32Encode b) (.text (c32Text b))
  | c32Decode {s b} : SpellsC32 s b → GivesBack (.c32Decode s) (.bytes b)
  | c32checkEncode {b v} : v < 32 →
      GivesBack (.c32checkEncode b v) (.text (c32Char v.toNat :: c32Text (b ++ checksum4 (v :: b))))
  | c32checkDecode {c data b v} : c32Value c = some v.toNat → SpellsC32 data (b ++ checksum4 (v :: b)) →
      GivesBack (.c32checkDecode (c :: data)) (.versioned b v)
  | c32Address {b v} : KnownVersion v → GivesBack (.c32Address b v) (.text (addressString v b))
  | c32AddressDecode {s b v} : IsAddress s v b → GivesBack (.c32AddressDecode s) (.versioned b v)
  | addressFromStr {s h v} : IsAddress s v h.1 → GivesBack (.addressFromStr s) (.address ⟨h, v⟩)
  /-- Hashes of scripts. -/
  | hashP2sh {m ks h} : m.toNat ≤ 175 → ks.length % 256 ≤ 175 → scriptSigner .p2sh m.toNat ks = some h →
      GivesBack (.hashP2sh m ks) (.hash160 h)
  | hashP2wsh {m ks h} : m.toNat ≤ 175 → ks.length % 256 ≤ 175 → scriptSigner .p2wsh m.toNat ks = some h →
      GivesBack (.hashP2wsh m ks) (.hash160 h)
  /-- Base58. -/
  | b58Encode {b} : GivesBack (.b58Encode b) (.text (b58Text b))
  | b58Decode {s b} : SpellsB58 s b → GivesBack (.b58Decode s) (.bytes b)
  | base58checkEncode {b v} :
      GivesBack (.base58checkEncode b v) (.text (b58Text (v :: (b ++ checksum4 (v :: b)))))
  | base58checkDecode {s b v} : SpellsB58 s (v :: (b ++ checksum4 (v :: b))) →
      GivesBack (.base58checkDecode s) (.versioned b v)
  /-- Bytes as a hash or a signature; a signature as an object of the library and back; the first four bytes. -/
  | hash160New {b h} : h.1 = b → GivesBack (.hash160New b) (.hash160 h)
  | signatureNew {b s} : s.1 = b → GivesBack (.signatureNew b) (.signature s)
  | signatureFromSlice {b s} : s.1 = b → GivesBack (.signatureFromSlice b) (.signature s)
  | signatureFromRecov {r s} : s.1 = UInt8.ofNat (Secp.compact r).1 :: (Secp.compact r).2.1 →
      GivesBack (.signatureFromRecov r) (.signature s)
  | signatureIntoRecov {s r} {id : Fin 4} {rest} : s.1 = UInt8.ofNat id :: rest → Secp.fromCompact rest id = .ok r →
      GivesBack (.signatureIntoRecov s) (.recoverable r)
  | checksum {h c} : c.1 = h.1.take 4 → GivesBack (.checksum h) (.checksum c)
  /-- A step of signing, and of verifying. -/
  | nextSignature {h typ fee nonce k} : GivesBack (.nextSignature h typ fee nonce k)
      (.signed (signatureBytes (presignDigest h typ fee nonce) k)
        (postsignDigest (presignDigest h typ fee nonce) (signatureBytes (presignDigest h typ fee nonce) k)))
  | nextVerify {h typ fee nonce s k} : RecoversKey (presignDigest h typ fee nonce) s k →
      GivesBack (.nextVerify h typ fee nonce s) (.verified k (postsignDigest (presignDigest h typ fee nonce) s))
  /-- Values: their bytes, the number of them, and their hexadecimal text; what they contain. -/
  | encode {v} : Encodable v → GivesBack (.encode v) (.bytes (sip005 v))
  | len {v} : Encodable v → GivesBack (.len v) (.number (sip005 v).length)
  | hex {v} : Encodable v → GivesBack (.hex v) (.text (hexText (sip005 v)))
  | hexPrefixed {v} : Encodable v → GivesBack (.hexPrefixed v) (.text ('0' :: 'x' :: hexText (sip005 v)))
  | cast {k x} : GivesBack (.cast k (k.box x)) (.content k x)
  /-- The value whose bytes come first. -/
  | decode {v r} : Accepted v → GivesBack (.decode (sip005 v ++ r)) (.value v)
  | typed {k i x r} : identifierOf k = some i → Accepted (k.box x) →
      GivesBack (.decodeAs k (sip005 (k.box x) ++ r)) (.content k x)
  | anyType {t s r} : s.bytes.length < 2 ^ 32 →
      GivesBack (.decodeAs .strUtf8 (t :: (sized32 s.bytes ++ r))) (.content .strUtf8 s)
  | name {s r} : s.bytes.length < 256 → GivesBack (.decodeAs .lps (sized8 s ++ r)) (.content .lps s)
  | arguments {vs r} : vs.length < 2 ^ 32 → (∀ v ∈ vs, WellFormed v) →
      GivesBack (.decodeAs .fnArgs (sip005 (.fnArgs vs) ++ r)) (.content .fnArgs vs)
  /-- The bytes of the parts of a transaction. -/
  | encodeAsset {a} : EncodableAsset a → GivesBack (.encodeAsset a) (.bytes (assetField a))
  | encodeCondition {c} : EncodableCondition c → GivesBack (.encodeCondition c) (.bytes (conditionBytes c))
  | encodeConditions {cs} : cs.length < 2 ^ 32 → (∀ c ∈ cs, EncodableCondition c) →
      GivesBack (.encodeConditions cs) (.bytes (conditionsBytes cs))
  | encodePayload {p} : EncodablePayload p → GivesBack (.encodePayload p) (.bytes (payloadBytes p))
  | encodeSpending {c} : SmallSpending c → GivesBack (.encodeSpending c) (.bytes (spendingBytes c))
  | encodeAuth {a} : SmallAuth a → GivesBack (.encodeAuth a) (.bytes (authBytes a))
  | encodeTransaction {t} : SmallAuth t.auth → EncodableBody t →
      GivesBack (.encodeTransaction t) (.bytes (transactionBytes t))
  /-- The payload whose bytes come first; the memo fills its field. -/
  | decodeTransfer {p r} : WellFormedTransfer p → p.memo.bytes.length = 34 →
      GivesBack (.decodeTransfer (tokenTransferBytes p ++ r)) (.payload (.tokenTransfer p))
  | decodeCall {p r} : WellFormedCall p →
      GivesBack (.decodeCall (contractCallBytes p ++ r)) (.payload (.contractCall p))
  | decodePayloadTransfer {p r} : WellFormedTransfer p → p.memo.bytes.length = 34 →
      GivesBack (.decodePayload (tokenTransferBytes p ++ r)) (.payload (.tokenTransfer p))
  | decodePayloadCall {p r} : WellFormedCall p →
      GivesBack (.decodePayload (contractCallBytes p ++ r)) (.payload (.contractCall p))
  /-- Conditions without signatures. -/
  | newSingle {k fee nonce mode s} : keySigner mode k = some s →
      GivesBack (.newSingle k fee nonce mode) (.spending (.single ⟨mode, fee, nonce, s, noSignature⟩))
  | newMulti {ks fee nonce m mode s} : m.toNat ≤ 175 → ks.length % 256 ≤ 175 → scriptSigner mode m.toNat ks = some s →
      GivesBack (.newMulti ks fee nonce m mode) (.spending (.multi ⟨mode, fee, nonce, s, [], m⟩))
  /-- The number of signatures; one more signature, or one more key. -/
  | signatures {c} : signatureCount c < 65536 → GivesBack (.signatures c) (.number (signatureCount c))
  | setSignature {c s} : GivesBack (.modify (.single c) (.setSignature s)) (.spending (withSignature (.single c) s))
  | addSignature {c s} : GivesBack (.modify (.multi c) (.addSignature s)) (.spending (withSignature (.multi c) s))
  | addPublicKey {c k} : GivesBack (.modify (.multi c) (.addPublicKey k)) (.spending (withKey (.multi c) k))
  /-- Verification: see the verdicts. -/
  | verifySpending {c h typ n} : SpendingVerdict h typ c (.ok n) → GivesBack (.verifySpending c h typ) (.digest n)
  | verifyAuth {a h} : AuthVerdict h a (.ok ()) → GivesBack (.verifyAuth a h) .done
  | verifyAuthOrigin {a h n} : SpendingVerdict h 4 (originOf a) (.ok n) →
      GivesBack (.verifyAuthOrigin a h) (.digest n)
  | verifyOrigin {t n} : EncodableBody t →
      SpendingVerdict (Hashes.sha512_256 (signingPreimage t)) 4 (originOf t.auth) (.ok n) →
      GivesBack (.verifyOrigin t) (.digest n)
  /-- The sponsor. -/
  | sponsor {o c} : GivesBack (.sponsor (.sponsored o c)) (.spending c)
  | setSponsor {o p c} : GivesBack (.setSponsor (.sponsored o p) c) (.auth (.sponsored o c))
  /-- Hashes. -/
  | hash {t} : SmallAuth t.auth → EncodableBody t → GivesBack (.hash t) (.digest (Hashes.sha512_256 (transactionBytes t)))
  | initialHash {t} : EncodableBody t → GivesBack (.initialHash t) (.digest (Hashes.sha512_256 (signingPreimage t)))
  /-- Signing. -/
  | sign {t k} : EncodableBody t → signatureCount (originOf t.auth) < requiredCount (originOf t.auth) →
      ModeFits (originOf t.auth) →
      GivesBack (.sign t k) (.transaction { t with
        auth := replaceOrigin t.auth (signedBy (Hashes.sha512_256 (signingPreimage t)) 4 k (originOf t.auth)) })
  | newSigner {t} : EncodableBody t →
      GivesBack (.newSigner t) (.signer ⟨t, Hashes.sha512_256 (signingPreimage t), false, true, true⟩)
  | newSponsor {t c o p n} : t.auth = .sponsored o p → EncodableBody t →
      SpendingVerdict (Hashes.sha512_256 (signingPreimage t)) 4 o (.ok n) →
      GivesBack (.newSponsor t c) (.signer ⟨{ t with auth := .sponsored o c }, n, true, true, true⟩)
  | signOrigin {s k} : ¬ (s.verifyOverlap = true ∧ s.originSigned = true) →
      (s.verifyOversign = true → signatureCount (originOf s.tx.auth) < requiredCount (originOf s.tx.auth)) →
      ModeFits (originOf s.tx.auth) →
      GivesBack (.signOrigin s k) (.signer { s with
        tx := { s.tx with auth := replaceOrigin s.tx.auth (signedBy s.hash 4 k (originOf s.tx.auth)) }
        hash := chainHash s.hash 4 k (originOf s.tx.auth) })
  | signSponsor {s k o c} : s.tx.auth = .sponsored o c →
      (s.verifyOversign = true → signatureCount c < requiredCount c) → ModeFits c →
      GivesBack (.signSponsor s k) (.signer { s with
        tx := { s.tx with auth := .sponsored o (signedBy s.hash 5 k c) }
        hash := chainHash s.hash 5 k c
        originSigned := true })
  | appendOrigin {s k c} : ¬ (s.verifyOverlap = true ∧ s.originSigned = true) → originOf s.tx.auth = .multi c →
      c.mode = .p2sh ∨ c.mode = .p2wsh →
      GivesBack (.appendOrigin s k) (.signer { s with
        tx := { s.tx with auth := replaceOrigin s.tx.auth (withKey (.multi c) k) } })
  /-- The transactions of the builders. -/
  | transfer {b} : b.sponsored = false →
      GivesBack (.transfer b) (.transaction ⟨networkVersion b.network, networkChainId b.network,
        .standard (unsignedCondition b.sender b.fee b.nonce), b.anchorMode, b.postConditionMode, b.postConditions,
        .tokenTransfer ⟨b.recipient, b.amount, b.memo⟩⟩)
  | contractCall {b h v} : IsAddress b.address v h.1 → b.sponsored = false →
      GivesBack (.contractCall b) (.transaction ⟨networkVersion b.network, networkChainId b.network,
        .standard (unsignedCondition b.sender b.fee b.nonce), b.anchorMode, b.postConditionMode, b.postConditions,
        .contractCall ⟨⟨h, v⟩, b.contract, b.fnName, b.fnArgs⟩⟩)
  /-- Wallets: the root key of the phrase, no account yet; the account of an index, remembered or derived. -/
  | fromSecretKey {s m p x} : Bip.parseMnemonic s = .ok m → Bip.parsePath "m/44'/5757'/0'/0".toList = .ok p →
      Bip.deriveFromPath (Bip.toSeed m []) p = .ok x → GivesBack (.fromSecretKey s) (.wallet ⟨x, []⟩)
  | knownAccount {w i a pre post} : w.accounts = pre ++ (i, a) :: post → (∀ b, (i, b) ∉ pre) →
      GivesBack (.getAccount w i) (.account a w)
  | newAccount {w i x} : (∀ a, (i, a) ∉ w.accounts) → Bip.deriveChild w.ext i = .ok x →
      GivesBack (.getAccount w i) (.account ⟨x, i⟩ ⟨w.ext, (i, ⟨x, i⟩) :: w.accounts⟩)
  | walletPrivateKey {w k} : Bip.skFromSlice (Bip.privateBytes w.ext).1 = .ok k →
      GivesBack (.walletPrivateKey w) (.secretKey k)
  | walletPublicKey {w k} : Bip.pkFromSlice (Bip.publicBytes w.ext).1 = .ok k →
      GivesBack (.walletPublicKey w) (.publicKey k)
  | getAddress {a v} :
      GivesBack (.getAddress a v) (.text (addressString (versionByte v) (hash160Of (Bip.publicBytes a.ext).1).1))
  | accountPrivateKey {a k} : Bip.skFromSlice (Bip.privateBytes a.ext).1 = .ok k →
      GivesBack (.accountPrivateKey a) (.secretKey k)
  | accountPublicKey {a k} : Bip.pkFromSlice (Bip.publicBytes a.ext).1 = .ok k →
      GivesBack (.accountPublicKey a) (.publicKey k)
  /-- The client: what is answered. -/
  | info {r server x} : Answers IsNodeInfo (server (infoRequest r.url)) x → GivesBack (.rpcInfo r server) (.nodeInfo x)
  | accountInfo {r server a x} : Answers IsAddressInfo (server (accountRequest r.url a)) x →
      GivesBack (.rpcAddress r server a) (.addressInfo x)
  | fee {r server t x} : SmallAuth t.auth → EncodableBody t →
      FeeAnswers (server (feeQuestion r.url (hexText (payloadBytes t.payload)) (transactionBytes t).length)) x →
      GivesBack (.rpcEstimateFee r server t) (.fee x)
  | broadcast {r server t x} : SmallAuth t.auth → EncodableBody t →
      BroadcastAnswers (server (broadcastRequest r.url (transactionBytes t))) x →
      GivesBack (.rpcBroadcast r server t) (.broadcast x)
  | readOnly {r server a c f args sender x} : (∀ p ∈ args, Encodable p) →
      Answers IsReadOnly (server (readOnlyRequest r.url a c f sender (args.map fun p => hexText (sip005 p)))) x →
      GivesBack (.rpcReadOnly r server a c f args sender) (.readOnly x)

end

end Stacks.Spec

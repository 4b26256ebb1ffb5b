import Verif.Model.B58
import Verif.Model.HashValue
import Verif.Model.Builder
import Verif.Model.Wallet
import Verif.Model.Rpc
import Verif.Model.Unwritten

/-! # The calls of the crate

`Api` lists the functions of the crate that return a `Result` or can panic, with their arguments;
`Api.Panics` says that the model of the function panics, and `Api.Reports` that it returns an error. (Functions
that return a plain value and whose models are therefore plain functions are not listed.) -/

namespace Stacks.Clarity

/-- stacks/src/clarity/impl.rs: `decode` of each type (the lines are cited at the functions named), without the value. -/
def decodeKind [Hashes] (k : Kind) (b : Bytes) : Outcome Error Unit :=
  match k with
  | .int => intDecode b >>= fun _ => .ok ()
  | .uint => uintDecode b >>= fun _ => .ok ()
  | .buffer => bufferDecode b >>= fun _ => .ok ()
  | .tru => trueDecode b
  | .fls => falseDecode b
  | .principalStd => principalStdDecode b >>= fun _ => .ok ()
  | .principalCon => principalConDecode b >>= fun _ => .ok ()
  | .respOk => respOkDecode decode b >>= fun _ => .ok ()
  | .respErr => respErrDecode decode b >>= fun _ => .ok ()
  | .optNone => noneDecode b
  | .optSome => someDecode decode b >>= fun _ => .ok ()
  | .list => listDecode decode b >>= fun _ => .ok ()
  | .tuple => tupleDecode decode b >>= fun _ => .ok ()
  | .strAscii => strAsciiDecode b >>= fun _ => .ok ()
  | .strUtf8 => strUtf8Decode b >>= fun _ => .ok ()
  | .lps => lpsDecode b >>= fun _ => .ok ()
  | .fnArgs => fnArgsDecode b >>= fun _ => .ok ()

end Stacks.Clarity

namespace Stacks
open Stacks.Clarity (CV Kind)
open Stacks.Tx

/-- The types whose `decode` is not written. -/
inductive Undecodable where
  | stxPostCondition | fungiblePostCondition | nonFungiblePostCondition | assetInfo | postConditions
  | singleSig | multiSig | auth | transaction

/-- Their decoders. -/
def Undecodable.Panics [Secp] (b : Bytes) : Undecodable → Prop
  | .stxPostCondition | .fungiblePostCondition | .nonFungiblePostCondition => Condition.decode b = .panic
  | .assetInfo => AssetInfo.decode b = .panic
  | .postConditions => postConditionsDecode b = .panic
  | .singleSig => SingleSig.decode b = .panic
  | .multiSig => MultiSig.decode b = .panic
  | .auth => Auth.decode b = .panic
  | .transaction => Transaction.decode b = .panic

section
variable [Secp] [Hashes] [Bip] [Rpc.Http]

/-- The calls. -/
inductive Api where
  /-- `hex_to_bytes`. -/
  | hexToBytes (s : Str)
  /-- `c32_encode`, `c32_decode`, `c32check_encode`, `c32check_decode`, `c32_address`, `c32_address_decode`,
  `Address::from_str`. -/
  | c32Encode (bytes : Bytes)
  | c32Decode (s : Str)
  | c32checkEncode (bytes : Bytes) (version : UInt8)
  | c32checkDecode (s : Str)
  | c32Address (bytes : Bytes) (version : UInt8)
  | c32AddressDecode (s : Str)
  | addressFromStr (s : Str)
  /-- `hash_p2sh`, `hash_p2wsh`. -/
  | hashP2sh (required : UInt8) (keys : List Secp.PK)
  | hashP2wsh (required : UInt8) (keys : List Secp.PK)
  /-- `b58_encode`, `b58_decode`, `base58check_encode`, `base58check_decode`. -/
  | b58Encode (bytes : Bytes)
  | b58Decode (s : Str)
  | base58checkEncode (bytes : Bytes) (version : UInt8)
  | base58checkDecode (s : Str)
  /-- `Hash160::new`, `MessageSignature::new`, `from_slice`, `from_recov`, `into_recov`, `checksum` of a hash. -/
  | hash160New (bytes : Bytes)
  | signatureNew (bytes : Bytes)
  | signatureFromSlice (bytes : Bytes)
  | signatureFromRecov (r : Secp.RSig)
  | signatureIntoRecov (s : Arr 65)
  | checksum (h : Arr 32)
  /-- `SignatureHash::next_signature`, `next_verify`. -/
  | nextSignature (h : Arr 32) (typ : UInt8) (fee nonce : UInt64) (key : Secp.SK)
  | nextVerify (h : Arr 32) (typ : UInt8) (fee nonce : UInt64) (signature : Arr 65)
  /-- `encode`, `len`, `hex`, `hex_prefixed` and the casts of a Clarity value. -/
  | encode (v : CV)
  | len (v : CV)
  | hex (v : CV)
  | hexPrefixed (v : CV)
  | cast (k : Kind) (v : CV)
  /-- `decode_clarity_type`, and `decode` of each type. -/
  | decode (bytes : Bytes)
  | decodeAs (k : Kind) (bytes : Bytes)
  /-- `encode` and `decode` of the parts of a transaction. -/
  | encodeAsset (a : AssetInfo)
  | encodeCondition (c : Condition)
  | encodeConditions (cs : List Condition)
  | encodePayload (p : Payload)
  | encodeSpending (c : Spending)
  | encodeAuth (a : Auth)
  | encodeTransaction (t : Transaction)
  | decodeTransfer (bytes : Bytes)
  | decodeCall (bytes : Bytes)
  | decodePayload (bytes : Bytes)
  | decodeUnwritten (what : Undecodable) (bytes : Bytes)
  /-- `SingleSpendingCondition::new`, `MultiSpendingCondition::new`. -/
  | newSingle (key : Secp.PK) (fee nonce : UInt64) (mode : C32.Mode)
  | newMulti (keys : List Secp.PK) (fee nonce : UInt64) (required : UInt8) (mode : C32.Mode)
  /-- `signatures`, `modify` and `verify` of a spending condition. -/
  | signatures (c : Spending)
  | modify (c : Spending) (m : Modification)
  | verifySpending (c : Spending) (h : Arr 32) (typ : UInt8)
  /-- `Auth::verify`, `verify_origin`, `sponsor`, `set_sponsor`. -/
  | verifyAuth (a : Auth) (h : Arr 32)
  | verifyAuthOrigin (a : Auth) (h : Arr 32)
  | sponsor (a : Auth)
  | setSponsor (a : Auth) (c : Spending)
  /-- `Transaction::hash`, `sign`, and, of the crate itself, `initial_hash` and `verify_origin`. -/
  | hash (t : Transaction)
  | initialHash (t : Transaction)
  | verifyOrigin (t : Transaction)
  | sign (t : Transaction) (key : Secp.SK)
  /-- `TransactionSigner::new`, `new_sponsor`, `sign_origin`, `sign_sponsor`, `append_origin`. -/
  | newSigner (t : Transaction)
  | newSponsor (t : Transaction) (c : Spending)
  | signOrigin (s : Signer) (key : Secp.SK)
  | signSponsor (s : Signer) (key : Secp.SK)
  | appendOrigin (s : Signer) (key : Secp.PK)
  /-- `STXTokenTransfer::transaction`, `STXContractCall::transaction`. -/
  | transfer (b : STXTokenTransfer)
  | contractCall (b : STXContractCall)
  /-- `StacksWallet::from_secret_key`, `get_account`, `private_key`, `public_key`. -/
  | fromSecretKey (s : Str)
  | getAccount (w : Wallet.StacksWallet) (index : UInt32)
  | walletPrivateKey (w : Wallet.StacksWallet)
  | walletPublicKey (w : Wallet.StacksWallet)
  /-- `StacksAccount::get_address`, `private_key`, `public_key`. -/
  | getAddress (a : Wallet.StacksAccount) (version : C32.Version)
  | accountPrivateKey (a : Wallet.StacksAccount)
  | accountPublicKey (a : Wallet.StacksAccount)
  /-- `StacksRPC::info`, `address`, `estimate_fee`, `broadcast`, `read_only`, for any behaviour of the server. -/
  | rpcInfo (r : Rpc.StacksRPC) (server : Rpc.Request → Rpc.Reply)
  | rpcAddress (r : Rpc.StacksRPC) (server : Rpc.Request → Rpc.Reply) (addr : Str)
  | rpcEstimateFee (r : Rpc.StacksRPC) (server : Rpc.Request → Rpc.Reply) (t : Transaction)
  | rpcBroadcast (r : Rpc.StacksRPC) (server : Rpc.Request → Rpc.Reply) (t : Transaction)
  | rpcReadOnly (r : Rpc.StacksRPC) (server : Rpc.Request → Rpc.Reply) (contractAddr contractName fnName : Str)
      (args : List CV) (sender : Str)

/-- The call panics. -/
def Api.Panics : Api → Prop
  | .hexToBytes s => Hex.hexToBytes s = .panic
  | .c32Encode b => C32.c32Encode b = .panic
  | .c32Decode s => C32.c32Decode s = .panic
  | .c32checkEncode b v => C32.c32checkEncode b v = .panic
  | .c32checkDecode s => C32.c32checkDecode s = .panic
  | .c32Address b v => C32.c32Address b v = .panic
  | .c32AddressDecode s => C32.c32AddressDecode s = .panic
  | .addressFromStr s => C32.addressFromStr s = .panic
  | .hashP2sh m ks => (C32.hashP2sh m ks : Outcome Unit (Arr 20)) = .panic
  | .hashP2wsh m ks => (C32.hashP2wsh m ks : Outcome Unit (Arr 20)) = .panic
  | .b58Encode b => B58.b58Encode b = .panic
  | .b58Decode s => B58.b58Decode s = .panic
  | .base58checkEncode b v => B58.base58checkEncode b v = .panic
  | .base58checkDecode s => B58.base58checkDecode s = .panic
  | .hash160New b => (Stacks.hash160New b : Outcome Unit (Arr 20)) = .panic
  | .signatureNew b => (HashValue.messageSigNew b : Outcome Unit (Arr 65)) = .panic
  | .signatureFromSlice b => messageSigFromSlice b = .panic
  | .signatureFromRecov r => messageSigFromRecov r = .panic
  | .signatureIntoRecov s => messageSigIntoRecov s = .panic
  | .checksum h => (HashValue.checksum h : Outcome Unit (Arr 4)) = .panic
  | .nextSignature h typ fee nonce k => Stacks.nextSignature h typ fee nonce k = .panic
  | .nextVerify h typ fee nonce s => Stacks.nextVerify h typ fee nonce s = .panic
  | .encode v => v.encode = .panic
  | .len v => v.len = .panic
  | .hex v => v.hex = .panic
  | .hexPrefixed v => v.hexPrefixed = .panic
  | .cast k v => v.cast k = .panic
  | .decode b => Clarity.decode b = .panic
  | .decodeAs k b => Clarity.decodeKind k b = .panic
  | .encodeAsset a => a.encode = .panic
  | .encodeCondition c => c.encode = .panic
  | .encodeConditions cs => postConditionsEncode cs = .panic
  | .encodePayload p => p.encode = .panic
  | .encodeSpending c => c.encode = .panic
  | .encodeAuth a => a.encode = .panic
  | .encodeTransaction t => t.encode = .panic
  | .decodeTransfer b => TokenTransfer.decode b = .panic
  | .decodeCall b => ContractCall.decode b = .panic
  | .decodePayload b => Payload.decode b = .panic
  | .decodeUnwritten w b => w.Panics b
  | .newSingle k fee nonce mode => (SingleSig.new k fee nonce mode : Outcome Unit SingleSig) = .panic
  | .newMulti ks fee nonce m mode => (MultiSig.new ks fee nonce m mode : Outcome Unit MultiSig) = .panic
  | .signatures c => (c.signatures : Outcome Unit UInt16) = .panic
  | .modify c m => c.modify m = .panic
  | .verifySpending c h typ => c.verify h typ = .panic
  | .verifyAuth a h => a.verify h = .panic
  | .verifyAuthOrigin a h => a.verifyOrigin h = .panic
  | .sponsor a => a.sponsor = .panic
  | .setSponsor a c => a.setSponsor c = .panic
  | .hash t => t.hash = .panic
  | .initialHash t => t.initialHash = .panic
  | .verifyOrigin t => t.verifyOrigin = .panic
  | .sign t k => t.sign k = .panic
  | .newSigner t => Signer.new t = .panic
  | .newSponsor t c => Signer.newSponsor t c = .panic
  | .signOrigin s k => s.signOrigin k = .panic
  | .signSponsor s k => s.signSponsor k = .panic
  | .appendOrigin s k => s.appendOrigin k = .panic
  | .transfer b => (b.transaction : Outcome Unit Transaction) = .panic
  | .contractCall b => b.transaction = .panic
  | .fromSecretKey s => Wallet.StacksWallet.fromSecretKey s = .panic
  | .getAccount w i => (w.getAccount i).1 = .panic
  | .walletPrivateKey w => w.privateKey = .panic
  | .walletPublicKey w => w.publicKey = .panic
  | .getAddress a v => a.getAddress v = .panic
  | .accountPrivateKey a => a.privateKey = .panic
  | .accountPublicKey a => a.publicKey = .panic
  | .rpcInfo r server => (r.info server).result = .panic
  | .rpcAddress r server a => (r.address server a).result = .panic
  | .rpcEstimateFee r server t => (r.estimateFee server t).result = .panic
  | .rpcBroadcast r server t => (r.broadcast server t).result = .panic
  | .rpcReadOnly r server a c f args sender => (r.readOnly server a c f args sender).result = .panic

/-- The errors of the modules of the crate. -/
inductive ApiError where
  | hex (e : Hex.Error)
  | c32 (e : C32.Error)
  | b58 (e : B58.Error)
  | hash (e : HashError Secp.Err)
  | clarity (e : Clarity.Error)
  | transaction (e : TxError)
  | wallet (e : Wallet.Error)
  | rpc (e : Rpc.Error)

/-- The outcome is an error, and this one. -/
def Outcome.Fails {ε α : Type} (o : Outcome ε α) (f : ε → ApiError) (x : ApiError) : Prop := ∃ e, o = .err e ∧ x = f e

/-- The decoders that are not written: the error they return. -/
def Undecodable.Reports (b : Bytes) (x : ApiError) : Undecodable → Prop
  | .stxPostCondition | .fungiblePostCondition | .nonFungiblePostCondition => (Condition.decode b).Fails .clarity x
  | .assetInfo => (AssetInfo.decode b).Fails .clarity x
  | .postConditions => (postConditionsDecode b).Fails .clarity x
  | .singleSig => (SingleSig.decode b).Fails .clarity x
  | .multiSig => (MultiSig.decode b).Fails .clarity x
  | .auth => (Auth.decode b).Fails .clarity x
  | .transaction => (Transaction.decode b).Fails .clarity x

/-- The call returns an error, and this one. (Functions whose result is not a `Result` have a model that can
panic, for every type of errors; they are taken here with `ApiError`.) -/
def Api.Reports (c : Api) (x : ApiError) : Prop :=
  match c with
  | .hexToBytes s => (Hex.hexToBytes s).Fails .hex x
  | .c32Encode b => (C32.c32Encode b).Fails .c32 x
  | .c32Decode s => (C32.c32Decode s).Fails .c32 x
  | .c32checkEncode b v => (C32.c32checkEncode b v).Fails .c32 x
  | .c32checkDecode s => (C32.c32checkDecode s).Fails .c32 x
  | .c32Address b v => (C32.c32Address b v).Fails .c32 x
  | .c32AddressDecode s => (C32.c32AddressDecode s).Fails .c32 x
  | .addressFromStr s => (C32.addressFromStr s).Fails .c32 x
  | .hashP2sh m ks => (C32.hashP2sh m ks : Outcome ApiError (Arr 20)) = .err x
  | .hashP2wsh m ks => (C32.hashP2wsh m ks : Outcome ApiError (Arr 20)) = .err x
  | .b58Encode b => (B58.b58Encode b).Fails .b58 x
  | .b58Decode s => (B58.b58Decode s).Fails .b58 x
  | .base58checkEncode b v => (B58.base58checkEncode b v).Fails .b58 x
  | .base58checkDecode s => (B58.base58checkDecode s).Fails .b58 x
  | .hash160New b => (Stacks.hash160New b : Outcome ApiError (Arr 20)) = .err x
  | .signatureNew b => (HashValue.messageSigNew b : Outcome ApiError (Arr 65)) = .err x
  | .signatureFromSlice b => (messageSigFromSlice b).Fails .hash x
  | .signatureFromRecov r => (messageSigFromRecov r).Fails .hash x
  | .signatureIntoRecov s => (messageSigIntoRecov s).Fails .hash x
  | .checksum h => (HashValue.checksum h : Outcome ApiError (Arr 4)) = .err x
  | .nextSignature h typ fee nonce k => (Stacks.nextSignature h typ fee nonce k).Fails .hash x
  | .nextVerify h typ fee nonce s => (Stacks.nextVerify h typ fee nonce s).Fails .hash x
  | .encode v => v.encode.Fails .clarity x
  | .len v => v.len.Fails .clarity x
  | .hex v => v.hex.Fails .clarity x
  | .hexPrefixed v => v.hexPrefixed.Fails .clarity x
  | .cast k v => (v.cast k).Fails .clarity x
  | .decode b => (Clarity.decode b).Fails .clarity x
  | .decodeAs k b => (Clarity.decodeKind k b).Fails .clarity x
  | .encodeAsset a => a.encode.Fails .clarity x
  | .encodeCondition c => c.encode.Fails .clarity x
  | .encodeConditions cs => (postConditionsEncode cs).Fails .clarity x
  | .encodePayload p => p.encode.Fails .clarity x
  | .encodeSpending c => c.encode.Fails .clarity x
  | .encodeAuth a => a.encode.Fails .clarity x
  | .encodeTransaction t => t.encode.Fails .clarity x
  | .decodeTransfer b => (TokenTransfer.decode b).Fails .clarity x
  | .decodeCall b => (ContractCall.decode b).Fails .clarity x
  | .decodePayload b => (Payload.decode b).Fails .clarity x
  | .decodeUnwritten w b => w.Reports b x
  | .newSingle k fee nonce mode => (SingleSig.new k fee nonce mode : Outcome ApiError SingleSig) = .err x
  | .newMulti ks fee nonce m mode => (MultiSig.new ks fee nonce m mode : Outcome ApiError MultiSig) = .err x
  | .signatures c => (c.signatures : Outcome ApiError UInt16) = .err x
  | .modify c m => (c.modify m).Fails .transaction x
  | .verifySpending c h typ => (c.verify h typ).Fails .transaction x
  | .verifyAuth a h => (a.verify h).Fails .transaction x
  | .verifyAuthOrigin a h => (a.verifyOrigin h).Fails .transaction x
  | .sponsor a => a.sponsor.Fails .transaction x
  | .setSponsor a c => (a.setSponsor c).Fails .transaction x
  | .hash t => t.hash.Fails .transaction x
  | .initialHash t => t.initialHash.Fails .transaction x
  | .verifyOrigin t => t.verifyOrigin.Fails .transaction x
  | .sign t k => (t.sign k).Fails .transaction x
  | .newSigner t => (Signer.new t).Fails .transaction x
  | .newSponsor t c => (Signer.newSponsor t c).Fails .transaction x
  | .signOrigin s k => (s.signOrigin k).Fails .transaction x
  | .signSponsor s k => (s.signSponsor k).Fails .transaction x
  | .appendOrigin s k => (s.appendOrigin k).Fails .transaction x
  | .transfer b => (b.transaction : Outcome ApiError Transaction) = .err x
  | .contractCall b => b.transaction.Fails .clarity x
  | .fromSecretKey s => (Wallet.StacksWallet.fromSecretKey s).Fails .wallet x
  | .getAccount w i => (w.getAccount i).1.Fails .wallet x
  | .walletPrivateKey w => w.privateKey.Fails .wallet x
  | .walletPublicKey w => w.publicKey.Fails .wallet x
  | .getAddress a v => (a.getAddress v).Fails .wallet x
  | .accountPrivateKey a => a.privateKey.Fails .wallet x
  | .accountPublicKey a => a.publicKey.Fails .wallet x
  | .rpcInfo r server => (r.info server).result.Fails .rpc x
  | .rpcAddress r server a => (r.address server a).result.Fails .rpc x
  | .rpcEstimateFee r server t => (r.estimateFee server t).result.Fails .rpc x
  | .rpcBroadcast r server t => (r.broadcast server t).result.Fails .rpc x
  | .rpcReadOnly r server a c f args sender => (r.readOnly server a c f args sender).result.Fails .rpc x

end

end Stacks

import Verif.Model.Api

/-! # What the calls of the crate return

`Api.outcome` is the outcome of a call: what it returns, the error it reports, or a panic. -/

namespace Stacks.Clarity

/-- stacks/src/clarity/impl.rs: `decode` of each type (the lines are cited at the functions named), with the value. -/
def decodeKindVal [Hashes] (k : Kind) (b : Bytes) : Outcome Error k.Val :=
  match k with
  | .int => intDecode b
  | .uint => uintDecode b
  | .buffer => bufferDecode b
  | .tru => trueDecode b
  | .fls => falseDecode b
  | .principalStd => principalStdDecode b
  | .principalCon => principalConDecode b
  | .respOk => respOkDecode decode b
  | .respErr => respErrDecode decode b
  | .optNone => noneDecode b
  | .optSome => someDecode decode b
  | .list => listDecode decode b
  | .tuple => tupleDecode decode b
  | .strAscii => strAsciiDecode b
  | .strUtf8 => strUtf8Decode b
  | .lps => lpsDecode b
  | .fnArgs => fnArgsDecode b

end Stacks.Clarity

namespace Stacks
open Stacks.Clarity (CV Kind)
open Stacks.Tx

section
variable [Secp] [Hashes] [Bip] [Rpc.Http]

/-- What a call returns: the types of the results of the functions listed in `Api`, taken together. -/
inductive ApiValue where
  | bytes (b : Bytes)
  | text (s : Str)
  | versioned (b : Bytes) (version : UInt8)
  | address (a : C32.Address)
  | hash160 (h : Arr 20)
  | digest (h : Arr 32)
  | checksum (c : Arr 4)
  | signature (s : Arr 65)
  | recoverable (r : Secp.RSig)
  | signed (s : Arr 65) (next : Arr 32)
  | verified (k : Secp.PK) (next : Arr 32)
  | number (n : Nat)
  | value (v : CV)
  | content (k : Kind) (x : k.Val)
  | asset (a : AssetInfo)
  | condition (c : Condition)
  | conditions (cs : List Condition)
  | payload (p : Payload)
  | spending (c : Spending)
  | auth (a : Auth)
  | transaction (t : Transaction)
  | signer (s : Signer)
  | done
  | wallet (w : Wallet.StacksWallet)
  | account (a : Wallet.StacksAccount) (w : Wallet.StacksWallet)
  | secretKey (k : Secp.SK)
  | publicKey (k : Secp.PK)
  | nodeInfo (x : Rpc.NodeInfoResponse)
  | addressInfo (x : Rpc.AddressInfoResponse)
  | fee (x : Rpc.EstimateFeeResponse)
  | broadcast (x : Rpc.BroadcastResponse)
  | readOnly (x : Rpc.ReadOnlyResponse)

/-- The outcome, with the errors and the values of all calls taken together. -/
def Outcome.shown {ε α : Type} (o : Outcome ε α) (f : ε → ApiError) (g : α → ApiValue) : Outcome ApiError ApiValue :=
  match o with
  | .ok a => .ok (g a)
  | .err e => .err (f e)
  | .panic => .panic

/-- The decoders that are not written. -/
def Undecodable.outcome (b : Bytes) : Undecodable → Outcome ApiError ApiValue
  | .stxPostCondition | .fungiblePostCondition | .nonFungiblePostCondition =>
    (Condition.decode b).shown .clarity .condition
  | .assetInfo => (AssetInfo.decode b).shown .clarity .asset
  | .postConditions => (postConditionsDecode b).shown .clarity .conditions
  | .singleSig => (SingleSig.decode b).shown .clarity fun c => .spending (.single c)
  | .multiSig => (MultiSig.decode b).shown .clarity fun c => .spending (.multi c)
  | .auth => (Auth.decode b).shown .clarity .auth
  | .transaction => (Transaction.decode b).shown .clarity .transaction

/-- The outcome of a call. (`get_account` also changes the wallet: the wallet afterwards is part of what it
returns. Functions whose result is not a `Result` are taken with `ApiError`, as in `Api.Reports`.) -/
def Api.outcome (c : Api) : Outcome ApiError ApiValue :=
  match c with
  | .hexToBytes s => (Hex.hexToBytes s).shown .hex .bytes
  | .c32Encode b => (C32.c32Encode b).shown .c32 .text
  | .c32Decode s => (C32.c32Decode s).shown .c32 .bytes
  | .c32checkEncode b v => (C32.c32checkEncode b v).shown .c32 .text
  | .c32checkDecode s => (C32.c32checkDecode s).shown .c32 fun r => .versioned r.1 r.2
  | .c32Address b v => (C32.c32Address b v).shown .c32 .text
  | .c32AddressDecode s => (C32.c32AddressDecode s).shown .c32 fun r => .versioned r.1 r.2
  | .addressFromStr s => (C32.addressFromStr s).shown .c32 .address
  | .hashP2sh m ks => (C32.hashP2sh m ks).shown id .hash160
  | .hashP2wsh m ks => (C32.hashP2wsh m ks).shown id .hash160
  | .b58Encode b => (B58.b58Encode b).shown .b58 .text
  | .b58Decode s => (B58.b58Decode s).shown .b58 .bytes
  | .base58checkEncode b v => (B58.base58checkEncode b v).shown .b58 .text
  | .base58checkDecode s => (B58.base58checkDecode s).shown .b58 fun r => .versioned r.1 r.2
  | .hash160New b => (Stacks.hash160New b).shown id .hash160
  | .signatureNew b => (HashValue.messageSigNew b).shown id .signature
  | .signatureFromSlice b => (messageSigFromSlice b).shown .hash .signature
  | .signatureFromRecov r => (messageSigFromRecov r).shown .hash .signature
  | .signatureIntoRecov s => (messageSigIntoRecov s).shown .hash .recoverable
  | .checksum h => (HashValue.checksum h).shown id .checksum
  | .nextSignature h typ fee nonce k => (Stacks.nextSignature h typ fee nonce k).shown .hash fun r => .signed r.1 r.2
  | .nextVerify h typ fee nonce s => (Stacks.nextVerify h typ fee nonce s).shown .hash fun r => .verified r.1 r.2
  | .encode v => v.encode.shown .clarity .bytes
  | .len v => v.len.shown .clarity .number
  | .hex v => v.hex.shown .clarity .text
  | .hexPrefixed v => v.hexPrefixed.shown .clarity .text
  | .cast k v => (v.cast k).shown .clarity (.content k)
  | .decode b => (Clarity.decode b).shown .clarity .value
  | .decodeAs k b => (Clarity.decodeKindVal k b).shown .clarity (.content k)
  | .encodeAsset a => a.encode.shown .clarity .bytes
  | .encodeCondition c => c.encode.shown .clarity .bytes
  | .encodeConditions cs => (postConditionsEncode cs).shown .clarity .bytes
  | .encodePayload p => p.encode.shown .clarity .bytes
  | .encodeSpending c => c.encode.shown .clarity .bytes
  | .encodeAuth a => a.encode.shown .clarity .bytes
  | .encodeTransaction t => t.encode.shown .clarity .bytes
  | .decodeTransfer b => (TokenTransfer.decode b).shown .clarity fun p => .payload (.tokenTransfer p)
  | .decodeCall b => (ContractCall.decode b).shown .clarity fun p => .payload (.contractCall p)
  | .decodePayload b => (Payload.decode b).shown .clarity .payload
  | .decodeUnwritten w b => w.outcome b
  | .newSingle k fee nonce mode => (SingleSig.new k fee nonce mode).shown id fun c => .spending (.single c)
  | .newMulti ks fee nonce m mode => (MultiSig.new ks fee nonce m mode).shown id fun c => .spending (.multi c)
  | .signatures c => c.signatures.shown id fun n => .number n.toNat
  | .modify c m => (c.modify m).shown .transaction .spending
  | .verifySpending c h typ => (c.verify h typ).shown .transaction .digest
  | .verifyAuth a h => (a.verify h).shown .transaction fun _ => .done
  | .verifyAuthOrigin a h => (a.verifyOrigin h).shown .transaction .digest
  | .sponsor a => a.sponsor.shown .transaction .spending
  | .setSponsor a c => (a.setSponsor c).shown .transaction .auth
  | .hash t => t.hash.shown .transaction .digest
  | .initialHash t => t.initialHash.shown .transaction .digest
  | .verifyOrigin t => t.verifyOrigin.shown .transaction .digest
  | .sign t k => (t.sign k).shown .transaction .transaction
  | .newSigner t => (Signer.new t).shown .transaction .signer
  | .newSponsor t c => (Signer.newSponsor t c).shown .transaction .signer
  | .signOrigin s k => (s.signOrigin k).shown .transaction .signer
  | .signSponsor s k => (s.signSponsor k).shown .transaction .signer
  | .appendOrigin s k => (s.appendOrigin k).shown .transaction .signer
  | .transfer b => b.transaction.shown id .transaction
  | .contractCall b => b.transaction.shown .clarity .transaction
  | .fromSecretKey s => (Wallet.StacksWallet.fromSecretKey s).shown .wallet .wallet
  | .getAccount w i => (w.getAccount i).1.shown .wallet fun a => .account a (w.getAccount i).2
  | .walletPrivateKey w => w.privateKey.shown .wallet .secretKey
  | .walletPublicKey w => w.publicKey.shown .wallet .publicKey
  | .getAddress a v => (a.getAddress v).shown .wallet .text
  | .accountPrivateKey a => a.privateKey.shown .wallet .secretKey
  | .accountPublicKey a => a.publicKey.shown .wallet .publicKey
  | .rpcInfo r server => (r.info server).result.shown .rpc .nodeInfo
  | .rpcAddress r server a => (r.address server a).result.shown .rpc .addressInfo
  | .rpcEstimateFee r server t => (r.estimateFee server t).result.shown .rpc .fee
  | .rpcBroadcast r server t => (r.broadcast server t).result.shown .rpc .broadcast
  | .rpcReadOnly r server a c f args sender => (r.readOnly server a c f args sender).result.shown .rpc .readOnly

end

end Stacks

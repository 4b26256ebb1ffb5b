import Verif.Model.Transaction

/-! # `stacks/src/rpc.rs`

HTTP (`ureq`), the text of JSON (`serde_json`) and floating point numbers are parameters of the
model (class `Http`). What `serde`'s derived deserializers accept is modelled on JSON values; the
details of its error messages are not. -/

namespace Stacks.Rpc
open Stacks.Tx Stacks.Clarity

/-- JSON values, as `serde_json` presents them to deserializers: numbers are natural numbers,
negative integers or floats. Objects keep order and repetitions. -/
inductive Json (F : Type) where
  | null
  | bool (b : Bool)
  | num (n : Nat)
  | neg (i : Int)
  | float (f : F)
  | str (s : Str)
  | arr (xs : List (Json F))
  | obj (es : List (Str × Json F))

/-- The parts of `ureq`, `serde_json` and the standard library used by rpc.rs.

* `Body` is a response body that has not been read;
* `intoString` is `ureq::Response::into_string`;
* `parseJson` is the first half of `ureq::Response::into_json`, reading a JSON value; the second
  half, building the Rust value, is `fromJson` below;
* `dataErr` is the error of `into_json` for a JSON value of the wrong shape;
* `f64OfNat` and `f64OfInt` are the conversions `as f64`. -/
class Http where
  Body : Type
  IoErr : Type
  Transport : Type
  F64 : Type
  intoString : Body → Except IoErr Str
  parseJson : Body → Except IoErr (Json F64)
  dataErr : IoErr
  f64OfNat : Nat → F64
  f64OfInt : Int → F64

section
variable [Http]

/-- `serde_json::Value`. -/
abbrev J := Json Http.F64

/-! ## Deserializers derived by `serde` -/

/-- `u64::deserialize`: integers in range only. -/
def asU64 : J → Option UInt64
  | .num n => if n < 2 ^ 64 then some (UInt64.ofNat n) else none
  | _ => none

/-- `u32::deserialize`: integers in range only. -/
def asU32 : J → Option UInt32
  | .num n => if n < 2 ^ 32 then some (UInt32.ofNat n) else none
  | _ => none

/-- `f64::deserialize`: every number. -/
def asF64 : J → Option Http.F64
  | .num n => some (Http.f64OfNat n)
  | .neg i => some (Http.f64OfInt i)
  | .float f => some f
  | _ => none

/-- `bool::deserialize`. -/
def asBool : J → Option Bool
  | .bool b => some b
  | _ => none

/-- `String::deserialize`. -/
def asStr : J → Option Str
  | .str s => some s
  | _ => none

/-- `Vec::<T>::deserialize`. -/
def asVec {α : Type} (f : J → Option α) : J → Option (List α)
  | .arr xs => xs.mapM f
  | _ => none

/-- The value of a field in an object: a missing or a repeated field is an error. -/
def fieldValue (es : List (Str × J)) (name : Str) : Option J :=
  match es.filter (fun e => e.1 == name) with
  | [e] => some e.2
  | _ => none

/-- The values of the fields of a struct in declaration order: from an object, where other fields
are ignored, or from an array of the right length. -/
def structFields (names : List Str) : J → Option (List J)
  | .obj es => names.mapM (fieldValue es)
  | .arr xs => if xs.length = names.length then some xs else none
  | _ => none

/-- rpc.rs:34-60 `struct NodeInfoResponse`. -/
structure NodeInfoResponse where
  peer_version : UInt64
  pox_consensus : Str
  burn_block_height : UInt64
  stable_pox_consensus : Str
  stable_burn_block_height : UInt64
  server_version : Str
  network_id : UInt32
  parent_network_id : UInt32
  stacks_tip_height : UInt64
  stacks_tip : Str
  stacks_tip_consensus_hash : Str
  genesis_chainstate_hash : Str

/-- rpc.rs:34 `#[derive(Deserialize)]` for `NodeInfoResponse`. -/
def NodeInfoResponse.fromJson (j : J) : Option NodeInfoResponse := do
  match ← structFields ["peer_version".toList, "pox_consensus".toList, "burn_block_height".toList,
      "stable_pox_consensus".toList, "stable_burn_block_height".toList, "server_version".toList,
      "network_id".toList, "parent_network_id".toList, "stacks_tip_height".toList, "stacks_tip".toList,
      "stacks_tip_consensus_hash".toList, "genesis_chainstate_hash".toList] j with
  | [a, b, c, d, e, f, g, h, i, k, l, m] =>
    pure ⟨← asU64 a, ← asStr b, ← asU64 c, ← asStr d, ← asU64 e, ← asStr f, ← asU32 g, ← asU32 h, ← asU64 i,
      ← asStr k, ← asStr l, ← asStr m⟩
  | _ => none

/-- rpc.rs:62-76 `struct AddressInfoResponse`. -/
structure AddressInfoResponse where
  balance : Str
  locked : Str
  unlock_height : UInt64
  nonce : UInt64
  balance_proof : Str
  nonce_proof : Str

/-- rpc.rs:62 `#[derive(Deserialize)]` for `AddressInfoResponse`. -/
def AddressInfoResponse.fromJson (j : J) : Option AddressInfoResponse := do
  match ← structFields ["balance".toList, "locked".toList, "unlock_height".toList, "nonce".toList,
      "balance_proof".toList, "nonce_proof".toList] j with
  | [a, b, c, d, e, f] => pure ⟨← asStr a, ← asStr b, ← asU64 c, ← asU64 d, ← asStr e, ← asStr f⟩
  | _ => none

/-- rpc.rs:100-106 `struct FeeEstimate`. -/
structure FeeEstimate where
  fee : UInt64
  fee_rate : Http.F64

/-- rpc.rs:100 `#[derive(Deserialize)]` for `FeeEstimate`. -/
def FeeEstimate.fromJson (j : J) : Option FeeEstimate := do
  match ← structFields ["fee".toList, "fee_rate".toList] j with
  | [a, b] => pure ⟨← asU64 a, ← asF64 b⟩
  | _ => none

/-- rpc.rs:93-97 `struct FeeOk`. -/
structure FeeOk where
  estimations : List FeeEstimate

/-- rpc.rs:93 `#[derive(Deserialize)]` for `FeeOk`. -/
def FeeOk.fromJson (j : J) : Option FeeOk := do
  match ← structFields ["estimations".toList] j with
  | [a] => pure ⟨← asVec FeeEstimate.fromJson a⟩
  | _ => none

/-- rpc.rs:79-90 `enum EstimateFeeResponse`. -/
inductive EstimateFeeResponse where
  | ok (r : FeeOk)
  | err (reason : Str)

/-- rpc.rs:132-140 `struct BroadcastErr`. -/
structure BroadcastErr where
  error : Str
  reason : Str
  txid : Str
deriving DecidableEq, Repr

/-- rpc.rs:132 `#[derive(Deserialize)]` for `BroadcastErr`. -/
def BroadcastErr.fromJson (j : J) : Option BroadcastErr := do
  match ← structFields ["error".toList, "reason".toList, "txid".toList] j with
  | [a, b, c] => pure ⟨← asStr a, ← asStr b, ← asStr c⟩
  | _ => none

/-- rpc.rs:142-146 `Display for BroadcastErr`. -/
def BroadcastErr.display (e : BroadcastErr) : Str :=
  "message: ".toList ++ e.error ++ ", reason: ".toList ++ e.reason

/-- rpc.rs:108-119 `enum BroadcastResponse`. -/
inductive BroadcastResponse where
  | ok (txid : Str)
  | err (e : BroadcastErr)
deriving DecidableEq, Repr

/-- rpc.rs:121-128 `Display for BroadcastResponse`. -/
def BroadcastResponse.display : BroadcastResponse → Str
  | .ok s => s
  | .err e => e.display

/-- rpc.rs:163-169 `struct ReadOnlyOk`. -/
structure ReadOnlyOk where
  okay : Bool
  result : Str
deriving DecidableEq, Repr

/-- rpc.rs:163 `#[derive(Deserialize)]` for `ReadOnlyOk`. -/
def ReadOnlyOk.fromJson (j : J) : Option ReadOnlyOk := do
  match ← structFields ["okay".toList, "result".toList] j with
  | [a, b] => pure ⟨← asBool a, ← asStr b⟩
  | _ => none

/-- rpc.rs:172-178 `struct ReadOnlyErr`. -/
structure ReadOnlyErr where
  okay : Bool
  cause : Str
deriving DecidableEq, Repr

/-- rpc.rs:172 `#[derive(Deserialize)]` for `ReadOnlyErr`. -/
def ReadOnlyErr.fromJson (j : J) : Option ReadOnlyErr := do
  match ← structFields ["okay".toList, "cause".toList] j with
  | [a, b] => pure ⟨← asBool a, ← asStr b⟩
  | _ => none

/-- rpc.rs:149-160 `enum ReadOnlyResponse`. -/
inductive ReadOnlyResponse where
  | ok (r : ReadOnlyOk)
  | err (r : ReadOnlyErr)
deriving DecidableEq, Repr

/-- rpc.rs:149-150 `#[derive(Deserialize)]` with `#[serde(untagged)]`: the variants are tried in
order. -/
def ReadOnlyResponse.fromJson (j : J) : Option ReadOnlyResponse :=
  match ReadOnlyOk.fromJson j with
  | some r => some (.ok r)
  | none =>
    match ReadOnlyErr.fromJson j with
    | some r => some (.err r)
    | none => none

/-! ## Requests -/

/-- The body of a request. -/
inductive Payload where
  /-- `call()` -/
  | empty
  /-- `send_json(value)` -/
  | json (j : J)
  /-- `send_bytes(bytes)` -/
  | bytes (bs : Bytes)

/-- What is handed to `ureq`: method, URL, headers set by the crate, body. -/
structure Request where
  method : Str
  url : Str
  headers : List (Str × Str)
  body : Payload

/-- What comes back: a response, or a failure to get one (bad URL, connection, ...). Redirects are
followed inside `ureq`. -/
inductive Reply where
  | response (status : Nat) (body : Http.Body)
  | transport (e : Http.Transport)

/-- `ureq::Error`. -/
inductive UreqError where
  | status (code : Nat) (body : Http.Body)
  | transport (e : Http.Transport)

/-- `Request::call` and its relatives: a status of 400 or more is an error. -/
def ureqResult : Reply → Except UreqError Http.Body
  | .response code body => if code ≥ 400 then .error (.status code body) else .ok body
  | .transport e => .error (.transport e)

/-- rpc.rs:19-31 `enum Error`. -/
inductive Error where
  | io (e : Http.IoErr)
  | ureq (e : UreqError)
  | clarity (e : Clarity.Error)

/-- `Response::into_json`. -/
def intoJson {α : Type} (fromJson : J → Option α) (body : Http.Body) : Outcome Error α :=
  match Http.parseJson body with
  | .error e => .err (.io e)
  | .ok j => Outcome.ofOption (.io Http.dataErr) (fromJson j)

/-- `Response::into_string`. -/
def intoString (body : Http.Body) : Outcome Error Str := ofExcept .io (Http.intoString body)

/-- A call of the API: the requests handed to `ureq`, in order, and the result. -/
structure Call (α : Type) where
  sent : List Request
  result : Outcome Error α

/-- rpc.rs:180-184 `struct StacksRPC` (rpc.rs:187-192 `new` stores the URL). -/
structure StacksRPC where
  url : Str

/-- rpc.rs:196-199 `StacksRPC::info`. -/
def StacksRPC.info (r : StacksRPC) (server : Request → Reply) : Call NodeInfoResponse :=
  let req : Request := ⟨"GET".toList, r.url ++ "/v2/info".toList, [], .empty⟩
  ⟨[req], do
    let body ← ofExcept .ureq (ureqResult (server req))
    intoJson NodeInfoResponse.fromJson body⟩

/-- rpc.rs:202-208 `StacksRPC::address`. -/
def StacksRPC.address (r : StacksRPC) (server : Request → Reply) (addr : Str) : Call AddressInfoResponse :=
  let req : Request := ⟨"GET".toList, r.url ++ "/v2/accounts/".toList ++ addr, [], .empty⟩
  ⟨[req], do
    let body ← ofExcept .ureq (ureqResult (server req))
    intoJson AddressInfoResponse.fromJson body⟩

variable [Secp] [Hashes]

/-- rpc.rs:213: the JSON value sent by `estimate_fee`. The order of the entries of an object is that
of the source; on the wire `serde_json` may order them by key, which does not matter to JSON. -/
def feeRequest (t : Transaction) : Outcome Error J := do
  let payload ← t.payload.encode.mapErr Error.clarity
  let bytes ← t.encode.mapErr Error.clarity
  pure (.obj [("transaction_payload".toList, .str (Hex.bytesToHex payload)),
    ("estimated_len".toList, .num bytes.length)])

/-- rpc.rs:211-225 `StacksRPC::estimate_fee`. -/
def StacksRPC.estimateFee (r : StacksRPC) (server : Request → Reply) (t : Transaction) :
    Call EstimateFeeResponse :=
  match feeRequest t with
  | .err e => ⟨[], .err e⟩
  | .panic => ⟨[], .panic⟩
  | .ok body =>
    let req : Request := ⟨"POST".toList, r.url ++ "/v2/fees/transaction".toList, [], .json body⟩
    ⟨[req],
      match ureqResult (server req) with
      | .ok res => do
        let ok ← intoJson FeeOk.fromJson res
        pure (.ok ok)
      | .error (.status _ res) => do
        let s ← intoString res
        pure (.err s)
      | .error err => .err (.ureq err)⟩

/-- rpc.rs:228-244 `StacksRPC::broadcast`. -/
def StacksRPC.broadcast (r : StacksRPC) (server : Request → Reply) (t : Transaction) : Call BroadcastResponse :=
  match t.encode.mapErr Error.clarity with
  | .err e => ⟨[], .err e⟩
  | .panic => ⟨[], .panic⟩
  | .ok bytes =>
    let req : Request := ⟨"POST".toList, r.url ++ "/v2/transactions".toList,
      [("Content-Type".toList, "application/octet-stream".toList)], .bytes bytes⟩
    ⟨[req],
      match ureqResult (server req) with
      | .ok res => do
        let s ← intoString res
        pure (.ok s)
      | .error (.status _ res) => do
        let err ← intoJson BroadcastErr.fromJson res
        pure (.err err)
      | .error err => .err (.ureq err)⟩

omit [Secp] in
/-- rpc.rs:261-264: the hex of every argument, or the first error. -/
def hexAll : List CV → Outcome Error (List Str)
  | [] => .ok []
  | a :: as => do
    let h ← a.hex.mapErr Error.clarity
    let hs ← hexAll as
    pure (h :: hs)

/-- rpc.rs:247-274 `StacksRPC::read_only`. For the order of entries see `feeRequest`. -/
def StacksRPC.readOnly (r : StacksRPC) (server : Request → Reply) (contractAddr contractName fnName : Str)
    (fnArgs : List CV) (sender : Str) : Call ReadOnlyResponse :=
  match hexAll fnArgs with
  | .err e => ⟨[], .err e⟩
  | .panic => ⟨[], .panic⟩
  | .ok arguments =>
    let req : Request := ⟨"POST".toList, r.url ++ "/v2/contracts/call-read/".toList ++ contractAddr ++
        "/".toList ++ contractName ++ "/".toList ++ fnName, [],
      .json (.obj [("sender".toList, .str sender), ("arguments".toList, .arr (arguments.map .str))])⟩
    ⟨[req], do
      let body ← ofExcept .ureq (ureqResult (server req))
      intoJson ReadOnlyResponse.fromJson body⟩

end

end Stacks.Rpc

import Verif.Model.Builder
import Verif.Spec.EndToEnd
import Verif.Spec.Hex

/-! # Payments through a node

A node with a state, and the program that uses the crate the way it is meant to be used: ask the node
for the nonce of the account, build, ask for the fee, set it, sign, broadcast. -/

namespace Stacks.Spec
open Stacks.Tx Stacks.Rpc

section
variable [Http] {L : Type}

/-- A node: it replies to a request and changes its state. -/
abbrev StatefulNode (L : Type) := L → Request → Reply × L

/-- A call of the API against a node in a state: the result, and the state after the requests. -/
def ask {α : Type} (node : StatefulNode L) (l : L) (call : (Request → Reply) → Call α) : Outcome Rpc.Error α × L :=
  ((call fun q => (node l q).1).result, (call fun q => (node l q).1).sent.foldl (fun l q => (node l q).2) l)

variable [Secp] [Hashes]

/-- What is wanted: a transfer of tokens or a contract call. -/
inductive Order where
  | transfer (b : STXTokenTransfer)
  | call (b : STXContractCall)

omit [Http] [Hashes] in
/-- The key that pays. -/
def Order.key : Order → Secp.SK
  | .transfer b => b.sender
  | .call b => b.sender

omit [Http] in
/-- The transaction built with a nonce. -/
def Order.build (nonce : UInt64) : Order → Outcome Clarity.Error Transaction
  | .transfer b => STXTokenTransfer.transaction { b with nonce := nonce }
  | .call b => STXContractCall.transaction { b with nonce := nonce }

/-- One payment: the nonce is the one the node says, the fee is one of those it estimates. The result is the
answer to the broadcast and the transaction. -/
def pay (r : StacksRPC) (node : StatefulNode L) (address : Str) (choice : Nat) (o : Order) (l : L) :
    Option (Str × Transaction) × L :=
  match ask node l (r.address · address) with
  | (.ok account, l) =>
    match o.build account.nonce with
    | .ok t =>
      match ask node l (r.estimateFee · t) with
      | (.ok (.ok fees), l) =>
        match fees.estimations[choice]? with
        | some e =>
          match (t.setFee e.fee).sign o.key with
          | .ok t =>
            match ask node l (r.broadcast · t) with
            | (.ok (.ok txid), l) => (some (txid, t), l)
            | (_, l) => (none, l)
          | _ => (none, l)
        | none => (none, l)
      | (_, l) => (none, l)
    | _ => (none, l)
  | (_, l) => (none, l)

/-- One payment after the other. -/
def payAll (r : StacksRPC) (node : StatefulNode L) (address : Str) (choice : Nat) :
    List Order → L → List (Option (Str × Transaction)) × L
  | [], l => ([], l)
  | o :: os, l =>
    let (x, l) := pay r node address choice o l
    let (xs, l) := payAll r node address choice os l
    (x :: xs, l)

omit [Http] [Hashes] in
/-- An order that can be carried out: not sponsored, with a payload and post-conditions that nodes accept. -/
def Acceptable : Order → Prop
  | .transfer b => b.sponsored = false ∧
      AcceptableBody b.postConditions (.tokenTransfer ⟨b.recipient, b.amount, b.memo⟩)
  | .call b => b.sponsored = false ∧ ∃ (hash : Arr 20) (v : UInt8), IsAddress b.address v hash.1 ∧
      AcceptableBody b.postConditions (.contractCall ⟨⟨hash, v⟩, b.contract, b.fnName, b.fnArgs⟩)

omit [Http] in
/-- A transaction is what was ordered, from the account of its key, with a nonce and a fee. -/
def Fulfils (o : Order) (nonce fee : UInt64) (tx : Transaction) : Prop :=
  (∃ c, tx.auth = .standard (.single c) ∧ c.mode = .p2pkh ∧ c.fee = fee ∧ c.nonce = nonce ∧
    c.signer = hash160Of (Secp.serialize (Secp.pub o.key)).1) ∧
  match o with
  | .transfer b => tx.version = b.network.version ∧ tx.chainId = b.network.chainId ∧ tx.anchorMode = b.anchorMode ∧
      tx.postConditionMode = b.postConditionMode ∧ tx.postConditions = b.postConditions ∧
      tx.payload = .tokenTransfer ⟨b.recipient, b.amount, paddedMemo b.memo⟩
  | .call b => tx.version = b.network.version ∧ tx.chainId = b.network.chainId ∧ tx.anchorMode = b.anchorMode ∧
      tx.postConditionMode = b.postConditionMode ∧ tx.postConditions = b.postConditions ∧
      ∃ (hash : Arr 20) (v : UInt8), IsAddress b.address v hash.1 ∧
        tx.payload = .contractCall ⟨⟨hash, v⟩, b.contract, b.fnName, b.fnArgs⟩

/-- An honest node, as far as one account is concerned. `accepted` are the transactions of this account that
it has accepted in a state, `quotes` are the fees it asks for a payload, in hex, and a length; what it does
for others does not matter. -/
structure Honest (parse : Arr 33 → Option Secp.PK) (url : Str) (signer : Arr 20) (quotes : Str → Nat → List UInt64)
    (node : StatefulNode L) (accepted : L → List Transaction) : Prop where
  /-- Asked for the account it says how many transactions there were. -/
  account : ∀ l s v (n : UInt64), IsAddress s v signer.1 → n.toNat = (accepted l).length →
    ∃ code body j i, (node l (accountRequest url s)).1 = .response code body ∧ code < 400 ∧
      Http.parseJson body = .ok j ∧ IsAddressInfo j i ∧ i.nonce = n
  /-- Asked for fees it says them. -/
  fees : ∀ l hex n, ∃ code body j f, (node l (feeQuestion url hex n)).1 = .response code body ∧ code < 400 ∧
    Http.parseJson body = .ok j ∧ IsFeeOk j f ∧ f.estimations.map (·.fee) = quotes hex n
  /-- Questions change nothing. -/
  account_state : ∀ l s, accepted (node l (accountRequest url s)).2 = accepted l
  fees_state : ∀ l hex n, accepted (node l (feeQuestion url hex n)).2 = accepted l
  /-- A valid transaction of the account with the next nonce is accepted, and its identifier is the reply. -/
  broadcast : ∀ l bs t c, NodeAccepts parse bs → (readTransaction parse).run bs = some (t, []) →
    t.auth = .standard c → signerOf c = signer → c.nonce.toNat = (accepted l).length →
    (∃ code body, (node l (broadcastRequest url bs)).1 = .response code body ∧ code < 400 ∧
      Http.intoString body = .ok (hexText (Hashes.sha512_256 bs).1)) ∧
    accepted (node l (broadcastRequest url bs)).2 = accepted l ++ [t]

/-- A payment came through: the node gave out the identifier that the caller's own copy of the transaction
has; the transaction is what was ordered; its fee is the one the node had asked for exactly its payload and
the number of bytes that were then sent. -/
def CameThrough (parse : Arr 33 → Option Secp.PK) (quotes : Str → Nat → List UInt64) (choice : Nat) (o : Order)
    (nonce : UInt64) (x : Option (Str × Transaction)) (tx : Transaction) : Prop :=
  ∃ txid t bs id hex p fee, x = some (txid, t) ∧ t.encode = .ok bs ∧ t.hash = .ok id ∧ txid = hexText id.1 ∧
    NodeAccepts parse bs ∧ (readTransaction parse).run bs = some (tx, []) ∧ Fulfils o nonce fee tx ∧
    hexBytes? hex = some (p.map UInt8.toNat) ∧ p <:+ bs ∧ readPayload.run p = some (tx.payload, []) ∧
    (quotes hex bs.length)[choice]? = some fee

/-- Payments came through one after the other, with consecutive nonces. -/
inductive AllCameThrough (parse : Arr 33 → Option Secp.PK) (quotes : Str → Nat → List UInt64) (choice : Nat) :
    Nat → List Order → List (Option (Str × Transaction)) → List Transaction → Prop
  | nil {n} : AllCameThrough parse quotes choice n [] [] []
  | cons {n : Nat} {nonce : UInt64} {o os x xs tx txs} : nonce.toNat = n →
      CameThrough parse quotes choice o nonce x tx → AllCameThrough parse quotes choice (n + 1) os xs txs →
      AllCameThrough parse quotes choice n (o :: os) (x :: xs) (tx :: txs)

/-! ## Accounts of several keys -/

/-- One payment of an account of several keys: as for one key, and then all participants in turn. The transaction
is the given one but for its authorization. -/
def payTogether (r : StacksRPC) (node : StatefulNode L) (address : Str) (choice : Nat) (ps : List Participant) (m : UInt8)
    (mode : C32.Mode) (order : Transaction) (l : L) : Option (Str × Transaction) × L :=
  match ask node l (r.address · address) with
  | (.ok account, l) =>
    match (MultiSig.new (ps.map Participant.key) 0 account.nonce m mode : Outcome TxError MultiSig) with
    | .ok c =>
      match ask node l (r.estimateFee · { order with auth := .standard (.multi c) }) with
      | (.ok (.ok fees), l) =>
        match fees.estimations[choice]? with
        | some e =>
          match Signer.new (Transaction.setFee { order with auth := .standard (.multi c) } e.fee) >>=
              fun s => walk s ps with
          | .ok s =>
            match ask node l (r.broadcast · s.tx) with
            | (.ok (.ok txid), l) => (some (txid, s.tx), l)
            | (_, l) => (none, l)
          | _ => (none, l)
        | none => (none, l)
      | (_, l) => (none, l)
    | _ => (none, l)
  | (_, l) => (none, l)

/-- A payment of several keys came through, but the fee was quoted for fewer bytes than were sent: 66 for each
signature and 34 for each key without one are missing. -/
def CameThroughTogether (parse : Arr 33 → Option Secp.PK) (quotes : Str → Nat → List UInt64) (choice : Nat)
    (ps : List Participant) (m : UInt8) (signer : Arr 20) (order : Transaction)
    (nonce : UInt64) (x : Option (Str × Transaction)) (tx : Transaction) : Prop :=
  ∃ txid t bs id hex p fee quoted, x = some (txid, t) ∧ t.encode = .ok bs ∧ t.hash = .ok id ∧
    txid = hexText id.1 ∧ NodeAccepts parse bs ∧ (readTransaction parse).run bs = some (tx, []) ∧
    (∃ c, tx.auth = .standard (.multi c) ∧ c.signer = signer ∧ c.nonce = nonce ∧ c.fee = fee ∧ c.required = m ∧
      tx = { order with auth := tx.auth, payload := readBack order.payload }) ∧
    hexBytes? hex = some (p.map UInt8.toNat) ∧ p <:+ bs ∧ readPayload.run p = some (tx.payload, []) ∧
    (quotes hex quoted)[choice]? = some fee ∧
    bs.length = quoted + 66 * m.toNat + 34 * (ps.length - m.toNat)

/-- One payment of several keys after the other; who signs may change. -/
def payTogetherAll (r : StacksRPC) (node : StatefulNode L) (address : Str) (choice : Nat) (m : UInt8) (mode : C32.Mode) :
    List (List Participant × Transaction) → L → List (Option (Str × Transaction)) × L
  | [], l => ([], l)
  | (ps, o) :: os, l =>
    let (x, l) := payTogether r node address choice ps m mode o l
    let (xs, l) := payTogetherAll r node address choice m mode os l
    (x :: xs, l)

/-- Payments of several keys came through one after the other, with consecutive nonces. -/
inductive AllCameThroughTogether (parse : Arr 33 → Option Secp.PK) (quotes : Str → Nat → List UInt64) (choice : Nat)
    (m : UInt8) (signer : Arr 20) :
    Nat → List (List Participant × Transaction) → List (Option (Str × Transaction)) → List Transaction → Prop
  | nil {n} : AllCameThroughTogether parse quotes choice m signer n [] [] []
  | cons {n : Nat} {nonce : UInt64} {ps o os x xs tx txs} : nonce.toNat = n →
      CameThroughTogether parse quotes choice ps m signer o nonce x tx →
      AllCameThroughTogether parse quotes choice m signer (n + 1) os xs txs →
      AllCameThroughTogether parse quotes choice m signer n ((ps, o) :: os) (x :: xs) (tx :: txs)

end

end Stacks.Spec

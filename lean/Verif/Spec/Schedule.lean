import Verif.Spec.Hex
import Verif.Spec.Payments

/-! # Several programs, one node, any schedule

Programs that pay through the same node, each in three requests, run in any order. A program can be stopped at any
point and started again, the answer to any request can get lost, and a broadcast can reach the node late, more than
once, or never. -/

namespace Stacks.Spec
open Stacks.Tx Stacks.Rpc

section
variable [Http] [Secp] [Hashes] {L ι : Type}

/-- A program: one order, from an address, with a choice among the fees the node offers. -/
structure Program where
  address : Str
  choice : Nat
  order : Order

/-- How far a program is: nothing known, nonce known, transaction signed, broadcast answered. -/
inductive Stage where
  | start
  | numbered (nonce : UInt64)
  | ready (t : Transaction)
  | answered (t : Transaction) (x : Outcome Rpc.Error BroadcastResponse)
  | failed

/-- The next request of a program and what it does with the answer. -/
def advance (r : StacksRPC) (node : StatefulNode L) (p : Program) (s : Stage) (l : L) : Stage × L :=
  match s with
  | .start =>
    match ask node l (r.address · p.address) with
    | (.ok account, l) => (.numbered account.nonce, l)
    | (_, l) => (.failed, l)
  | .numbered nonce =>
    match p.order.build nonce with
    | .ok t =>
      match ask node l (r.estimateFee · t) with
      | (.ok (.ok fees), l) =>
        match fees.estimations[p.choice]? with
        | some e =>
          match (t.setFee e.fee).sign p.order.key with
          | .ok t => (.ready t, l)
          | _ => (.failed, l)
        | none => (.failed, l)
      | (_, l) => (.failed, l)
    | _ => (.failed, l)
  | .ready t =>
    match ask node l (r.broadcast · t) with
    | (x, l) => (.answered t x, l)
  | s => (s, l)

/-- What can happen: a program makes its next request and gets the answer; it makes the request but the answer is
lost, so that it will make the same request again; it makes the request, which does not arrive for now, and gets no
answer; a broadcast that did not arrive then arrives now, and may do so again; a program is stopped and starts from the
beginning. -/
inductive Event (ι : Type) where
  | step (i : ι)
  | lose (i : ι)
  | delay (i : ι)
  | arrive (k : Nat)
  | restart (i : ι)

/-- The stages of all programs, the state of the node, and the broadcasts on their way. -/
structure World (L ι : Type) [Secp] [Http] where
  stage : ι → Stage
  node : L
  way : List (ι × Transaction) := []

omit [Hashes] in
/-- Program `i` is at stage `s`. -/
def World.put [DecidableEq ι] (w : World L ι) (i : ι) (s : Stage) : World L ι :=
  { w with stage := fun j => if j = i then s else w.stage j }

/-- One event. -/
def World.next [DecidableEq ι] (r : StacksRPC) (node : StatefulNode L) (programs : ι → Program) (w : World L ι) :
    Event ι → World L ι
  | .step i =>
    let (s, l) := advance r node (programs i) (w.stage i) w.node
    { w.put i s with node := l }
  | .lose i => { w with node := (advance r node (programs i) (w.stage i) w.node).2 }
  | .delay i =>
    match w.stage i with
    | .ready t => { w with way := w.way ++ [(i, t)] }
    | _ => w
  | .arrive k =>
    match w.way[k]? with
    | some (_, t) => { w with node := (ask node w.node (r.broadcast · t)).2 }
    | none => w
  | .restart i => w.put i .start

/-- A schedule. -/
def World.run [DecidableEq ι] (r : StacksRPC) (node : StatefulNode L) (programs : ι → Program) (w : World L ι)
    (es : List (Event ι)) : World L ι := es.foldl (World.next r node programs) w

omit [Http] [Hashes] in
/-- A transaction that an account pays for. -/
def isOf (signer : Arr 20) (t : Transaction) : Bool :=
  match t.auth with
  | .standard c => decide (signerOf c = signer)
  | .sponsored _ _ => false

omit [Http] [Hashes] in
/-- The number of transactions of an account. -/
def countOf (signer : Arr 20) (ts : List Transaction) : Nat := ts.countP (isOf signer)

omit [Http] [Hashes] in
/-- The nonce of each transaction is the number of earlier ones of its account. -/
def Numbered (ts : List Transaction) : Prop :=
  ∀ pre t post c, ts = pre ++ t :: post → t.auth = .standard c → c.nonce.toNat = countOf (signerOf c) pre

/-- A node that serves all accounts and goes by their nonces. -/
structure Strict (parse : Arr 33 → Option Secp.PK) (url : Str) (quotes : Str → Nat → List UInt64)
    (node : StatefulNode L) (accepted : L → List Transaction) : Prop where
  /-- Asked for an account it says how many transactions there were. -/
  account : ∀ l s signer v (n : UInt64), IsAddress s v signer.1 →
    n.toNat = countOf signer (accepted l) →
    ∃ code body j i, (node l (accountRequest url s)).1 = .response code body ∧ code < 400 ∧
      Http.parseJson body = .ok j ∧ IsAddressInfo j i ∧ i.nonce = n
  /-- Asked for fees it says them. -/
  fees : ∀ l hex n, ∃ code body j f, (node l (feeQuestion url hex n)).1 = .response code body ∧ code < 400 ∧
    Http.parseJson body = .ok j ∧ IsFeeOk j f ∧ f.estimations.map (·.fee) = quotes hex n
  /-- Questions change nothing. -/
  account_state : ∀ l s, accepted (node l (accountRequest url s)).2 = accepted l
  fees_state : ∀ l hex n, accepted (node l (feeQuestion url hex n)).2 = accepted l
  /-- A valid transaction with the next nonce of its account is accepted, and its identifier is the reply. -/
  accept : ∀ l bs t c, NodeAccepts parse bs → (readTransaction parse).run bs = some (t, []) →
    t.auth = .standard c → c.nonce.toNat = countOf (signerOf c) (accepted l) →
    (∃ code body, (node l (broadcastRequest url bs)).1 = .response code body ∧ code < 400 ∧
      Http.intoString body = .ok (hexText (Hashes.sha512_256 bs).1)) ∧
    accepted (node l (broadcastRequest url bs)).2 = accepted l ++ [t]
  /-- One with another nonce is refused. -/
  refuse : ∀ l bs t c, NodeAccepts parse bs → (readTransaction parse).run bs = some (t, []) →
    t.auth = .standard c → c.nonce.toNat ≠ countOf (signerOf c) (accepted l) →
    (∃ code body j e, (node l (broadcastRequest url bs)).1 = .response code body ∧ 400 ≤ code ∧
      Http.parseJson body = .ok j ∧ IsBroadcastErr j e) ∧
    accepted (node l (broadcastRequest url bs)).2 = accepted l

omit [Http] in
/-- The account of the key of an order. -/
def Order.signer (o : Order) : Arr 20 := hash160Of (Secp.serialize (Secp.pub o.key)).1

omit [Http] in
/-- A signed transaction `t`, with its identifier and bytes, as the node reads it (`tx`): what was ordered, with a
nonce, and with the fee the node asks for exactly these bytes. -/
def Prepared (parse : Arr 33 → Option Secp.PK) (quotes : Str → Nat → List UInt64) (p : Program) (nonce : UInt64)
    (t : Transaction) (id : Str) (tx : Transaction) : Prop :=
  ∃ bs h hex q fee, t.encode = .ok bs ∧ t.hash = .ok h ∧ id = hexText h.1 ∧
    NodeAccepts parse bs ∧ (readTransaction parse).run bs = some (tx, []) ∧ Fulfils p.order nonce fee tx ∧
    hexBytes? hex = some (q.map UInt8.toNat) ∧ q <:+ bs ∧ readPayload.run q = some (tx.payload, []) ∧
    (quotes hex bs.length)[p.choice]? = some fee

/-- Programs that can pay: acceptable orders, the address of the account that pays, a fee among those offered. -/
def CanPay (quotes : Str → Nat → List UInt64) (p : Program) : Prop :=
  Acceptable p.order ∧ (∃ v, IsAddress p.address v p.order.signer.1) ∧
    ∀ hex n, p.choice < (quotes hex n).length

/-- What a program holds is right, after `txs` were accepted: a signed transaction is what was ordered; an answer is
either its identifier, and then it is among those accepted, or a refusal. No request fails otherwise. -/
def Reliable (parse : Arr 33 → Option Secp.PK) (quotes : Str → Nat → List UInt64) (p : Program)
    (txs : List Transaction) : Stage → Prop
  | .start | .numbered _ => True
  | .ready t => ∃ n id tx, Prepared parse quotes p n t id tx
  | .answered t x => ∃ n id tx, Prepared parse quotes p n t id tx ∧
      (x = .ok (.ok id) ∧ tx ∈ txs ∨ ∃ e, x = .ok (.err e))
  | .failed => False

end

end Stacks.Spec

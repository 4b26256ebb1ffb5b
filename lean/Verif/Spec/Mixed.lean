import Verif.Spec.Schedule
import Verif.Spec.Sponsored

/-! # Payments of all kinds, one node, any schedule

As in `Spec/Schedule`, but a program can pay from an account of one key, from an account of several keys, or have its
fee paid by a sponsor, and the node counts for each account the transactions it takes part in. -/

namespace Stacks.Spec
open Stacks.Tx Stacks.Rpc

section
variable [Http] [Secp] [Hashes] {L ι : Type}

/-- What a program wants paid, and by whom. -/
inductive Plan where
  | alone (address : Str) (choice : Nat) (order : Order)
  | together (address : Str) (choice : Nat) (ps : List Participant) (m : UInt8) (mode : C32.Mode) (order : Transaction)
  | sponsored (choice : Nat) (o : SponsoredOrder)

omit [Http] [Hashes] in
/-- Which of the offered fees it takes. -/
def Plan.choice : Plan → Nat
  | .alone _ choice _ => choice
  | .together _ choice .. => choice
  | .sponsored choice _ => choice

omit [Http] [Hashes] in
/-- The addresses it asks the node about. -/
def Plan.addresses : Plan → List Str
  | .alone address .. => [address]
  | .together address .. => [address]
  | .sponsored _ o => [o.originAddress, o.sponsorAddress]

omit [Http] in
/-- The accounts of its keys. -/
def Plan.accounts : Plan → List (Arr 20)
  | .alone _ _ order => [order.signer]
  | .together _ _ ps m mode _ => (bitcoinSigner mode m.toNat (ps.map Participant.key)).toList
  | .sponsored _ o => [accountOf o.origin, accountOf o.sponsor]

/-- How far a program is: some nonces known, transaction signed, broadcast answered. -/
inductive Progress where
  | knows (nonces : List UInt64)
  | ready (t : Transaction)
  | answered (t : Transaction) (x : Outcome Rpc.Error BroadcastResponse)
  | failed

/-- All nonces known, the program asks for the fee and signs. -/
def Plan.prepare (r : StacksRPC) (node : StatefulNode L) (p : Plan) (ns : List UInt64) (l : L) : Progress × L :=
  match p, ns with
  | .alone _ choice order, [nonce] =>
    match order.build nonce with
    | .ok t =>
      match ask node l (r.estimateFee · t) with
      | (.ok (.ok fees), l) =>
        match fees.estimations[choice]? with
        | some e =>
          match (t.setFee e.fee).sign order.key with
          | .ok t => (.ready t, l)
          | _ => (.failed, l)
        | none => (.failed, l)
      | (_, l) => (.failed, l)
    | _ => (.failed, l)
  | .together _ choice ps m mode order, [nonce] =>
    match (MultiSig.new (ps.map Participant.key) 0 nonce m mode : Outcome TxError MultiSig) with
    | .ok c =>
      match ask node l (r.estimateFee · { order with auth := .standard (.multi c) }) with
      | (.ok (.ok fees), l) =>
        match fees.estimations[choice]? with
        | some e =>
          match Signer.new (Transaction.setFee { order with auth := .standard (.multi c) } e.fee) >>=
              fun s => walk s ps with
          | .ok s => (.ready s.tx, l)
          | _ => (.failed, l)
        | none => (.failed, l)
      | (_, l) => (.failed, l)
    | _ => (.failed, l)
  | .sponsored choice o, [nonce, nonce'] =>
    match (SingleSig.new (Secp.pub o.origin) 0 nonce .p2pkh : Outcome TxError SingleSig),
        (SingleSig.new (Secp.pub o.sponsor) 0 nonce' .p2pkh : Outcome TxError SingleSig) with
    | .ok c, .ok d =>
      match Transaction.sign { o.order with auth := .sponsored (.single c) (.single d) } o.origin with
      | .ok t =>
        match ask node l (r.estimateFee · t) with
        | (.ok (.ok fees), l) =>
          match fees.estimations[choice]? with
          | some e =>
            match (SingleSig.new (Secp.pub o.sponsor) e.fee nonce' .p2pkh : Outcome TxError SingleSig) with
            | .ok d =>
              match Signer.newSponsor t (.single d) >>= fun s => s.signSponsor o.sponsor with
              | .ok s => (.ready s.tx, l)
              | _ => (.failed, l)
            | _ => (.failed, l)
          | none => (.failed, l)
        | (_, l) => (.failed, l)
      | _ => (.failed, l)
    | _, _ => (.failed, l)
  | _, _ => (.failed, l)

/-- The next request of a program and what it does with the answer. -/
def Plan.proceed (r : StacksRPC) (node : StatefulNode L) (p : Plan) (s : Progress) (l : L) : Progress × L :=
  match s with
  | .knows ns =>
    match p.addresses[ns.length]? with
    | some address =>
      match ask node l (r.address · address) with
      | (.ok account, l) => (.knows (ns ++ [account.nonce]), l)
      | (_, l) => (.failed, l)
    | none => p.prepare r node ns l
  | .ready t =>
    match ask node l (r.broadcast · t) with
    | (x, l) => (.answered t x, l)
  | s => (s, l)

/-- How far all programs are, the state of the node, and the broadcasts on their way. -/
structure Scene (L ι : Type) [Secp] [Http] where
  progress : ι → Progress
  node : L
  way : List (ι × Transaction) := []

omit [Hashes] in
/-- Program `i` is at `s`. -/
def Scene.put [DecidableEq ι] (w : Scene L ι) (i : ι) (s : Progress) : Scene L ι :=
  { w with progress := fun j => if j = i then s else w.progress j }

/-- One event. -/
def Scene.next [DecidableEq ι] (r : StacksRPC) (node : StatefulNode L) (plans : ι → Plan) (w : Scene L ι) :
    Event ι → Scene L ι
  | .step i =>
    let (s, l) := (plans i).proceed r node (w.progress i) w.node
    { w.put i s with node := l }
  | .lose i => { w with node := ((plans i).proceed r node (w.progress i) w.node).2 }
  | .delay i =>
    match w.progress i with
    | .ready t => { w with way := w.way ++ [(i, t)] }
    | _ => w
  | .arrive k =>
    match w.way[k]? with
    | some (_, t) => { w with node := (ask node w.node (r.broadcast · t)).2 }
    | none => w
  | .restart i => w.put i (.knows [])

/-- A schedule. -/
def Scene.run [DecidableEq ι] (r : StacksRPC) (node : StatefulNode L) (plans : ι → Plan) (w : Scene L ι)
    (es : List (Event ι)) : Scene L ι := es.foldl (Scene.next r node plans) w

omit [Http] [Hashes] in
/-- The number of transactions an account took part in, as origin or as sponsor. -/
def parts (account : Arr 20) (ts : List Transaction) : Nat :=
  ts.countP fun t => decide (account ∈ (takingPart t.auth).map Prod.fst)

omit [Http] [Hashes] in
/-- In each transaction the nonce of each account is the number of earlier ones it took part in. -/
def AllNumbered (ts : List Transaction) : Prop :=
  ∀ pre t post, ts = pre ++ t :: post → ∀ x ∈ takingPart t.auth, x.2.toNat = parts x.1 pre

/-- A node that serves all accounts and goes by the nonces of all that take part. -/
structure Fair (parse : Arr 33 → Option Secp.PK) (url : Str) (quotes : Str → Nat → List UInt64)
    (node : StatefulNode L) (accepted : L → List Transaction) : Prop where
  /-- Asked for an account it says how many transactions there were. -/
  account : ∀ l s signer v (n : UInt64), IsAddress s v signer.1 → n.toNat = parts signer (accepted l) →
    ∃ code body j i, (node l (accountRequest url s)).1 = .response code body ∧ code < 400 ∧
      Http.parseJson body = .ok j ∧ IsAddressInfo j i ∧ i.nonce = n
  /-- Asked for fees it says them. -/
  fees : ∀ l hex n, ∃ code body j f, (node l (feeQuestion url hex n)).1 = .response code body ∧ code < 400 ∧
    Http.parseJson body = .ok j ∧ IsFeeOk j f ∧ f.estimations.map (·.fee) = quotes hex n
  /-- Questions change nothing. -/
  account_state : ∀ l s, accepted (node l (accountRequest url s)).2 = accepted l
  fees_state : ∀ l hex n, accepted (node l (feeQuestion url hex n)).2 = accepted l
  /-- A valid transaction of different accounts in which all nonces are the next ones is accepted, and its identifier is
  the reply. -/
  accept : ∀ l bs t, NodeAccepts parse bs → (readTransaction parse).run bs = some (t, []) →
    ((takingPart t.auth).map Prod.fst).Nodup → (∀ x ∈ takingPart t.auth, x.2.toNat = parts x.1 (accepted l)) →
    (∃ code body, (node l (broadcastRequest url bs)).1 = .response code body ∧ code < 400 ∧
      Http.intoString body = .ok (hexText (Hashes.sha512_256 bs).1)) ∧
    accepted (node l (broadcastRequest url bs)).2 = accepted l ++ [t]
  /-- One with another nonce is refused. -/
  refuse : ∀ l bs t, NodeAccepts parse bs → (readTransaction parse).run bs = some (t, []) →
    (∃ x ∈ takingPart t.auth, x.2.toNat ≠ parts x.1 (accepted l)) →
    (∃ code body j e, (node l (broadcastRequest url bs)).1 = .response code body ∧ 400 ≤ code ∧
      Http.parseJson body = .ok j ∧ IsBroadcastErr j e) ∧
    accepted (node l (broadcastRequest url bs)).2 = accepted l

omit [Http] in
/-- A transaction is what was planned, with nonces and a fee. -/
def Plan.Fulfilled (p : Plan) (ns : List UInt64) (fee : UInt64) (tx : Transaction) : Prop :=
  match p with
  | .alone _ _ order => ∃ n, ns = [n] ∧ Fulfils order n fee tx
  | .together _ _ ps m mode order => ∃ n c, ns = [n] ∧ c.mode = mode ∧
      bitcoinSigner mode m.toNat (ps.map Participant.key) = some c.signer ∧ c.nonce = n ∧ c.fee = fee ∧ c.required = m ∧
      tx = { order with auth := .standard (.multi c), payload := readBack order.payload }
  | .sponsored _ o => ∃ n n' c d, ns = [n, n'] ∧
      c.mode = .p2pkh ∧ c.signer = accountOf o.origin ∧ c.nonce = n ∧ c.fee = 0 ∧
      d.mode = .p2pkh ∧ d.signer = accountOf o.sponsor ∧ d.nonce = n' ∧ d.fee = fee ∧
      tx = { o.order with auth := .sponsored (.single c) (.single d), payload := readBack o.order.payload }

omit [Http] [Hashes] in
/-- The bytes that are sent but were not there when the fee was asked for: the signatures and keys of an account of
several keys. -/
def Plan.unquoted : Plan → Nat
  | .together _ _ ps m _ _ => 66 * m.toNat + 34 * (ps.length - m.toNat)
  | _ => 0

omit [Http] in
/-- A signed transaction `t`, with its identifier and bytes, as the node reads it (`tx`): what was planned, with
nonces, and with the fee the node asks for these bytes, but for the unquoted ones. -/
def Plan.Prepared (parse : Arr 33 → Option Secp.PK) (quotes : Str → Nat → List UInt64) (p : Plan) (ns : List UInt64)
    (t : Transaction) (id : Str) (tx : Transaction) : Prop :=
  ∃ bs h hex q fee quoted, t.encode = .ok bs ∧ t.hash = .ok h ∧ id = hexText h.1 ∧
    NodeAccepts parse bs ∧ (readTransaction parse).run bs = some (tx, []) ∧ p.Fulfilled ns fee tx ∧
    hexBytes? hex = some (q.map UInt8.toNat) ∧ q <:+ bs ∧ readPayload.run q = some (tx.payload, []) ∧
    (quotes hex quoted)[p.choice]? = some fee ∧ bs.length = quoted + p.unquoted

omit [Http] in
/-- The nonces are the next ones of the accounts. -/
def Plan.Next (p : Plan) (ns : List UInt64) (ts : List Transaction) : Prop :=
  ns.map UInt64.toNat = p.accounts.map (parts · ts)

omit [Http] in
/-- Plans that can be carried out: acceptable orders, the addresses of the accounts that pay, a fee among those
offered. -/
def Plan.CanPay (quotes : Str → Nat → List UInt64) (p : Plan) : Prop :=
  (∀ hex n, p.choice < (quotes hex n).length) ∧
  match p with
  | .alone address _ order => Acceptable order ∧ ∃ v, IsAddress address v order.signer.1
  | .together address _ ps m mode order => AcceptableBody order.postConditions order.payload ∧
      ps.countP Participant.isSigner = m.toNat ∧ 1 ≤ m.toNat ∧ ps.length ≤ 16 ∧
      ∃ signer v, bitcoinSigner mode m.toNat (ps.map Participant.key) = some signer ∧ IsAddress address v signer.1
  | .sponsored _ o => o.Acceptable

/-- What a program holds is right, after `txs` were accepted: a signed transaction is what was planned; an answer is
either its identifier, and then it is among those accepted, or a refusal. No request fails otherwise. -/
def Plan.Reliable (parse : Arr 33 → Option Secp.PK) (quotes : Str → Nat → List UInt64) (p : Plan)
    (txs : List Transaction) : Progress → Prop
  | .knows ns => ns.length ≤ p.accounts.length
  | .ready t => ∃ ns id tx, p.Prepared parse quotes ns t id tx
  | .answered t x => ∃ ns id tx, p.Prepared parse quotes ns t id tx ∧
      (x = .ok (.ok id) ∧ tx ∈ txs ∨ ∃ e, x = .ok (.err e))
  | .failed => False

end

end Stacks.Spec

import Verif.Spec.Hex
import Verif.Spec.Payments

/-! # Sponsored payments through a node

One account orders and signs, another one pays the fee. -/

namespace Stacks.Spec
open Stacks.Tx Stacks.Rpc

section
variable [Http] [Secp] [Hashes] {L : Type}

omit [Http] [Hashes] in
/-- The accounts that take part in a transaction, each with its nonce. -/
def takingPart : Auth → List (Arr 20 × UInt64)
  | .standard o => [(signerOf o, o.nonce)]
  | .sponsored o p => [(signerOf o, o.nonce), (signerOf p, p.nonce)]

/-- A node that counts for each account the transactions it took part in, as origin or as sponsor. -/
structure Counting (parse : Arr 33 → Option Secp.PK) (url : Str) (quotes : Str → Nat → List UInt64)
    (node : StatefulNode L) (accepted : L → List Transaction) (count : L → Arr 20 → Nat) : Prop where
  /-- Asked for an account it says how many transactions there were. -/
  account : ∀ l s signer v (n : UInt64), IsAddress s v signer.1 → n.toNat = count l signer →
    ∃ code body j i, (node l (accountRequest url s)).1 = .response code body ∧ code < 400 ∧
      Http.parseJson body = .ok j ∧ IsAddressInfo j i ∧ i.nonce = n
  /-- Asked for fees it says them. -/
  fees : ∀ l hex n, ∃ code body j f, (node l (feeQuestion url hex n)).1 = .response code body ∧ code < 400 ∧
    Http.parseJson body = .ok j ∧ IsFeeOk j f ∧ f.estimations.map (·.fee) = quotes hex n
  /-- Questions change nothing. -/
  account_state : ∀ l s, accepted (node l (accountRequest url s)).2 = accepted l ∧
    count (node l (accountRequest url s)).2 = count l
  fees_state : ∀ l hex n, accepted (node l (feeQuestion url hex n)).2 = accepted l ∧
    count (node l (feeQuestion url hex n)).2 = count l
  /-- A valid transaction of different accounts in which all nonces are the next ones is accepted, and its identifier is
  the reply. -/
  broadcast : ∀ l bs t, NodeAccepts parse bs → (readTransaction parse).run bs = some (t, []) →
    ((takingPart t.auth).map Prod.fst).Nodup → (∀ x ∈ takingPart t.auth, x.2.toNat = count l x.1) →
    (∃ code body, (node l (broadcastRequest url bs)).1 = .response code body ∧ code < 400 ∧
      Http.intoString body = .ok (hexText (Hashes.sha512_256 bs).1)) ∧
    accepted (node l (broadcastRequest url bs)).2 = accepted l ++ [t] ∧
    ∀ s, count (node l (broadcastRequest url bs)).2 s =
      count l s + if s ∈ (takingPart t.auth).map Prod.fst then 1 else 0

/-- What is wanted: everything but the authorization of a transaction, and who orders and who pays for it. -/
structure SponsoredOrder where
  order : Transaction
  origin : Secp.SK
  originAddress : Str
  sponsor : Secp.SK
  sponsorAddress : Str

/-- One sponsored payment: ask for both nonces, let the origin sign, ask for the fee, let the sponsor sign. -/
def paySponsored (r : StacksRPC) (node : StatefulNode L) (choice : Nat) (o : SponsoredOrder) (l : L) :
    Option (Str × Transaction) × L :=
  match ask node l (r.address · o.originAddress) with
  | (.ok account, l) =>
    match ask node l (r.address · o.sponsorAddress) with
    | (.ok account', l) =>
      match (SingleSig.new (Secp.pub o.origin) 0 account.nonce .p2pkh : Outcome TxError SingleSig),
          (SingleSig.new (Secp.pub o.sponsor) 0 account'.nonce .p2pkh : Outcome TxError SingleSig) with
      | .ok c, .ok d =>
        match Transaction.sign { o.order with auth := .sponsored (.single c) (.single d) } o.origin with
        | .ok t =>
          match ask node l (r.estimateFee · t) with
          | (.ok (.ok fees), l) =>
            match fees.estimations[choice]? with
            | some e =>
              match (SingleSig.new (Secp.pub o.sponsor) e.fee account'.nonce .p2pkh : Outcome TxError SingleSig) with
              | .ok d =>
                match Signer.newSponsor t (.single d) >>= fun s => s.signSponsor o.sponsor with
                | .ok s =>
                  match ask node l (r.broadcast · s.tx) with
                  | (.ok (.ok txid), l) => (some (txid, s.tx), l)
                  | (_, l) => (none, l)
                | _ => (none, l)
              | _ => (none, l)
            | none => (none, l)
          | (_, l) => (none, l)
        | _ => (none, l)
      | _, _ => (none, l)
    | (_, l) => (none, l)
  | (_, l) => (none, l)

/-- One sponsored payment after the other. -/
def paySponsoredAll (r : StacksRPC) (node : StatefulNode L) (choice : Nat) :
    List SponsoredOrder → L → List (Option (Str × Transaction)) × L
  | [], l => ([], l)
  | o :: os, l =>
    let (x, l) := paySponsored r node choice o l
    let (xs, l) := paySponsoredAll r node choice os l
    (x :: xs, l)

omit [Http] in
/-- The account of a key. -/
def accountOf (k : Secp.SK) : Arr 20 := hash160Of (Secp.serialize (Secp.pub k)).1

omit [Http] in
/-- A sponsored order that can be carried out. -/
def SponsoredOrder.Acceptable (o : SponsoredOrder) : Prop :=
  AcceptableBody o.order.postConditions o.order.payload ∧
  (∃ v, IsAddress o.originAddress v (accountOf o.origin).1) ∧
  (∃ v, IsAddress o.sponsorAddress v (accountOf o.sponsor).1) ∧
  accountOf o.origin ≠ accountOf o.sponsor

omit [Http] in
/-- A sponsored payment came through: the identifier is that of the caller's own copy; the transaction is what was
ordered; the origin pays nothing and the sponsor the fee the node had asked for exactly these bytes. -/
def SponsoredCameThrough (parse : Arr 33 → Option Secp.PK) (quotes : Str → Nat → List UInt64) (choice : Nat)
    (o : SponsoredOrder) (nonce nonce' : UInt64) (x : Option (Str × Transaction)) (tx : Transaction) : Prop :=
  ∃ txid t bs id hex p fee c d, x = some (txid, t) ∧ t.encode = .ok bs ∧ t.hash = .ok id ∧
    txid = hexText id.1 ∧ NodeAccepts parse bs ∧ (readTransaction parse).run bs = some (tx, []) ∧
    tx = { o.order with auth := .sponsored (.single c) (.single d), payload := readBack o.order.payload } ∧
    c.mode = .p2pkh ∧ c.signer = accountOf o.origin ∧ c.nonce = nonce ∧ c.fee = 0 ∧
    d.mode = .p2pkh ∧ d.signer = accountOf o.sponsor ∧ d.nonce = nonce' ∧ d.fee = fee ∧
    hexBytes? hex = some (p.map UInt8.toNat) ∧ p <:+ bs ∧ readPayload.run p = some (tx.payload, []) ∧
    (quotes hex bs.length)[choice]? = some fee

omit [Http] in
/-- Sponsored payments came through one after the other; the nonces are the counts of the accounts, which go up by one
for both accounts of each payment. -/
inductive AllSponsored (parse : Arr 33 → Option Secp.PK) (quotes : Str → Nat → List UInt64) (choice : Nat) :
    (Arr 20 → Nat) → List SponsoredOrder → List (Option (Str × Transaction)) → List Transaction → Prop
  | nil {count} : AllSponsored parse quotes choice count [] [] []
  | cons {count : Arr 20 → Nat} {nonce nonce' : UInt64} {o os x xs tx txs} : nonce.toNat = count (accountOf o.origin) →
      nonce'.toNat = count (accountOf o.sponsor) → SponsoredCameThrough parse quotes choice o nonce nonce' x tx →
      AllSponsored parse quotes choice
        (fun s => count s + if s = accountOf o.origin ∨ s = accountOf o.sponsor then 1 else 0) os xs txs →
      AllSponsored parse quotes choice count (o :: os) (x :: xs) (tx :: txs)

end

end Stacks.Spec

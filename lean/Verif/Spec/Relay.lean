import Verif.Spec.SponsorMembers
import Verif.Spec.Binding

/-! # Specification: a transaction that is passed from one signer to the next -/

namespace Stacks.Spec
open Stacks Stacks.Tx

section
variable [Secp] [Hashes]

/-- Groups of participants, each with a signer of its own: made with `TransactionSigner::new` for the
transaction as the group before left it, its field `hash` set to the hash at which the signer before ended. -/
def relay : Signer → List (List Participant) → Outcome TxError Signer
  | s, [] => .ok s
  | s, g :: gs => do
    let s1 ← Signer.new s.tx
    let s2 ← walk { s1 with hash := s.hash } g
    relay s2 gs

/-- A second group with a signer of its own, as `TransactionSigner::new` makes it. -/
def startAnew (s : Signer) (g : List Participant) : Outcome TxError Signer := do
  let s1 ← Signer.new s.tx
  walk s1 g

/-- More members of a sponsor, with a signer of their own, as `new_sponser` makes it for the transaction
with its sponsor as it is. -/
def startAnewSponsor (s : Signer) (ks : List Secp.SK) : Outcome TxError Signer := do
  let p ← s.tx.auth.sponsor
  let s1 ← Signer.newSponsor s.tx p
  signSponsors s1 ks

end

end Stacks.Spec

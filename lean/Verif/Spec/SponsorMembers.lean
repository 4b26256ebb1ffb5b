import Verif.Spec.Signing

/-! # Specification: a sponsor of several members -/

namespace Stacks.Spec
open Stacks Stacks.Tx

section
variable [Secp] [Hashes]

/-- The signer after a sequence of calls whose errors the caller ignores, who sets the two flags of the
signer (`verify_oversign` and `verify_overlap`) as they like before each. -/
def afterWith (s : Signer) : List (Bool × Bool × SignerOp) → Signer
  | [] => s
  | (oversign, overlap, op) :: ops =>
    let s := { s with verifyOversign := oversign, verifyOverlap := overlap }
    match op.call s with
    | .ok s' => afterWith s' ops
    | _ => afterWith s ops

omit [Hashes] in
/-- What a caller can write for the method that is missing:
`signer.tx.auth.sponsor_mut()?.modify(Modification::AddPublicKey(key))?`. -/
def appendSponsorByHand (s : Signer) (key : Secp.PK) : Outcome TxError Signer := do
  let c ← s.tx.auth.sponsor
  let c' ← c.modify (.addPublicKey key)
  let a ← s.tx.auth.setSponsor c'
  pure { s with tx := { s.tx with auth := a } }

/-- Walking the members of the sponsor in order: signing, or appending the key by hand. -/
def walkSponsor : Signer → List Participant → Outcome TxError Signer
  | s, [] => .ok s
  | s, .signs k :: ps => do
    let s' ← s.signSponsor k
    walkSponsor s' ps
  | s, .absent k :: ps => do
    let s' ← appendSponsorByHand s k
    walkSponsor s' ps

end

end Stacks.Spec

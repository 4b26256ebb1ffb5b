import Verif.Model.InPlace
import Verif.Spec.Signing

/-! # All or nothing -/

namespace Stacks.Spec
open Stacks.Tx

/-- What a caller sees of an operation that either returns a new value or is refused: the result, and
the value that is there afterwards. A refused operation leaves the old value. -/
def allOrNothing {σ ε : Type} (s : σ) : Outcome ε σ → Outcome ε Unit × σ
  | .ok s' => (.ok (), s')
  | .err e => (.err e, s)
  | .panic => (.panic, s)

section
variable [Secp] [Hashes]

/-- A call, in place. -/
def SignerOp.run : SignerOp → Mut Signer TxError Unit
  | .signOrigin k => Signer.signOriginMut k
  | .signSponsor k => Signer.signSponsorMut k
  | .appendOrigin k => Signer.appendOriginMut k

/-- The results of a sequence of calls on one signer, in place, and the signer afterwards. -/
def runAll : List SignerOp → Signer → List (Outcome TxError Unit) × Signer
  | [], s => ([], s)
  | op :: ops, s =>
    let (r, s') := op.run s
    let (rs, s'') := runAll ops s'
    (r :: rs, s'')

end

end Stacks.Spec

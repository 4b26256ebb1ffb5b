import Verif.Spec.Transaction
import Verif.Spec.Hex

/-! # Transaction ids

A transaction's id is SHA-512/256 of all its bytes. -/

namespace Stacks.Spec

/-- Two different inputs with the same SHA-512/256. -/
def Collision [Hashes] (x y : Bytes) : Prop := x ≠ y ∧ Hashes.sha512_256 x = Hashes.sha512_256 y

/-- A node's answer to a broadcast: the id in hexadecimal, as a string of JSON, so within quotation marks. This is
the reference node's, as commonly known; it is not in /repo. -/
def idReply (id : Arr 32) : Str := '"' :: (hexText id.1 ++ ['"'])

end Stacks.Spec

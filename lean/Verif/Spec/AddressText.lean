import Verif.Spec.HashFunctions
import Verif.Spec.Address

/-! # The text of an address, from the key and the standards of the hash functions -/

namespace Stacks.Spec
open HashFunctions

/-- The address of a single key: `S`, the letter of the version, and the digits that write the hash of the key's
bytes and four bytes of check sum, the double SHA-256 of the version and the hash. -/
def IsAddressOf (version : UInt8) (key : Bytes) (s : Str) : Prop :=
  ∃ (letter : Char) (hash once twice : Bytes),
    (version, letter) ∈ [((22 : UInt8), 'P'), (20, 'M'), (26, 'T'), (21, 'N')] ∧
    IsHash160 key hash ∧ IsSha256 (version :: hash) once ∧ IsSha256 once twice ∧
    s = 'S' :: letter :: c32Text (hash ++ twice.take 4)

end Stacks.Spec

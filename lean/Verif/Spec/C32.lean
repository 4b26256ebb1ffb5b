import Verif.Model.Hash
import Verif.Spec.Num

/-! # Specification of C32 (Crockford base 32), independent of the model -/

namespace Stacks.Spec

/-- The 32 digits. -/
def c32Alphabet : List Char := "0123456789ABCDEFGHJKMNPQRSTVWXYZ".toList

/-- The digit with value `d`. -/
def c32Char (d : Nat) : Char := c32Alphabet.getD d '?'

/-- The accepted spellings of digits: letters in either case, `O` for `0`, `I` and `L` for `1`. -/
def c32Canon (c : Char) : Char :=
  let u := c.toUpper
  if u = 'O' then '0' else if u = 'I' ∨ u = 'L' then '1' else u

/-- The value of a character, if it spells a digit. -/
def c32Value (c : Char) : Option Nat := c32Alphabet.idxOf? (c32Canon c)

/-- The canonical spelling of a string. -/
def c32CanonStr (s : Str) : Str := s.map c32Canon

/-- The checksum of c32check and Base58Check: the first four bytes of the double SHA-256. -/
def checksum4 [Hashes] (bs : Bytes) : Bytes := (Hashes.sha256 (Hashes.sha256 bs).1).1.take 4

end Stacks.Spec

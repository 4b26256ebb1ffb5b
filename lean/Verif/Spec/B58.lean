import Verif.Spec.Num
import Verif.Model.Basic

/-! # Specification of Base58, independent of the model -/

namespace Stacks.Spec

/-- The 58 digits. -/
def b58Alphabet : List Char := "123456789ABCDEFGHJKLMNPQRSTUVWXYZabcdefghijkmnopqrstuvwxyz".toList

/-- The digit with value `d`. -/
def b58Char (d : Nat) : Char := b58Alphabet.getD d '?'

/-- The value of a digit. -/
def b58Value (c : Char) : Option Nat := b58Alphabet.idxOf? c

end Stacks.Spec

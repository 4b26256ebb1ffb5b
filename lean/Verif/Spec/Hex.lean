/-! # Specification of hexadecimal strings (independent of the model) -/

namespace Stacks.Spec

/-- The lower-case hexadecimal digits in order of value. -/
def hexDigits : List Char := "0123456789abcdef".toList

/-- The value of a hexadecimal digit of either case: its position among the digits. -/
def hexValue (c : Char) : Option Nat := hexDigits.idxOf? c.toLower

/-- The bytes (as numbers) a string of hexadecimal digit pairs denotes;
`none` if it is not such a string. -/
def hexBytes? : List Char → Option (List Nat)
  | [] => some []
  | [_] => none
  | h :: l :: rest => do
    let hv ← hexValue h
    let lv ← hexValue l
    let ns ← hexBytes? rest
    pure ((16 * hv + lv) :: ns)

/-- The lower-case hexadecimal text of bytes: the high digit and the low digit of each. -/
def hexText (bs : List UInt8) : List Char :=
  bs.flatMap fun b => [hexDigits.getD (b.toNat / 16) '0', hexDigits.getD (b.toNat % 16) '0']

end Stacks.Spec

import Verif.Model.Basic

/-! # `stacks/src/crypto/hex.rs` -/

namespace Stacks.Hex

/-- hex.rs:13-20 `enum Error`. -/
inductive Error where
  | badChar
  | unpaddedHex (s : Str) (len : Nat)
deriving DecidableEq, Repr

/-- hex.rs:43-48 and 50-55: the value of one digit byte (`b - b'0'`, `b - b'a' + 10`,
`b - b'A' + 10`), `none` for the `_ => return Some(Err(BadChar))` arm. -/
def nibble (b : UInt8) : Option UInt8 :=
  if 48 ≤ b ∧ b ≤ 57 then some (b - 48)
  else if 97 ≤ b ∧ b ≤ 102 then some (b - 97 + 10)
  else if 65 ≤ b ∧ b ≤ 70 then some (b - 65 + 10)
  else none

/-- hex.rs:39-59 `HexIterator::next` together with the loop hex.rs:70-74 of `hex_to_bytes`,
which pushes each byte and stops at the first error. (When a single byte is left, `next`
returns an error for a bad high digit and otherwise ends the iteration.) -/
def decodeLoop : Bytes → Outcome Error Bytes
  | [] => .ok []
  | [a] => match nibble a with
    | none => .err .badChar
    | some _ => .ok []
  | a :: b :: rest => match nibble a with
    | none => .err .badChar
    | some hi => match nibble b with
      | none => .err .badChar
      | some lo => do
        let bs ← decodeLoop rest
        pure (((hi <<< 4) ||| lo) :: bs)

/-- hex.rs:62-77 `hex_to_bytes` with hex.rs:30-36 `HexIterator::new`. -/
def hexToBytes (s : Str) : Outcome Error Bytes :=
  if s.len % 2 > 0 then .err (.unpaddedHex s s.len) else decodeLoop s.bytes

/-- The digit character `{:x}` prints for a value below 16. -/
def digitChar (n : Nat) : Char :=
  if n < 10 then Char.ofNat (48 + n) else Char.ofNat (87 + n)

/-- hex.rs:80-92 `bytes_to_hex`: every byte written with `{:02x}`. -/
def bytesToHex (bs : Bytes) : Str :=
  bs.flatMap fun b => [digitChar (b.toNat / 16), digitChar (b.toNat % 16)]

end Stacks.Hex

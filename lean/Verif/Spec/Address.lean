import Verif.Spec.C32
import Verif.Model.C32

/-! # Specification of addresses, independent of the model

Only the type `C32.Error` is the model's. -/

namespace Stacks.Spec

/-- The digits of Crockford base 32 that write bytes: a `0` for every leading zero byte, then the number. -/
def c32Text (bs : Bytes) : Str :=
  List.replicate (leadingZeros (bs.map UInt8.toNat)) '0' ++ (numDigits 32 (numValue 256 (bs.map UInt8.toNat))).map c32Char

/-- The bytes a C32 string spells. -/
def SpellsC32 (s : Str) (bs : Bytes) : Prop :=
  (∀ c ∈ s, (c32Value c).isSome) ∧ bs.map UInt8.toNat = rebase 32 256 (s.filterMap c32Value)

section
variable [Hashes]

/-- The address of a version and some bytes: `S`, the digit of the version, and the digits that write the bytes and
their checksum. -/
def addressString (version : UInt8) (payload : Bytes) : Str :=
  'S' :: c32Char version.toNat :: c32Text (payload ++ checksum4 (version :: payload))

/-- The string is an address of this version and these bytes: `S`, a spelling of the digit of the version, and a
spelling of the digits of the bytes and their checksum. -/
def IsAddress (s : Str) (version : UInt8) (payload : Bytes) : Prop :=
  ∃ c data, s = 'S' :: c :: data ∧ c32Value c = some version.toNat ∧
    SpellsC32 data (payload ++ checksum4 (version :: payload))

/-- A well-formed address, with its checksum, of any version and any number of bytes. -/
def SpellsAddress (s : Str) (payload : Bytes) : Prop := ∃ version, IsAddress s version payload

end

/-- The address versions in use. -/
def KnownVersion (v : UInt8) : Prop := v = 20 ∨ v = 21 ∨ v = 22 ∨ v = 26

instance (v : UInt8) : Decidable (KnownVersion v) := inferInstanceAs (Decidable (_ ∨ _))

/-! ## What is wrong with a text -/

/-- The last character of the string that is not a C32 digit. -/
def LastBad (s : Str) (c : Char) : Prop :=
  ∃ l r, s = l ++ c :: r ∧ c32Value c = none ∧ ∀ x ∈ r, (c32Value x).isSome

/-- A C32 string: characters beyond ASCII, then characters that are not digits, from the right. -/
inductive C32Fails : Str → C32.Error → Prop
  | notAscii {s} : (∃ c ∈ s, 128 ≤ c.toNat) → C32Fails s .badInput
  | badChar {s c} : (∀ x ∈ s, x.toNat < 128) → LastBad s c → C32Fails s (.badChar c)

/-- A version digit and data with a checksum: the data comes first, then the version, then the checksum. -/
inductive C32CheckFails [Hashes] : Str → C32.Error → Prop
  | notAscii {s} : (∃ c ∈ s, 128 ≤ c.toNat) → C32CheckFails s .badInput
  | badChar {v data c} : (∀ x ∈ v :: data, x.toNat < 128) → LastBad data c → C32CheckFails (v :: data) (.badChar c)
  | short {v data bs} : v.toNat < 128 → SpellsC32 data bs → bs.length < 4 → C32CheckFails (v :: data) .badInput
  | version {v data bs} : v.toNat < 128 → SpellsC32 data bs → 4 ≤ bs.length → c32Value v = none →
      C32CheckFails (v :: data) (.badChar v)
  | checksum {v n data payload given computed} : c32Value v = some n → SpellsC32 data (payload ++ given) →
      given.length = 4 → computed.1 = checksum4 (UInt8.ofNat n :: payload) → given ≠ computed.1 →
      C32CheckFails (v :: data) (.badChecksum computed given)

/-- An address: its shape first. -/
inductive AddressFails [Hashes] : Str → C32.Error → Prop
  | shape {s} : s.head? ≠ some 'S' ∨ (String.ofList s).utf8ByteSize ≤ 5 → AddressFails s (.badAddress s)
  | check {s e} : 5 < (String.ofList ('S' :: s)).utf8ByteSize → C32CheckFails s e → AddressFails ('S' :: s) e

end Stacks.Spec

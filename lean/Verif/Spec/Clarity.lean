import Verif.Model.Clarity
import Verif.Spec.Address

/-! # Specification of the Clarity wire format (SIP-005), independent of the encoder and decoder

Only the type `CV` of values, the byte/string vocabulary of `Model/Basic` and the specification of
addresses are used. -/

namespace Stacks.Spec

open Stacks.Clarity (CV)

/-- A 4-byte big-endian length followed by the bytes. -/
def sized32 (bs : Bytes) : Bytes := beBytes 4 bs.length ++ bs

/-- A 1-byte length followed by the UTF-8 bytes of a string. -/
def sized8 (s : Str) : Bytes := UInt8.ofNat s.bytes.length :: s.bytes

variable [Hashes]

/-- The version byte and the bytes written by an address, without the four bytes of the checksum. -/
def addrBytes : Str → Bytes
  | 'S' :: c :: data =>
    let bytes := rebase 32 256 (data.filterMap c32Value)
    ((c32Value c).toList ++ bytes.take (bytes.length - 4)).map UInt8.ofNat
  | _ => []

mutual
/-- The bytes SIP-005 prescribes for a value. (Meaningful for `Encodable` values; length-prefixed
strings and function arguments are not Clarity values but are serialised too.) -/
def sip005 : CV → Bytes
  | .int x => 0x00 :: beBytes 16 (x.toInt % 2 ^ 128).toNat
  | .uint x => 0x01 :: beBytes 16 x.toNat
  | .buffer bs => 0x02 :: sized32 bs
  | .tru => [0x03]
  | .fls => [0x04]
  | .principalStd a => 0x05 :: addrBytes a
  | .principalCon a n => 0x06 :: (addrBytes a ++ sized8 n)
  | .respOk v => 0x07 :: sip005 v
  | .respErr v => 0x08 :: sip005 v
  | .optNone => [0x09]
  | .optSome v => 0x0a :: sip005 v
  | .list vs => 0x0b :: (beBytes 4 vs.length ++ sip005All vs)
  | .tuple es => 0x0c :: (beBytes 4 es.length ++ sip005Entries es)
  | .strAscii s => 0x0d :: sized32 s.bytes
  | .strUtf8 s => 0x0e :: sized32 s.bytes
  | .lps s => sized8 s
  | .fnArgs vs => beBytes 4 vs.length ++ sip005All vs
/-- Concatenation. -/
def sip005All : List CV → Bytes
  | [] => []
  | v :: vs => sip005 v ++ sip005All vs
/-- Keys and values, alternating. -/
def sip005Entries : List (Str × CV) → Bytes
  | [] => []
  | (k, v) :: es => sized8 k ++ sip005 v ++ sip005Entries es
end

/-- A 20-byte hash with a known version, in its canonical spelling. -/
def CanonicalAddress (a : Str) : Prop :=
  ∃ (hash : Arr 20) (version : UInt8), KnownVersion version ∧ a = addressString version hash.1

/-- A string that denotes an address. -/
def DenotesAddress (a : Str) : Prop :=
  ∃ version payload, IsAddress a version payload

mutual
/-- The standard Clarity values with canonical principals and within the size limits. -/
def WellFormed : CV → Prop
  | .int _ | .uint _ | .tru | .fls | .optNone => True
  | .buffer bs => bs.length < 2 ^ 32
  | .principalStd a => CanonicalAddress a
  | .principalCon a n => CanonicalAddress a ∧ n.bytes.length ≤ 128
  | .respOk v | .respErr v | .optSome v => WellFormed v
  | .list vs => vs.length < 2 ^ 32 ∧ WellFormedAll vs
  | .tuple es => es.length < 2 ^ 32 ∧ WellFormedEntries es
  | .strAscii s => (∀ c ∈ s, c.toNat < 128) ∧ s.bytes.length < 2 ^ 32
  | .strUtf8 s => s.bytes.length < 2 ^ 32
  | .lps _ | .fnArgs _ => False
/-- All elements are well-formed. -/
def WellFormedAll : List CV → Prop
  | [] => True
  | v :: vs => WellFormed v ∧ WellFormedAll vs
/-- All keys fit and all values are well-formed. -/
def WellFormedEntries : List (Str × CV) → Prop
  | [] => True
  | (k, v) :: es => k.bytes.length ≤ 128 ∧ WellFormed v ∧ WellFormedEntries es
end

mutual
/-- The values that have an encoding. -/
def Encodable : CV → Prop
  | .int _ | .uint _ | .tru | .fls | .optNone => True
  | .buffer bs => bs.length < 2 ^ 32
  | .principalStd a => DenotesAddress a
  | .principalCon a n => DenotesAddress a ∧ n.bytes.length ≤ 128
  | .respOk v | .respErr v | .optSome v => Encodable v
  | .list vs | .fnArgs vs => vs.length < 2 ^ 32 ∧ EncodableAll vs
  | .tuple es => es.length < 2 ^ 32 ∧ EncodableEntries es
  | .strAscii s => (∀ c ∈ s, c.toNat < 128) ∧ s.bytes.length < 2 ^ 32
  | .strUtf8 s => s.bytes.length < 2 ^ 32
  | .lps s => s.bytes.length ≤ 128
/-- All elements have an encoding. -/
def EncodableAll : List CV → Prop
  | [] => True
  | v :: vs => Encodable v ∧ EncodableAll vs
/-- All keys fit and all values have an encoding. -/
def EncodableEntries : List (Str × CV) → Prop
  | [] => True
  | (k, v) :: es => k.bytes.length ≤ 128 ∧ Encodable v ∧ EncodableEntries es
end

/-- The values the decoder returns. It is laxer than `WellFormed` at the outermost container:
a string-ascii need not be ASCII and names and keys may have up to 255 bytes; but elements of
lists and tuples must be well-formed. -/
def Accepted : CV → Prop
  | .int _ | .uint _ | .tru | .fls | .optNone => True
  | .buffer bs => bs.length < 2 ^ 32
  | .principalStd a => CanonicalAddress a
  | .principalCon a n => CanonicalAddress a ∧ n.bytes.length < 256
  | .respOk v | .respErr v | .optSome v => Accepted v
  | .list vs => vs.length < 2 ^ 32 ∧ ∀ v ∈ vs, WellFormed v
  | .tuple es => es.length < 2 ^ 32 ∧ ∀ e ∈ es, e.1.bytes.length < 256 ∧ WellFormed e.2
  | .strAscii s | .strUtf8 s => s.bytes.length < 2 ^ 32
  | .lps _ | .fnArgs _ => False

mutual
/-- The number of bytes SIP-005 prescribes for a value whose principals have 20-byte hashes. -/
def wireLen : CV → Nat
  | .int _ | .uint _ => 17
  | .tru | .fls | .optNone => 1
  | .buffer bs => 5 + bs.length
  | .principalStd _ => 22
  | .principalCon _ n => 22 + 1 + n.bytes.length
  | .respOk v | .respErr v | .optSome v => 1 + wireLen v
  | .list vs => 5 + wireLenAll vs
  | .tuple es => 5 + wireLenEntries es
  | .strAscii s | .strUtf8 s => 5 + s.bytes.length
  | .lps s => 1 + s.bytes.length
  | .fnArgs vs => 4 + wireLenAll vs
/-- Sum over the elements. -/
def wireLenAll : List CV → Nat
  | [] => 0
  | v :: vs => wireLen v + wireLenAll vs
/-- Sum over the entries. -/
def wireLenEntries : List (Str × CV) → Nat
  | [] => 0
  | (k, v) :: es => 1 + k.bytes.length + wireLen v + wireLenEntries es
end

end Stacks.Spec

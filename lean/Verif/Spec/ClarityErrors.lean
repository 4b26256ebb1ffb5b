import Verif.Spec.Clarity

/-! # Which error an encoder reports

`EncodeFails v e` says that `e` is the error of the first part of the value, in writing order,
that has no encoding. It uses the address decoder of properties C09–C11, and `Encodable`. -/

namespace Stacks.Spec
open Stacks.Clarity (CV Error)

variable [Hashes]

/-- `e` is the error of the first part of the value that cannot be written. Sizes (which come
first on the wire) must fit four bytes; names and keys may have up to 128 bytes; an ASCII string
must be ASCII; addresses must denote an address. -/
inductive EncodeFails : CV → Error → Prop
  | principalStd {a e} : AddressFails a e → EncodeFails (.principalStd a) (.c32 e)
  | principalCon {a n e} : AddressFails a e → EncodeFails (.principalCon a n) (.c32 e)
  | contractName {a n} : DenotesAddress a → 128 < n.bytes.length →
      EncodeFails (.principalCon a n) (.badStringLength n.bytes.length 128)
  | lps {s} : 128 < s.bytes.length → EncodeFails (.lps s) (.badStringLength s.bytes.length 128)
  | buffer {bs} : 2 ^ 32 ≤ bs.length → EncodeFails (.buffer bs) .tryFromInt
  | notAscii {s} : (∃ c ∈ s, 128 ≤ c.toNat) → EncodeFails (.strAscii s) (.badStringType "Ascii".toList)
  | strAscii {s} : (∀ c ∈ s, c.toNat < 128) → 2 ^ 32 ≤ s.bytes.length →
      EncodeFails (.strAscii s) .tryFromInt
  | strUtf8 {s} : 2 ^ 32 ≤ s.bytes.length → EncodeFails (.strUtf8 s) .tryFromInt
  | ok {v e} : EncodeFails v e → EncodeFails (.respOk v) e
  | err {v e} : EncodeFails v e → EncodeFails (.respErr v) e
  | some {v e} : EncodeFails v e → EncodeFails (.optSome v) e
  | listSize {vs} : 2 ^ 32 ≤ vs.length → EncodeFails (.list vs) .tryFromInt
  | list {pre v post e} : (pre ++ v :: post).length < 2 ^ 32 → (∀ p ∈ pre, Encodable p) →
      EncodeFails v e → EncodeFails (.list (pre ++ v :: post)) e
  | fnArgsSize {vs} : 2 ^ 32 ≤ vs.length → EncodeFails (.fnArgs vs) .tryFromInt
  | fnArgs {pre v post e} : (pre ++ v :: post).length < 2 ^ 32 → (∀ p ∈ pre, Encodable p) →
      EncodeFails v e → EncodeFails (.fnArgs (pre ++ v :: post)) e
  | tupleSize {es} : 2 ^ 32 ≤ es.length → EncodeFails (.tuple es) .tryFromInt
  | tupleKey {pre k v post} : (pre ++ (k, v) :: post).length < 2 ^ 32 →
      (∀ p ∈ pre, p.1.bytes.length ≤ 128 ∧ Encodable p.2) → 128 < k.bytes.length →
      EncodeFails (.tuple (pre ++ (k, v) :: post)) (.badStringLength k.bytes.length 128)
  | tuple {pre k v post e} : (pre ++ (k, v) :: post).length < 2 ^ 32 →
      (∀ p ∈ pre, p.1.bytes.length ≤ 128 ∧ Encodable p.2) → k.bytes.length ≤ 128 →
      EncodeFails v e → EncodeFails (.tuple (pre ++ (k, v) :: post)) e

/-- The bytes are the UTF-8 encoding of no string. -/
def NotUtf8 (bs : Bytes) : Prop := ∀ s : Str, s.bytes ≠ bs

/-- `e` is the error of the first part of the input, in reading order, that is not acceptable. The
elements of lists and tuples must in addition be values that can be written again
(`listElement`, `tupleElement`). -/
inductive DecodeFails : Bytes → Error → Prop
  | identifier {t r} : 0x0e < t → DecodeFails (t :: r) (.unexpectedType t)
  | stdVersion {v h r} : h.length = 20 → ¬ KnownVersion v →
      DecodeFails ([0x05, v] ++ h ++ r) (.c32 (.unknownAddressVersion v))
  | conVersion {v h r} : h.length = 20 → ¬ KnownVersion v →
      DecodeFails ([0x06, v] ++ h ++ r) (.c32 (.unknownAddressVersion v))
  | conName {v h n r} : h.length = 20 → KnownVersion v → n.length < 256 → NotUtf8 n →
      DecodeFails ([0x06, v] ++ h ++ [UInt8.ofNat n.length] ++ n ++ r) .tryFromUtf8
  | ok {b e} : DecodeFails b e → DecodeFails (0x07 :: b) e
  | err {b e} : DecodeFails b e → DecodeFails (0x08 :: b) e
  | some {b e} : DecodeFails b e → DecodeFails (0x0a :: b) e
  | list {n vs b e} : n < 2 ^ 32 → vs.length < n → (∀ v ∈ vs, WellFormed v) → DecodeFails b e →
      DecodeFails ([0x0b] ++ beBytes 4 n ++ sip005All vs ++ b) e
  | listElement {n vs v b e} : n < 2 ^ 32 → vs.length < n → (∀ v ∈ vs, WellFormed v) →
      Accepted v → EncodeFails v e →
      DecodeFails ([0x0b] ++ beBytes 4 n ++ sip005All vs ++ sip005 v ++ b) e
  | tupleKey {n es k b} : n < 2 ^ 32 → es.length < n →
      (∀ e ∈ es, e.1.bytes.length < 256 ∧ WellFormed e.2) → k.length < 256 → NotUtf8 k →
      DecodeFails ([0x0c] ++ beBytes 4 n ++ sip005Entries es ++ [UInt8.ofNat k.length] ++ k ++ b) .tryFromUtf8
  | tuple {n es k b e} : n < 2 ^ 32 → es.length < n →
      (∀ e ∈ es, e.1.bytes.length < 256 ∧ WellFormed e.2) → k.bytes.length < 256 → DecodeFails b e →
      DecodeFails ([0x0c] ++ beBytes 4 n ++ sip005Entries es ++ sized8 k ++ b) e
  | tupleElement {n es k v b e} : n < 2 ^ 32 → es.length < n →
      (∀ e ∈ es, e.1.bytes.length < 256 ∧ WellFormed e.2) → k.bytes.length < 256 →
      Accepted v → EncodeFails v e →
      DecodeFails ([0x0c] ++ beBytes 4 n ++ sip005Entries es ++ sized8 k ++ sip005 v ++ b) e
  | strAscii {s b} : s.length < 2 ^ 32 → NotUtf8 s → DecodeFails ([0x0d] ++ sized32 s ++ b) .tryFromUtf8
  | strUtf8 {s b} : s.length < 2 ^ 32 → NotUtf8 s → DecodeFails ([0x0e] ++ sized32 s ++ b) .tryFromUtf8

end Stacks.Spec

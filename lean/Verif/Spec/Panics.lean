import Verif.Spec.CutShort
import Verif.Spec.Verify
import Verif.Spec.B58
import Verif.Spec.Address
import Verif.Model.Api

/-! # The calls that panic

`PanicsOn` says which of the calls listed in Model/Api.lean panic. -/

namespace Stacks.Spec
open Stacks.Clarity (CV Kind)
open Stacks.Tx

/-! ## Strings -/

/-- The bytes a Base58 string spells. -/
def SpellsB58 (s : Str) (bs : Bytes) : Prop :=
  (∀ c ∈ s, c ∈ b58Alphabet) ∧ bs.map UInt8.toNat = rebase 58 256 (s.filterMap b58Value)

/-- Of the characters that are not Base58 digits, the first is beyond the table of 256 entries. -/
def BeyondB58 (s : Str) : Prop :=
  ∃ l c r, s = l ++ c :: r ∧ (∀ x ∈ l, x ∈ b58Alphabet) ∧ c ∉ b58Alphabet ∧ 0x100 ≤ c.toNat

/-- The first byte of a value of each type that has one. -/
def identifierOf : Kind → Option UInt8
  | .int => some 0x00 | .uint => some 0x01 | .buffer => some 0x02 | .tru => some 0x03 | .fls => some 0x04
  | .principalStd => some 0x05 | .principalCon => some 0x06 | .respOk => some 0x07 | .respErr => some 0x08
  | .optNone => some 0x09 | .optSome => some 0x0a | .list => some 0x0b | .tuple => some 0x0c
  | .strAscii => some 0x0d | .strUtf8 => some 0x0e | .lps => none | .fnArgs => none

section
variable [Secp] [Hashes] [Bip] [Rpc.Http]

/-- The calls that panic. -/
inductive PanicsOn : Api → Prop
  /-- A version that is not a C32 digit. -/
  | version {b v} : 32 ≤ v → PanicsOn (.c32checkEncode b v)
  /-- The empty string. -/
  | noVersion : PanicsOn (.c32checkDecode [])
  /-- A correct address of something else than 20 bytes. -/
  | addressSize {s p} : SpellsAddress s p → p.length ≠ 20 → PanicsOn (.addressFromStr s)
  /-- Numbers above 175 have no opcode; the number of keys counts modulo 256. -/
  | p2sh {m ks} : 175 < m.toNat ∨ 175 < ks.length % 256 → PanicsOn (.hashP2sh m ks)
  | p2wsh {m ks} : 175 < m.toNat ∨ 175 < ks.length % 256 → PanicsOn (.hashP2wsh m ks)
  /-- A character that the table has no entry for. -/
  | b58Char {s} : BeyondB58 s → PanicsOn (.b58Decode s)
  | b58checkChar {s} : BeyondB58 s → PanicsOn (.base58checkDecode s)
  /-- No room for a version and a checksum. -/
  | b58checkSize {s b} : SpellsB58 s b → b.length < 5 → PanicsOn (.base58checkDecode s)
  /-- A hash or a signature of another size. -/
  | hashSize {b} : b.length ≠ 20 → PanicsOn (.hash160New b)
  | signatureSize {b} : b.length ≠ 65 → PanicsOn (.signatureNew b)
  /-- Bytes that end too early. -/
  | value {b} : CutShort b → PanicsOn (.decode b)
  | noValue {k i} : identifierOf k = some i → PanicsOn (.decodeAs k [])
  | typed {k t r} : identifierOf k = some t → CutShort (t :: r) → PanicsOn (.decodeAs k (t :: r))
  | utf8 {t r} : CutShort (0x0e :: r) → PanicsOn (.decodeAs .strUtf8 (t :: r))
  | name {b} : NameCut b → PanicsOn (.decodeAs .lps b)
  | arguments {b} : ArgumentsCut b → PanicsOn (.decodeAs .fnArgs b)
  | transferBytes {b} : b.head? ≠ some 0x02 → PayloadCut b → PanicsOn (.decodeTransfer b)
  | callBytes {b} : b.head? ≠ some 0x00 → PayloadCut b → PanicsOn (.decodeCall b)
  | payload {b} : PayloadCut b → PanicsOn (.decodePayload b)
  /-- Decoders that are not written. -/
  | unwritten {w b} : PanicsOn (.decodeUnwritten w b)
  /-- A mode for the other kind of condition; numbers that the script cannot hold. -/
  | singleMode {k fee nonce mode} : mode = .p2sh ∨ mode = .p2wsh → PanicsOn (.newSingle k fee nonce mode)
  | multiMode {ks fee nonce m mode} : mode = .p2pkh ∨ mode = .p2wpkh → PanicsOn (.newMulti ks fee nonce m mode)
  | multiNumbers {ks fee nonce m mode} : 175 < m.toNat ∨ 175 < ks.length % 256 →
      PanicsOn (.newMulti ks fee nonce m mode)
  /-- More signatures than the counter holds. -/
  | counter {c} : 65536 ≤ signatureCount c → PanicsOn (.signatures c)
  /-- Verification: see the verdicts. -/
  | verifySpending {c h typ} : SpendingVerdict h typ c .panic → PanicsOn (.verifySpending c h typ)
  | verifyAuth {a h} : AuthVerdict h a .panic → PanicsOn (.verifyAuth a h)
  | verifyAuthOrigin {a h} : SpendingVerdict h 4 (originOf a) .panic → PanicsOn (.verifyAuthOrigin a h)
  | verifyOrigin {t} : EncodableBody t →
      SpendingVerdict (Hashes.sha512_256 (signingPreimage t)) 4 (originOf t.auth) .panic → PanicsOn (.verifyOrigin t)
  | newSponsor {t c o p} : t.auth = .sponsored o p → EncodableBody t →
      SpendingVerdict (Hashes.sha512_256 (signingPreimage t)) 4 o .panic → PanicsOn (.newSponsor t c)
  /-- Signing counts the signatures that are already there. -/
  | sign {t k} : EncodableBody t → 65536 ≤ signatureCount (originOf t.auth) → PanicsOn (.sign t k)
  | signOrigin {s k} : ¬ (s.verifyOverlap = true ∧ s.originSigned = true) → s.verifyOversign = true →
      65536 ≤ signatureCount (originOf s.tx.auth) → PanicsOn (.signOrigin s k)
  | signSponsor {s k o c} : s.tx.auth = .sponsored o c → s.verifyOversign = true → 65536 ≤ signatureCount c →
      PanicsOn (.signSponsor s k)
  /-- Sponsored transactions are not supported by the builders. -/
  | sponsoredTransfer {b} : b.sponsored = true → PanicsOn (.transfer b)
  | sponsoredCall {b p} : b.sponsored = true → SpellsAddress b.address p → PanicsOn (.contractCall b)
  | callAddress {b p} : SpellsAddress b.address p → p.length ≠ 20 → PanicsOn (.contractCall b)

end

end Stacks.Spec

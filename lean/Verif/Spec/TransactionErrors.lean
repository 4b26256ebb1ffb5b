import Verif.Spec.ClarityErrors
import Verif.Spec.Transaction

/-! # Which error the encoder of a transaction reports

As in `Spec/ClarityErrors.lean`: the error of the first part, in writing order, that has no
encoding. -/

namespace Stacks.Spec
open Stacks.Tx
open Stacks.Clarity (CV Error)

section
variable [Hashes]

/-- An asset: its address, the contract's name, the asset's name. -/
inductive AssetFails : AssetInfo → Error → Prop
  | address {i e} : AddressFails i.address e → AssetFails i (.c32 e)
  | contract {i} : DenotesAddress i.address → 128 < i.name.bytes.length →
      AssetFails i (.badStringLength i.name.bytes.length 128)
  | asset {i} : DenotesAddress i.address → i.name.bytes.length ≤ 128 → 128 < i.asset.bytes.length →
      AssetFails i (.badStringLength i.asset.bytes.length 128)

/-- A post-condition: its principal, its asset (if it has one), its token (if it has one). -/
inductive ConditionFails : Condition → Error → Prop
  | notPrincipal {c} : ¬ IsPrincipal (conditionAddress c) → ConditionFails c .badDowncast
  | principal {c e} : IsPrincipal (conditionAddress c) → EncodeFails (conditionAddress c) e → ConditionFails c e
  | fungible {a n k i e} : IsPrincipal a → Encodable a → AssetFails i e → ConditionFails (.fungible a n k i) e
  | nonFungible {a t k i e} : IsPrincipal a → Encodable a → AssetFails i e →
      ConditionFails (.nonFungible a t k i) e
  | token {a t k i e} : IsPrincipal a → Encodable a → EncodableAsset i → EncodeFails t e →
      ConditionFails (.nonFungible a t k i) e

/-- A list of post-conditions: its length, then the conditions. -/
inductive ConditionsFail : List Condition → Error → Prop
  | size {cs} : 2 ^ 32 ≤ cs.length → ConditionsFail cs .tryFromInt
  | first {pre c post e} : (pre ++ c :: post).length < 2 ^ 32 → (∀ p ∈ pre, EncodableCondition p) →
      ConditionFails c e → ConditionsFail (pre ++ c :: post) e

/-- A payload. The memo is looked at before the recipient. -/
inductive PayloadFails : Payload → Error → Prop
  | memo {p} : 34 < p.memo.bytes.length →
      PayloadFails (.tokenTransfer p) (.badStringLength p.memo.bytes.length 34)
  | recipient {p e} : p.memo.bytes.length ≤ 34 → EncodeFails p.address e → PayloadFails (.tokenTransfer p) e
  | contract {p} : 128 < p.contract.bytes.length →
      PayloadFails (.contractCall p) (.badStringLength p.contract.bytes.length 128)
  | function {p} : p.contract.bytes.length ≤ 128 → 128 < p.name.bytes.length →
      PayloadFails (.contractCall p) (.badStringLength p.name.bytes.length 128)
  | arguments {p e} : p.contract.bytes.length ≤ 128 → p.name.bytes.length ≤ 128 →
      EncodeFails (.fnArgs p.args) e → PayloadFails (.contractCall p) e

/-- A transaction: its authorization, its post-conditions, its payload. -/
inductive TransactionFails [Secp] : Transaction → Error → Prop
  | auth {t} : ¬ SmallAuth t.auth → TransactionFails t .tryFromInt
  | conditions {t e} : SmallAuth t.auth → ConditionsFail t.postConditions e → TransactionFails t e
  | payload {t e} : SmallAuth t.auth → t.postConditions.length < 2 ^ 32 →
      (∀ c ∈ t.postConditions, EncodableCondition c) → PayloadFails t.payload e → TransactionFails t e

/-- What is signed consists of the post-conditions and the payload; the cleared authorization can
always be written. -/
inductive BodyFails [Secp] : Transaction → Error → Prop
  | conditions {t e} : ConditionsFail t.postConditions e → BodyFails t e
  | payload {t e} : t.postConditions.length < 2 ^ 32 → (∀ c ∈ t.postConditions, EncodableCondition c) →
      PayloadFails t.payload e → BodyFails t e

/-! ## Decoding payloads -/

/-- Function arguments: a 4-byte count, then the arguments, which must be values that can be
written again. -/
inductive ArgumentsFail : Bytes → Error → Prop
  | argument {n vs b e} : n < 2 ^ 32 → vs.length < n → (∀ v ∈ vs, WellFormed v) → DecodeFails b e →
      ArgumentsFail (beBytes 4 n ++ sip005All vs ++ b) e
  | again {n vs v b e} : n < 2 ^ 32 → vs.length < n → (∀ v ∈ vs, WellFormed v) → Accepted v → EncodeFails v e →
      ArgumentsFail (beBytes 4 n ++ sip005All vs ++ sip005 v ++ b) e

/-- A name: a length byte, then that many bytes, which must be UTF-8; and at most 128. -/
inductive NameFails : Bytes → Error → Prop
  | utf8 {n r} : n.length < 256 → NotUtf8 n → NameFails ([UInt8.ofNat n.length] ++ n ++ r) .tryFromUtf8
  | long {s r} : 128 < s.bytes.length → s.bytes.length < 256 →
      NameFails (sized8 s ++ r) (.badStringLength s.bytes.length 128)

/-- A payload: its type, then for a transfer the recipient, the amount and the memo, and for a call
the address, two names and the arguments. -/
inductive PayloadDecodeFails : Bytes → Error → Prop
  | type {t r} : t ≠ 0x00 → t ≠ 0x02 → PayloadDecodeFails (t :: r) (.unexpectedType t)
  | recipient {r e} : DecodeFails r e → PayloadDecodeFails (0x00 :: r) e
  | recipientAgain {v r e} : Accepted v → EncodeFails v e → PayloadDecodeFails (0x00 :: (sip005 v ++ r)) e
  | memo {v amount m r} : WellFormed v → amount.length = 8 → m.length = 34 → NotUtf8 m →
      PayloadDecodeFails (0x00 :: (sip005 v ++ amount ++ m ++ r)) .tryFromUtf8
  | contract {v h r e} : h.length = 20 → NameFails r e → PayloadDecodeFails (0x02 :: v :: (h ++ r)) e
  | function {v h c r e} : h.length = 20 → c.bytes.length ≤ 128 → NameFails r e →
      PayloadDecodeFails (0x02 :: v :: (h ++ sized8 c ++ r)) e
  | arguments {v h c n r e} : h.length = 20 → c.bytes.length ≤ 128 → n.bytes.length ≤ 128 → ArgumentsFail r e →
      PayloadDecodeFails (0x02 :: v :: (h ++ sized8 c ++ sized8 n ++ r)) e

end

end Stacks.Spec

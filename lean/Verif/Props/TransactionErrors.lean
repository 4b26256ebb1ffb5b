import Verif.Proofs.PayloadErrors
import Verif.Props.Transaction

/-! # Properties C72 and C73: which errors transactions and payloads report -/

namespace Stacks.Tx
open Stacks.Spec Stacks.Clarity

section
variable [Hashes]

/-! ## C72 -/

/-- **C72** Encoding a post-condition fails exactly when its principal, its asset or its token has
no encoding, with the error of the first of these. -/
theorem C72_condition_error_exact (c : Condition) (e : Clarity.Error) :
    c.encode = .err e ↔ ConditionFails c e := condition_err_iff c e

/-- **C72** Encoding a list of post-conditions: the error of the first one that has no encoding. -/
theorem C72_conditions_error_exact (cs : List Condition) (e : Clarity.Error) :
    postConditionsEncode cs = .err e ↔ ConditionsFail cs e := conditions_err_iff cs e

/-- **C72** Encoding a payload. -/
theorem C72_payload_error_exact (p : Payload) (e : Clarity.Error) :
    p.encode = .err e ↔ PayloadFails p e := payload_err_iff p e

/-- **C72** Encoding a transaction: authorization, then post-conditions, then payload. -/
theorem C72_transaction_error_exact [Secp] (t : Transaction) (e : Clarity.Error) :
    t.encode = .err e ↔ TransactionFails t e := transaction_err_iff t e

/-- **C72** The hash to be signed can be computed unless the post-conditions or the payload have no
encoding; however many signatures the transaction carries. -/
theorem C72_signing_hash_error_exact [Secp] (t : Transaction) (e : TxError) :
    t.initialHash = .err e ↔ ∃ e', BodyFails t e' ∧ e = .clarity e' := initialHash_err_iff t e

/-- **C72** Encoding a transaction, and computing its hashes, never panics. -/
theorem C72_never_panics [Secp] (t : Transaction) :
    t.encode ≠ .panic ∧ t.hash ≠ .panic ∧ t.initialHash ≠ .panic := by
  have h1 : ∀ t : Transaction, t.encode ≠ .panic := by
    intro t ht
    by_cases h : SmallAuth t.auth ∧ EncodableBody t
    · rw [(transaction_encode_iff t _).2 ⟨h, rfl⟩] at ht; cases ht
    · have : ∃ e, TransactionFails t e := by
        by_cases hs : SmallAuth t.auth
        · obtain ⟨e, he⟩ := bodyFails_exists (fun hb => h ⟨hs, hb⟩)
          cases he with
          | conditions he => exact ⟨e, .conditions hs he⟩
          | payload a b c => exact ⟨e, .payload hs a b c⟩
        · exact ⟨_, .auth hs⟩
      obtain ⟨e, he⟩ := this
      rw [(transaction_err_iff t e).2 he] at ht; cases ht
  have h2 : ∀ t : Transaction, t.hash ≠ .panic := by
    intro t ht
    unfold Transaction.hash at ht
    cases he : t.encode with
    | ok b => rw [he] at ht; cases ht
    | err e => rw [he] at ht; cases ht
    | panic => exact h1 t he
  exact ⟨h1 t, h2 t, h2 _⟩

/-! ## C73 -/

/-- **C73** Decoding a payload fails exactly when a part of the input is not acceptable, with the
error of the first such part. -/
theorem C73_payload_decode_error_exact (bytes : Bytes) (e : Clarity.Error) :
    Payload.decode bytes = .err e ↔ PayloadDecodeFails bytes e := payload_decode_err_iff bytes e

/-- **C73** Decoding function arguments. -/
theorem C73_arguments_error_exact (bytes : Bytes) (e : Clarity.Error) :
    fnArgsDecode bytes = .err e ↔ ArgumentsFail bytes e := fnArgs_err_iff bytes e

/-- **C73** A result, payload or error, does not change when more bytes follow. -/
theorem C73_result_stable (bytes rest : Bytes) (h : Payload.decode bytes ≠ .panic) :
    Payload.decode (bytes ++ rest) = Payload.decode bytes := payload_decode_append h rest

/-- **C73** A panic means that the input ends too early. -/
theorem C73_panic_only_when_truncated (bytes : Bytes) (h : Payload.decode bytes = .panic) :
    ∃ rest, rest ≠ [] ∧ Payload.decode (bytes ++ rest) ≠ .panic := by
  obtain ⟨rest, hr⟩ := payload_completable bytes
  refine ⟨rest, ?_, hr⟩
  rintro rfl
  rw [List.append_nil] at hr
  exact hr h

end

section
attribute [local instance] Concrete.realHashes Concrete.toySecp

/-- A memo of 35 bytes. -/
def longMemo : Str := List.replicate 35 'm'

-- C72: the memo is looked at before the recipient
example : Payload.encode (.tokenTransfer ⟨.principalStd "X".toList, 1, longMemo⟩) = .err (.badStringLength 35 34) := by
  decide +kernel
example : PayloadFails (.tokenTransfer ⟨.principalStd "X".toList, 1, longMemo⟩) (.badStringLength 35 34) :=
  .memo (by decide)
example : Payload.encode (.tokenTransfer ⟨.principalStd "X".toList, 1, "m".toList⟩) =
    .err (.c32 (.badAddress "X".toList)) := by decide +kernel
-- C72: names, then arguments
example : Payload.encode (.contractCall { exCall with contract := List.replicate 129 'c', name := List.replicate 130 'f' }) =
    .err (.badStringLength 129 128) := by decide +kernel
example : Payload.encode (.contractCall { exCall with name := List.replicate 130 'f', args := [.strAscii ['é']] }) =
    .err (.badStringLength 130 128) := by decide +kernel
example : Payload.encode (.contractCall { exCall with args := [.tru, .strAscii ['é'], .principalStd "X".toList] }) =
    .err (.badStringType "Ascii".toList) := by decide +kernel
-- C72: the first failing condition decides, and conditions come before the payload
example : Transaction.encode { exTx with
    postConditions := exConditions ++ [.stx .tru 1 .eq, .stx (.principalStd "X".toList) 1 .eq]
    payload := .tokenTransfer ⟨.principalStd "Y".toList, 1, longMemo⟩ } = .err .badDowncast := by decide +kernel
example : Transaction.encode { exTx with
    postConditions := exConditions ++ [.stx (.principalStd "X".toList) 1 .eq, .stx .tru 1 .eq]
    payload := .tokenTransfer ⟨.principalStd "Y".toList, 1, longMemo⟩ } = .err (.c32 (.badAddress "X".toList)) := by
  decide +kernel
example : Transaction.initialHash { exTx with payload := .tokenTransfer ⟨.principalStd "Y".toList, 1, longMemo⟩ } =
    .err (.clarity (.badStringLength 35 34)) :=
  (C72_signing_hash_error_exact _ _).2 ⟨_, .payload (by decide) (wf_encodable_tx _ exTx_wf).2.2.1 (.memo (by decide)), rfl⟩
-- C72: within a condition: principal, asset, token
example : Condition.encode (.nonFungible (.principalStd exAddr) (.strAscii ['é']) .has
    { exAsset with asset := List.replicate 129 'a' }) = .err (.badStringLength 129 128) := by decide +kernel
example : Condition.encode (.nonFungible (.principalStd exAddr) (.strAscii ['é']) .has exAsset) =
    .err (.badStringType "Ascii".toList) := by decide +kernel

-- C73: every kind of error
example : Payload.decode [0x01, 0, 0] = .err (.unexpectedType 1) := by decide +kernel
example : Payload.decode [0x00, 0x0f] = .err (.unexpectedType 0x0f) := by decide +kernel
example : Payload.decode [0x00, 0x0d, 0, 0, 0, 2, 0xc3, 0xa9] = .err (.badStringType "Ascii".toList) := by
  decide +kernel
example : Payload.decode ([0x00, 0x03] ++ List.replicate 8 0 ++ List.replicate 34 0xff) = .err .tryFromUtf8 := by
  decide +kernel
example : Payload.decode ([0x02, 26] ++ List.replicate 20 0 ++ [1, 0xff]) = .err .tryFromUtf8 := by decide +kernel
example : Payload.decode ([0x02, 26] ++ List.replicate 20 0 ++ [129] ++ List.replicate 129 97) =
    .err (.badStringLength 129 128) := by decide +kernel
example : Payload.decode ([0x02, 26] ++ List.replicate 20 0 ++ [1, 97, 1, 98, 0, 0, 0, 2, 3, 0x0f]) =
    .err (.unexpectedType 0x0f) := by decide +kernel
-- C73: a panic, and the input completed
example : Payload.decode ([0x02, 26] ++ List.replicate 20 0 ++ [1, 97, 1, 98, 0, 0, 0, 2, 3]) = .panic ∧
    Payload.decode ([0x02, 26] ++ List.replicate 20 0 ++ [1, 97, 1, 98, 0, 0, 0, 2, 3, 4]) =
      .ok (.contractCall ⟨⟨⟨List.replicate 20 0, by simp⟩, 26⟩, "a".toList, "b".toList, [.tru, .fls]⟩) := by
  decide +kernel

end

end Stacks.Tx

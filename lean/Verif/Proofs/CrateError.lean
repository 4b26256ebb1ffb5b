import Verif.Spec.CrateError
import Verif.Proofs.ErrorText

/-! Helper lemmas about the text of the crate's error. -/

namespace Stacks
open Spec

/-- The text of a cause. -/
def causeText : Cause → Option Str
  | .hex e => e.text
  | .base58 e => e.text
  | .c32 e => e.text
  | .clarity e => e.text
  | .signatureLength n => (HashError.invalidMessageSigLength n : HashError Empty).text
  | .transaction e => e.text
  | .derive e => some e.display
  | .foreign => none

theorem causeOfC32_text (e : C32.Error) : causeText (causeOfC32 e) = e.text := by cases e <;> rfl

theorem causeOfClarity_text (e : Clarity.Error) : causeText (causeOfClarity e) = e.text := by
  cases e
  case c32 e => exact causeOfC32_text e
  all_goals rfl

theorem causeOfTransaction_text {E : Type} (e : Tx.Error E) : causeText (causeOfTransaction e) = e.text := by
  cases e
  case clarity e => exact causeOfClarity_text e
  case hash e => cases e <;> rfl
  all_goals rfl

section
variable [Secp] [Bip] [Rpc.Http]

theorem innermost_text (e : CrateError) : causeText (innermost e) = e.text := by
  cases e with
  | base58 e => cases e <;> rfl
  | c32 e => exact causeOfC32_text e
  | hex e => rfl
  | clarity e => exact causeOfClarity_text e
  | transaction e => exact causeOfTransaction_text e
  | rpc e => cases e <;> first | rfl | exact causeOfClarity_text _
  | wallet e => cases e <;> first | rfl | exact causeOfC32_text _
  | derive e => rfl

end

/-- The causes that are the innermost ones of some error. -/
inductive Leaf : Cause → Prop
  | hex (e) : Leaf (.hex e)
  | base58 (e) : e ≠ .tryFromInt → Leaf (.base58 e)
  | tx (e : Tx.Error Empty) : Leaf (causeOfTransaction e)
  | derive (e) : Leaf (.derive e)

theorem leaf_clarity (e : Clarity.Error) : Leaf (causeOfClarity e) := .tx (.clarity e)
theorem leaf_c32 (e : C32.Error) : Leaf (causeOfC32 e) := leaf_clarity (.c32 e)

section
variable [Secp] [Bip] [Rpc.Http]

theorem leaf_innermost (e : CrateError) : Leaf (innermost e) := by
  have hf : Leaf .foreign := .tx .tryFromInt
  cases e with
  | base58 e => cases e <;> first | exact hf | exact .base58 _ (fun h => by cases h)
  | c32 e => exact leaf_c32 e
  | hex e => exact .hex e
  | clarity e => exact leaf_clarity e
  | transaction e =>
    cases e
    case clarity e => exact leaf_clarity e
    case hash e => cases e with
      | invalidMessageSigLength n => exact .tx (.hash (.invalidMessageSigLength n))
      | _ => exact hf
    case secp256k1 => exact hf
    case tryFromInt => exact hf
    case originOversign => exact .tx .originOversign
    case originPostSponsorSign => exact .tx .originPostSponsorSign
    case originPostSponsorAppend => exact .tx .originPostSponsorAppend
    case sponsorOversign => exact .tx .sponsorOversign
    case badSigner a b => exact .tx (.badSigner a b)
    case badSignatureCount a b => exact .tx (.badSignatureCount a b)
    case badSpendingConditionModification => exact .tx .badSpendingConditionModification
  | rpc e => cases e <;> first | exact hf | exact leaf_clarity _
  | wallet e => cases e <;> first | exact hf | exact leaf_c32 _
  | derive e => exact .derive e

end

theorem tx_shown {e : Tx.Error Empty} (h : CauseShown (causeOfTransaction e)) : HashShown e := by
  cases e <;> trivial

/-- The first letters of the texts of transactions. -/
theorem Tx.Error.text_head {E : Type} {e : Tx.Error E} {s : Str} (h : e.text = some s) :
    (∃ c : Clarity.Error, e = .clarity c) ∨ (∃ t, s = 'A' :: t ∨ s = 'I' :: t) := by
  cases e with
  | clarity c => exact .inl ⟨c, rfl⟩
  | hash a =>
    obtain ⟨t, ht⟩ := HashError.text_head (show a.text = some s from h)
    exact .inr ⟨_, .inr (by rw [ht]; rfl)⟩
  | _ => simp [Tx.Error.text] at h <;> subst h <;> simp

theorem hex_b58 {a : Hex.Error} {b : B58.Error} {s : Str} (h : a.text = some s) (h' : b.text = some s) : False := by
  rw [← h'] at h
  cases a <;> cases b <;> simp [Hex.Error.text, B58.Error.text] at h

theorem hex_clarity {a : Hex.Error} {b : Clarity.Error} {s : Str} (h : a.text = some s) (h' : b.text = some s) :
    False := by
  rw [← h'] at h
  cases b with
  | c32 b => cases a <;> cases b <;> simp [Hex.Error.text, Clarity.Error.text, C32.Error.text] at h
  | _ => cases a <;> simp [Hex.Error.text, Clarity.Error.text] at h

theorem hex_tx {E : Type} {a : Hex.Error} {b : Tx.Error E} {s : Str} (h : a.text = some s) (h' : b.text = some s) :
    False := by
  rcases Tx.Error.text_head h' with ⟨c, rfl⟩ | ⟨t, rfl | rfl⟩
  · exact hex_clarity h h'
  · cases a <;> simp [Hex.Error.text] at h
  · cases a <;> simp [Hex.Error.text] at h

theorem derive_head (e : Derive.Error) : ∃ t, e.display = 'F' :: t := by
  cases e
  · rw [Derive.Error.display_cast]; exact ⟨_, rfl⟩
  · rw [Derive.Error.display_extract]; exact ⟨_, rfl⟩
  · rw [Derive.Error.display_match]; exact ⟨_, rfl⟩

theorem hex_derive {a : Hex.Error} {b : Derive.Error} (h : a.text = some b.display) : False := by
  obtain ⟨t, ht⟩ := derive_head b
  rw [ht] at h
  cases a <;> simp [Hex.Error.text] at h

theorem b58_derive {a : B58.Error} {b : Derive.Error} (h : a.text = some b.display) : False := by
  obtain ⟨t, ht⟩ := derive_head b
  rw [ht] at h
  cases a <;> simp [B58.Error.text] at h

theorem tx_derive {E : Type} {a : Tx.Error E} {b : Derive.Error} (h : a.text = some b.display) : False := by
  obtain ⟨t, ht⟩ := derive_head b
  rw [ht] at h
  rcases Tx.Error.text_head h with ⟨c, rfl⟩ | ⟨t, h' | h'⟩
  · obtain ⟨u, hu | hu⟩ := Clarity.Error.text_head (show c.text = _ from h) <;> simp at hu
  · simp at h'
  · simp at h'

end Stacks

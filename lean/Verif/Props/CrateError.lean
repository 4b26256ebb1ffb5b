import Verif.Proofs.CrateError
import Verif.Props.ErrorText
import Verif.Props.Wallet
import Verif.Props.Rpc

/-! # Property C98: the text of the crate's error -/

namespace Stacks
open Spec

theorem b58_tx {E : Type} {a : B58.Error} {b : Tx.Error E} {s : Str} (hs : BytesShown a) (h : a.text = some s)
    (h' : b.text = some s) : ∃ c, a = .badChar c ∧ causeOfTransaction b = .c32 (.badChar c) := by
  rcases Tx.Error.text_head h' with ⟨c, rfl⟩ | ⟨t, rfl | rfl⟩
  · cases c with
    | c32 e =>
      obtain ⟨ch, rfl, rfl⟩ := (C88_alphabets a e s hs h).1 h'
      exact ⟨ch, rfl, rfl⟩
    | _ =>
      exfalso
      rw [← h'] at h
      cases a <;> simp [B58.Error.text, Tx.Error.text, Clarity.Error.text] at h h'
  · exfalso; cases a <;> simp [B58.Error.text] at h
  · exfalso; cases a <;> simp [B58.Error.text] at h

section
variable [Secp] [Bip] [Rpc.Http]

/-- **C98** The text of an error of the crate, when it is the crate's own, says what the error comes
from, through whatever it was wrapped in; except that a bad character of Base58 reads as one of
C32. -/
theorem C98_text_tells (e e' : CrateError) (s : Str) (c : CauseShown (innermost e)) (c' : CauseShown (innermost e'))
    (h : e.text = some s) (h' : e'.text = some s) :
    innermost e = innermost e' ∨ ∃ ch, BadCharacter ch (innermost e) ∧ BadCharacter ch (innermost e') := by
  rw [← innermost_text] at h h'
  have l := leaf_innermost e
  have l' := leaf_innermost e'
  generalize innermost e = x at *
  generalize innermost e' = y at *
  cases l with
  | hex a => cases l' with
    | hex b => exact .inl (congrArg _ (Hex.Error.text_inj a b s trivial trivial h h'))
    | base58 b => exact (hex_b58 h h').elim
    | tx b => exact (hex_tx h ((causeOfTransaction_text b).symm.trans h')).elim
    | derive b => exact (hex_derive (h.trans h'.symm)).elim
  | base58 a => cases l' with
    | hex b => exact (hex_b58 h' h).elim
    | base58 b => exact .inl (congrArg _ (B58.Error.text_inj a b s c c' h h'))
    | tx b =>
      obtain ⟨ch, h1, h2⟩ := b58_tx c h ((causeOfTransaction_text b).symm.trans h')
      exact .inr ⟨ch, .inl (congrArg _ h1), .inr h2⟩
    | derive b => exact (b58_derive (h.trans h'.symm)).elim
  | tx a =>
    have ha := (causeOfTransaction_text a).symm.trans h
    cases l' with
    | hex b => exact (hex_tx h' ha).elim
    | base58 b =>
      obtain ⟨ch, h1, h2⟩ := b58_tx c' h' ha
      exact .inr ⟨ch, .inr h2, .inl (congrArg _ h1)⟩
    | tx b =>
      have := Tx.Error.text_inj a b s (tx_shown c) (tx_shown c') ha ((causeOfTransaction_text b).symm.trans h')
      exact .inl (congrArg _ this)
    | derive b => exact (tx_derive (ha.trans h'.symm)).elim
  | derive a => cases l' with
    | hex b => exact (hex_derive (h'.trans h.symm)).elim
    | base58 b => exact (b58_derive (h'.trans h.symm)).elim
    | tx b => exact (tx_derive (((causeOfTransaction_text b).symm.trans h').trans h.symm)).elim
    | derive b => exact .inl (congrArg _ (Derive.Error.text_inj a b s c c' h h'))

/-- **C98** Wrapping does not show: errors that come from the same thing have the same text, and an
error has a text of the crate exactly when it comes from the crate. -/
theorem C98_wrapping (e e' : CrateError) :
    (innermost e = innermost e' → e.text = e'.text) ∧ (e.text = none ↔ innermost e = .foreign) := by
  refine ⟨fun h => by rw [← innermost_text, ← innermost_text, h], ?_⟩
  rw [← innermost_text]
  have l := leaf_innermost e
  generalize innermost e = x at *
  constructor
  · intro h
    cases l with
    | hex a => cases a <;> cases h
    | base58 a ha => cases a <;> first | exact absurd rfl ha | cases h
    | derive a => cases h
    | tx a =>
      cases a
      case clarity a =>
        cases a
        case c32 a => cases a <;> first | rfl | cases h
        all_goals first | rfl | cases h
      case hash a => cases a <;> first | rfl | cases h
      all_goals first | rfl | cases h
  · rintro rfl; rfl

end

/-! ## The hypotheses are satisfiable -/

section
attribute [local instance] Concrete.toySecp Wallet.toyBip Rpc.toyHttp

example : CauseShown (innermost (.transaction (.badSigner "ab".toList "cd".toList))) ∧
    (CrateError.transaction (.badSigner "ab".toList "cd".toList)).text =
      some "Invalid signer hash, expected ab - got: cd".toList := by
  refine ⟨?_, by decide +kernel⟩
  show ' ' ∉ "ab".toList
  decide

/-- One cause, two variants; two causes, one text. -/
example : innermost (.wallet (.c32 .badInput)) = innermost (.rpc (.clarity (.c32 .badInput))) := rfl
example : (CrateError.base58 (.badChar 'l')).text = (CrateError.wallet (.c32 (.badChar 'l'))).text := rfl

example := C98_text_tells (.base58 (.badChar 'l')) (.wallet (.c32 (.badChar 'l'))) _ trivial trivial rfl rfl

end

end Stacks

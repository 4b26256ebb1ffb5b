import Verif.Model.ErrorText

/-! # What a reader of an error's text learns -/

namespace Stacks.Spec

/-- Among the errors of a class, those with a text of the crate are determined by it. -/
def Identifies {α : Type} (text : α → Option Str) (cls : α → Prop) : Prop :=
  ∀ e e' s, cls e → cls e' → text e = some s → text e' = some s → e = e'

/-- The checksum errors whose first part is the `Debug` text of some bytes. -/
def BytesShown : B58.Error → Prop
  | .badChecksum a _ => ∃ bs, a = B58.debugBytes bs
  | _ => True

/-- The signer errors whose first part is without spaces. -/
def HashShown {E : Type} : Tx.Error E → Prop
  | .badSigner a _ => ' ' ∉ a
  | _ => True

/-- The derivation errors that name a field and a struct by an identifier of Rust: the type of the
field may be any text. -/
def NamesShown : Derive.Error → Prop
  | .cast key _ ident => '\'' ∉ key ∧ '\'' ∉ ident
  | .extract key ident => '\'' ∉ key ∧ '\'' ∉ ident
  | .match key ident => '\'' ∉ key ∧ '\'' ∉ ident

end Stacks.Spec

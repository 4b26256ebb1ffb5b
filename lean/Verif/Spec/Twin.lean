import Verif.Spec.Ecdsa
import Verif.Spec.Signing
import Verif.Proofs.Basic

/-! # The other signature

If `(r, s)` is a signature then so is `(r, order − s)`, with the other recovery identifier of the
pair 0, 1 or 2, 3. It can be written down without any key. -/

namespace Stacks.Spec
open Stacks.Tx

/-- In bytes: recovery identifier, then `r` and `s` with 32 bytes each. -/
def twinBytes (sig : Arr 65) : Arr 65 :=
  ⟨(sig.1.head (by rw [ne_eq, ← List.length_eq_zero_iff, sig.2]; decide) ^^^ 1) :: ((sig.1.drop 1).take 32 ++
      beBytes 32 (Ecdsa.order - beVal (sig.1.drop 33))), by
    simp [sig.2]⟩

section
variable [Secp]

/-- The same transaction with another signature of the origin, which is a single signature. -/
def withOriginSignature (t : Transaction) (c : SingleSig) (sig : Arr 65) : Transaction :=
  { t with auth := .standard (.single { c with signature := sig }) }

/-- The same transaction with other fields of the origin, which is a multi-sig. -/
def withOriginFields (t : Transaction) (c : MultiSig) (fs : List AuthField) : Transaction :=
  { t with auth := .standard (.multi { c with fields := fs }) }

/-- The same transaction with another signature of the sponsor, which has a single one. -/
def withSponsorSignature (t : Transaction) (o : Spending) (q : SingleSig) (sig : Arr 65) : Transaction :=
  { t with auth := .sponsored o (.single { q with signature := sig }) }

end

end Stacks.Spec

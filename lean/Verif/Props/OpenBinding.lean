import Verif.Props.Open
import Verif.Props.Binding

/-! # C114, with real signatures: what binds the parts of other implementations

Over secp256k1, as C99. -/

namespace Stacks.Open
open Stacks.Spec Stacks.Clarity Stacks.Tx Stacks.Concrete.Ecdsa

section
attribute [local instance] realSecp
local instance openBindingLawful : Secp.Lawful := realLawful
variable [Hashes]

/-- **C114** Two transactions whose origins verify with the same signatures, one or several, for the same account:
version, chain, authorization without signatures and modes agree, the post-conditions and the payload write the
same bytes, and fee and nonce agree; or one of the explicit collisions of C99 is in hand. -/
theorem C114_origin_binding (t t' : OTransaction) (n n' : Arr 32) (h : WellFormedAuth t.auth)
    (h' : WellFormedAuth t'.auth) (hs : SameSignatures t.auth.origin t'.auth.origin)
    (hv : t.verifyOrigin = .ok n) (hv' : t'.verifyOrigin = .ok n') :
    ∃ cb pb cb' pb', Body t cb pb ∧ Body t' cb' pb' ∧
    ((t.version = t'.version ∧ t.chainId = t'.chainId ∧ clearedAuth t.auth = clearedAuth t'.auth ∧
      t.anchorMode = t'.anchorMode ∧ t.postConditionMode = t'.postConditionMode ∧ cb ++ pb = cb' ++ pb' ∧
      t.auth.origin.fee = t'.auth.origin.fee ∧ t.auth.origin.nonce = t'.auth.origin.nonce) ∨
    (openPreimage t cb pb ≠ openPreimage t' cb' pb' ∧
      Hashes.sha512_256 (openPreimage t cb pb) = Hashes.sha512_256 (openPreimage t' cb' pb')) ∨
    DigestsMeet (firstSigned (Hashes.sha512_256 (openPreimage t cb pb)) 4 t.auth.origin)
      (firstSigned (Hashes.sha512_256 (openPreimage t' cb' pb')) 4 t'.auth.origin) ∨
    SignersCollide (Hashes.sha512_256 (openPreimage t cb pb)) 4 (Hashes.sha512_256 (openPreimage t' cb' pb')) 4
      t.auth.origin t'.auth.origin) := by
  obtain ⟨cb, pb, hb, hv⟩ := (overifyOrigin_iff t n).1 hv
  obtain ⟨cb', pb', hb', hv'⟩ := (overifyOrigin_iff t' n').1 hv'
  refine ⟨cb, pb, cb', pb', hb, hb', ?_⟩
  rcases C99_binding _ _ _ _ n n' 4 4 hs hv hv' with ⟨h1, _, h3, h4⟩ | h1 | h1
  · by_cases hp : openPreimage t cb pb = openPreimage t' cb' pb'
    · obtain ⟨a, b, c, d, e, f⟩ := C114_preimage_determines t t' cb pb cb' pb' h h' hp
      exact .inl ⟨a, b, c, d, e, f, h3, h4⟩
    · exact .inr (.inl ⟨hp, h1⟩)
  · exact .inr (.inr (.inl h1))
  · exact .inr (.inr (.inr h1))

end

/-! ## The hypotheses are satisfiable -/

section
attribute [local instance] Concrete.realHashes realSecp
local instance openBindingExLawful : Secp.Lawful := realLawful

/-- The account of the key 7. -/
def exRealSpending : SingleSig := ⟨.p2pkh, 3, 1, hash160Of (serialize (pub ⟨7, by decide⟩)).1, noSignature⟩

/-- The deployment of `exOpen`, of that account. -/
def exRealOpen : OTransaction :=
  ⟨.testnet, .testnet, .standard (.single exRealSpending),
    .any, .deny, [.foreign (.ok [0xff]) []], exDeploy⟩

/-- Signed with that key, it verifies. -/
example : ∃ t n, exRealOpen.sign ⟨7, by decide⟩ = .ok t ∧ WellFormedAuth t.auth ∧
    SameSignatures t.auth.origin t.auth.origin ∧ t.verifyOrigin = .ok n := by
  obtain ⟨s, _, h1, _, _, ⟨sig, ha⟩, h3, _⟩ := C114_sign_then_verify exRealOpen (pub ⟨7, by decide⟩) 3 1 .p2pkh
    exRealSpending ⟨7, by decide⟩ ((single_new_iff _ _ _ _ _).2 ⟨rfl, rfl, rfl, rfl, rfl⟩) rfl
    (conditions := [0, 0, 0, 1, 0xff]) (payload := [0x01, 1, 0x63, 0, 0, 0, 1, 0x31])
    ⟨⟨by decide, [0xff], rfl, rfl⟩, rfl⟩
  exact ⟨s.tx, s.hash, h1, ha ▸ .inl rfl, ha ▸ ⟨rfl, rfl⟩, h3 rfl⟩

end

end Stacks.Open

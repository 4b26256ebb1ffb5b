import Verif.Spec.Ecdsa
import Verif.Spec.HashFunctions
import Verif.Model.Basic

/-! # Signatures with the nonces of RFC 6979

Stated with Mathlib's group of points and the SHA-256 of `Verif/Spec/HashFunctions.lean`. -/

namespace Stacks.Spec.Rfc6979
open WeierstrassCurve
open HashFunctions (IsSha256)
open Ecdsa (order curve fieldPrime)

/-- HMAC-SHA256 (RFC 2104) with a key of at most a block of 64 bytes: the key is filled up with zeros to a block; the
hash of this block, with 5c added to every byte, and of the hash of the block, with 36 added, and the message. -/
def IsHmac (key message mac : Bytes) : Prop :=
  key.length ≤ 64 ∧ ∃ block inner : Bytes, block.length = 64 ∧ (∀ i < 64, block.getD i 0 = key.getD i 0) ∧
    IsSha256 (block.map (· ^^^ 0x36) ++ message) inner ∧
    IsSha256 (block.map (· ^^^ 0x5c) ++ inner) mac

/-- Section 3.2, steps b to g: `K` and `V` before the first candidate. `x` is the private key and the digest. -/
def IsStart (x K V : Bytes) : Prop :=
  let K₀ := List.replicate 32 0
  let V₀ := List.replicate 32 1
  ∃ K₁ V₁, IsHmac K₀ (V₀ ++ [0] ++ x) K₁ ∧ IsHmac K₁ V₀ V₁ ∧ IsHmac K₁ (V₁ ++ [1] ++ x) K ∧ IsHmac K V₁ V

/-- Step h: `K` and `V` before candidate number `i`. -/
inductive Before (x : Bytes) : Nat → Bytes → Bytes → Prop
  | start {K V} : IsStart x K V → Before x 0 K V
  | next {i K V T K' V'} : Before x i K V → IsHmac K V T → IsHmac K (T ++ [0]) K' → IsHmac K' T V' →
      Before x (i + 1) K' V'

/-- Candidate number `i` for the nonce. -/
def IsCandidate (x : Bytes) (i k : Nat) : Prop :=
  ∃ K V T, Before x i K V ∧ IsHmac K V T ∧ k = beVal T

/-- The ECDSA signature of the number `m` by the private key `d` with the nonce `k`. Of the two values of `s` it is the
lower one. The recovery identifier tells whether the abscissa of the point was reduced, and the parity of the ordinate
of the point that belongs to this `s`. -/
def SignsWith [Fact fieldPrime.Prime] (G : curve.Point) (d m k r s id : Nat) : Prop :=
  0 < k ∧ k < order ∧ ∃ (x y : ZMod fieldPrime) (h : curve.Nonsingular x y) (s₀ : Nat),
    k • G = .some x y h ∧ r = x.val % order ∧ 0 < r ∧
    0 < s₀ ∧ s₀ < order ∧ s₀ * k ≡ m + r * d [MOD order] ∧
    s = (if 2 * s₀ < order then s₀ else order - s₀) ∧
    id = (if x.val < order then 0 else 2) + (if 2 * s₀ < order then y.val % 2 else 1 - y.val % 2)

/-- The nonce can be used. -/
def Usable [Fact fieldPrime.Prime] (G : curve.Point) (d m k : Nat) : Prop := ∃ r s id, SignsWith G d m k r s id

/-- Step d: the private key, and the 32-byte digest reduced modulo the order (`int2octets` and `bits2octets`). -/
def seed (d : Nat) (m : Bytes) : Bytes := beBytes 32 d ++ beBytes 32 (beVal m % order)

/-- One of the first `bound` candidates can be used. -/
def UsableWithin [Fact fieldPrime.Prime] (bound : Nat) (G : curve.Point) (d : Nat) (m : Bytes) : Prop :=
  ∃ i < bound, ∃ k, IsCandidate (seed d m) i k ∧ Usable G d (beVal m) k

/-- The signature of the 32-byte digest `m` with the first candidate that can be used. -/
def IsSignature [Fact fieldPrime.Prime] (G : curve.Point) (d : Nat) (m : Bytes) (r s id : Nat) : Prop :=
  ∃ i k, IsCandidate (seed d m) i k ∧ SignsWith G d (beVal m) k r s id ∧
    ∀ j < i, ∀ k', IsCandidate (seed d m) j k' → ¬ Usable G d (beVal m) k'

end Stacks.Spec.Rfc6979

import Verif.Spec.Ecdsa
import Verif.Spec.HashFunctions
import Verif.Model.Basic

/-! # Seeds (BIP 39) and hierarchical keys (BIP 32)

Stated with Mathlib's group of points and the SHA-512 of `Verif/Spec/HashFunctions.lean`. -/

namespace Stacks.Spec
open WeierstrassCurve
open HashFunctions (IsSha512)

/-- HMAC-SHA512 (RFC 2104): the key, or its hash if it is longer than a block of 128 bytes, is filled up with
zeros to a block; the hash of this block, with 5c added to every byte, and of the hash of the block, with 36 added,
and the message. -/
def IsHmac (key message mac : Bytes) : Prop :=
  ∃ short block inner : Bytes, (if key.length ≤ 128 then short = key else IsSha512 key short) ∧
    block.length = 128 ∧ (∀ i < 128, block.getD i 0 = short.getD i 0) ∧
    IsSha512 (block.map (· ^^^ 0x36) ++ message) inner ∧
    IsSha512 (block.map (· ^^^ 0x5c) ++ inner) mac

/-- The first 64 bytes of PBKDF2 with HMAC-SHA512 (RFC 8018): the sum of the codes of the salt and the number of the
block, of that code, and so on. -/
def IsPbkdf2 (password salt : Bytes) (iterations : Nat) (key : Bytes) : Prop :=
  ∃ code : Nat → Bytes, IsHmac password (salt ++ [0, 0, 0, 1]) (code 0) ∧
    (∀ k, IsHmac password (code k) (code (k + 1))) ∧
    key.length = 64 ∧ ∀ i < 64, key.getD i 0 = (List.range iterations).foldl (fun sum k => sum ^^^ (code k).getD i 0) 0

/-- The seed of a phrase without a passphrase. -/
def IsSeed (phrase : Str) (seed : Bytes) : Prop :=
  IsPbkdf2 phrase.bytes "mnemonic".toUTF8.toList 2048 seed

/-- The bytes are the compressed form of the point: the parity of the ordinate, then the abscissa. -/
def IsCompressed (P : Ecdsa.curve.Point) (bytes : Bytes) : Prop :=
  ∃ (x y : ZMod Ecdsa.fieldPrime) (h : Ecdsa.curve.Nonsingular x y),
    P = .some x y h ∧ bytes = (if y.val % 2 = 0 then 2 else 3) :: beBytes 32 x.val

/-- A private key and a chain code. -/
structure ExtKey where
  key : Nat
  chain : Bytes

/-- The master key: the left and the right half of the HMAC of the seed. -/
def IsMaster (seed : Bytes) (x : ExtKey) : Prop :=
  0 < x.key ∧ x.key < Ecdsa.order ∧ x.chain.length = 32 ∧
  ∃ mac, IsHmac "Bitcoin seed".toUTF8.toList seed mac ∧ beVal mac = x.key * 2 ^ 256 + beVal x.chain

/-- What is hashed for a child: from 2³¹ on ("hardened") the private key, otherwise the public key; and the
index. -/
def ChildData (G : Ecdsa.curve.Point) [Fact Ecdsa.fieldPrime.Prime] (x : ExtKey) (i : Nat) (data : Bytes) : Prop :=
  ∃ key, (if i < 2 ^ 31 then IsCompressed (x.key • G) key else key = 0 :: beBytes 32 x.key) ∧
    data = key ++ beBytes 4 i

/-- The child at an index: the left half of the HMAC is added to the key, the right half is the chain code. -/
def IsChild (G : Ecdsa.curve.Point) [Fact Ecdsa.fieldPrime.Prime] (x : ExtKey) (i : Nat) (y : ExtKey) : Prop :=
  ∃ data mac left, ChildData G x i data ∧ IsHmac x.chain data mac ∧ 0 < left ∧ left < Ecdsa.order ∧
    y.chain.length = 32 ∧ beVal mac = left * 2 ^ 256 + beVal y.chain ∧
    0 < y.key ∧ y.key < Ecdsa.order ∧ y.key ≡ x.key + left [MOD Ecdsa.order]

/-- Children of children. -/
inductive Descends (G : Ecdsa.curve.Point) [Fact Ecdsa.fieldPrime.Prime] : ExtKey → List Nat → ExtKey → Prop
  | here (x : ExtKey) : Descends G x [] x
  | child (x y z : ExtKey) (i : Nat) (path : List Nat) : IsChild G x i y → Descends G y path z → Descends G x (i :: path) z

/-- The key at a path from a seed. -/
def AtPath (G : Ecdsa.curve.Point) [Fact Ecdsa.fieldPrime.Prime] (seed : Bytes) (path : List Nat) (y : ExtKey) : Prop :=
  ∃ x, IsMaster seed x ∧ Descends G x path y

/-- 44', 5757', 0', 0: purpose, coin, account, external chain. -/
def stacksPath : List Nat := [2 ^ 31 + 44, 2 ^ 31 + 5757, 2 ^ 31, 0]

end Stacks.Spec

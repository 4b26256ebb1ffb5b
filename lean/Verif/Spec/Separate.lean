import Verif.Spec.Bip32
import Verif.Spec.Signing

/-! # What it would take for two accounts, or two wallets, to be the same -/

namespace Stacks.Spec

/-- Two different inputs of HMAC-SHA512, a key and a message each, whose codes begin with the same 32 bytes. The keys
are of the same length, so that none is the other filled up with zeros. -/
def LeftHalvesMeet (key message key' message' : Bytes) : Prop :=
  (key ≠ key' ∨ message ≠ message') ∧ key.length = key'.length ∧ key.length ≤ 128 ∧
  ∃ mac mac', IsHmac key message mac ∧ IsHmac key' message' mac' ∧ mac.take 32 = mac'.take 32

/-- The same, with codes that end with the same 32 bytes. -/
def RightHalvesMeet (key message key' message' : Bytes) : Prop :=
  (key ≠ key' ∨ message ≠ message') ∧ key.length = key'.length ∧ key.length ≤ 128 ∧
  ∃ mac mac', IsHmac key message mac ∧ IsHmac key' message' mac' ∧ mac.drop 32 = mac'.drop 32

/-- Two different phrases with the same seed. -/
def SeedsMeet (phrase phrase' : Str) : Prop :=
  phrase ≠ phrase' ∧ ∃ seed, IsSeed phrase seed ∧ IsSeed phrase' seed

/-- Two different public keys, in compressed form, with the same hash. -/
def KeyHashesMeet [Hashes] (bytes bytes' : Bytes) : Prop :=
  bytes ≠ bytes' ∧ bytes.length = 33 ∧ bytes'.length = 33 ∧ hash160Of bytes = hash160Of bytes'

end Stacks.Spec

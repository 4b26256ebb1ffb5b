import Verif.Model.Hash

/-! # What is assumed of secp256k1

The classes `Hashes` and `Secp` of the model assume nothing. The theorems about signing and
verifying that need the signature scheme to work take `[Secp.Lawful]` as an explicit hypothesis. -/

namespace Stacks

/-- Facts about ECDSA public key recovery and the compact signature format used as hypotheses.

* recovering from a signature made with `k` gives the public key of `k`;
* reading back a serialized signature gives that signature;
* serialization of public keys is injective. -/
class Secp.Lawful [Secp] : Prop where
  recover_sign : ∀ m k, Secp.recover m (Secp.sign m k) = .ok (Secp.pub k)
  fromCompact_compact : ∀ s : Secp.RSig, Secp.fromCompact (Secp.compact s).2.1 (Secp.compact s).1 = .ok s
  serialize_injective : ∀ p q : Secp.PK, Secp.serialize p = Secp.serialize q → p = q

namespace Spec

/-- The script of an `m`-of-`n` multi-sig address: `OP_m`, a 33-byte push per key, `OP_n`,
`OP_CHECKMULTISIG`. -/
def multisigScriptSpec [Secp] (m : Nat) (keys : List Secp.PK) : Bytes :=
  UInt8.ofNat (80 + m) :: (keys.flatMap (fun k => 33 :: (Secp.serialize k).1) ++ [UInt8.ofNat (80 + keys.length), 174])

end Spec

end Stacks

import Verif.Model.CrateError
import Verif.Spec.ErrorText

/-! # What an error of the crate comes from -/

namespace Stacks.Spec

/-- The part of the crate an error comes from and what happened there; `foreign` is an error of
another crate or of the standard library. -/
inductive Cause where
  | hex (e : Hex.Error)
  | base58 (e : B58.Error)
  | c32 (e : C32.Error)
  | clarity (e : Clarity.Error)
  | signatureLength (n : Nat)
  | transaction (e : Tx.Error Empty)
  | derive (e : Derive.Error)
  | foreign

def causeOfC32 : C32.Error → Cause
  | .tryFromInt => .foreign
  | .tryFromUtf8 => .foreign
  | e => .c32 e

def causeOfClarity : Clarity.Error → Cause
  | .c32 e => causeOfC32 e
  | .tryFromInt => .foreign
  | .tryFromUtf8 => .foreign
  | .tryFromSlice => .foreign
  | e => .clarity e

def causeOfTransaction {E : Type} : Tx.Error E → Cause
  | .clarity e => causeOfClarity e
  | .hash (.invalidMessageSigLength n) => .signatureLength n
  | .hash _ => .foreign
  | .secp256k1 _ => .foreign
  | .tryFromInt => .foreign
  | .originOversign => .transaction .originOversign
  | .originPostSponsorSign => .transaction .originPostSponsorSign
  | .originPostSponsorAppend => .transaction .originPostSponsorAppend
  | .sponsorOversign => .transaction .sponsorOversign
  | .badSigner a b => .transaction (.badSigner a b)
  | .badSignatureCount a b => .transaction (.badSignatureCount a b)
  | .badSpendingConditionModification => .transaction .badSpendingConditionModification

section
variable [Secp] [Bip] [Rpc.Http]

/-- What an error of the crate comes from, through all wrappers. -/
def innermost : CrateError → Cause
  | .base58 .tryFromInt => .foreign
  | .base58 e => .base58 e
  | .c32 e => causeOfC32 e
  | .hex e => .hex e
  | .clarity e => causeOfClarity e
  | .transaction e => causeOfTransaction e
  | .rpc (.clarity e) => causeOfClarity e
  | .rpc _ => .foreign
  | .wallet (.c32 e) => causeOfC32 e
  | .wallet _ => .foreign
  | .derive e => .derive e

end

/-- The causes the crate's functions make: byte strings, hashes and identifiers shown as such. -/
def CauseShown : Cause → Prop
  | .base58 e => BytesShown e
  | .transaction e => HashShown e
  | .derive e => NamesShown e
  | _ => True

/-- A bad character of Base58 or C32 text. -/
def BadCharacter (c : Char) (e : Cause) : Prop := e = .base58 (.badChar c) ∨ e = .c32 (.badChar c)

end Stacks.Spec

import Verif.Model.Derive
import Verif.Model.Auth
import Verif.Model.B58
import Verif.Model.Hex

/-! # The texts of errors

`Display` of the crate's error enums, generated by `thiserror` from the `#[error(...)]` attributes.
`none` stands for the text of an error of another crate or of the standard library, shown as it is
by `#[error(transparent)]`. -/

namespace Stacks

/-- `{0}` of an unsigned integer. -/
def showNat (n : Nat) : Str := Nat.toDigits 10 n

/-- hex.rs:13-20 `hex::Error`. -/
def Hex.Error.text : Hex.Error → Option Str
  | .badChar => some "Bad hex character encountered".toList
  | .unpaddedHex s len => some ("Received unpadded hex: input ".toList ++ s ++ " with length ".toList ++ showNat len)

/-- b58.rs:31-44 `b58::Error`. -/
def B58.Error.text : B58.Error → Option Str
  | .badChar c => some ("Bad character encountered: ".toList ++ [c])
  | .badChecksum a b => some ("Bad checksum - expected ".toList ++ a ++ ", received: ".toList ++ b)
  | .unknownAddressVersion v => some ("Unknown address version, received: ".toList ++ showNat v.toNat)
  | .tryFromInt => none

/-- c32.rs:29-52 `c32::Error`; `{0:?}` of an array or vector of bytes is `B58.debugBytes`. -/
def C32.Error.text : C32.Error → Option Str
  | .badChar c => some ("Bad character encountered: ".toList ++ [c])
  | .badInput => some "Bad input string, must be ASCII and contain only valid C32 characters.".toList
  | .badChecksum a b =>
    some ("Bad checksum - expected ".toList ++ B58.debugBytes a.1 ++ ", received ".toList ++ B58.debugBytes b)
  | .badAddress s => some ("Bad C32 address: ".toList ++ s)
  | .unknownAddressVersion v => some ("Unknown address version, received: ".toList ++ showNat v.toNat ++
      " - expected one of '[22, 26, 20, 21]'".toList)
  | .tryFromInt => none
  | .tryFromUtf8 => none

/-- clarity/mod.rs:25-53 `clarity::Error`. -/
def Clarity.Error.text : Clarity.Error → Option Str
  | .badStringLength n m => some ("Bad string length - received ".toList ++ showNat n ++ " bytes, max. ".toList ++
      showNat m ++ " bytes".toList)
  | .badStringType s => some ("Bad string type - expected: ".toList ++ s)
  | .badIdentifier a b => some ("Bad type identifier - expected: ".toList ++ showNat a.toNat ++
      ", received: ".toList ++ showNat b.toNat)
  | .badDowncast => some "Bad downcast, please check the type identifier and the cast type".toList
  | .unexpectedType a => some ("Unexpected type identifier - received: ".toList ++ showNat a.toNat)
  | .c32 e => e.text
  | .tryFromInt => none
  | .tryFromUtf8 => none
  | .tryFromSlice => none

/-- hash.rs:21-31 `hash::Error`. -/
def HashError.text {E : Type} : HashError E → Option Str
  | .invalidMessageSigLength n =>
    some ("Invalid message signature length, expected 65 bytes - got: ".toList ++ showNat n)
  | .secp256k1 _ => none
  | .tryFromInt => none

/-- transaction/mod.rs:47-78 `transaction::Error`. -/
def Tx.Error.text {E : Type} : Tx.Error E → Option Str
  | .originOversign => some "Attempted to sign origin with too many signatures".toList
  | .originPostSponsorSign => some "Attempted to sign origin after sponsor key".toList
  | .originPostSponsorAppend => some "Attempted to append public key to origin after sponsor key".toList
  | .sponsorOversign => some "Attempted to sign sponsor with too many signatures".toList
  | .badSigner a b => some ("Invalid signer hash, expected ".toList ++ a ++ " - got: ".toList ++ b)
  | .badSignatureCount a b => some ("Invalid signature count, expected ".toList ++ showNat a.toNat ++
      " - got: ".toList ++ showNat b.toNat)
  | .badSpendingConditionModification =>
    some "Attempted to modify a spending condition with an incompatible action".toList
  | .hash e => e.text
  | .clarity e => e.text
  | .secp256k1 _ => none
  | .tryFromInt => none

end Stacks

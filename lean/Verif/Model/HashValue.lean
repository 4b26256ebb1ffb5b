import Verif.Model.Hash
import Verif.Model.Hex

/-! # The hash types of `stacks/src/crypto/hash.rs` as values

`impl_hash_byte_array!` (hash.rs:33-93) makes `Sha256Hash`, `DSha256Hash`, `Sha512_256Hash`, `Hash160`,
`MessageSignature` and `SignatureHash` out of byte arrays. -/

namespace Stacks

/-- `Ord` of byte slices and arrays: the first differing byte decides, then the length. -/
def cmpBytes : Bytes → Bytes → Ordering
  | [], [] => .eq
  | [], _ :: _ => .lt
  | _ :: _, [] => .gt
  | a :: as, b :: bs => if a < b then .lt else if b < a then .gt else cmpBytes as bs

/-- `Ord for str`: that of the UTF-8 bytes. -/
def cmpStr (s t : Str) : Ordering := cmpBytes s.bytes t.bytes

namespace HashValue

/-- hash.rs:35-36 `#[derive(PartialOrd, Ord)]`. -/
def cmp {n : Nat} (a b : Arr n) : Ordering := cmpBytes a.1 b.1

/-- hash.rs:46-48 `hex`. -/
def hex {n : Nat} (a : Arr n) : Str := Hex.bytesToHex a.1

/-- hash.rs:52-56: the loop of `fmt`, which writes every byte with `{:02x}` after what was written. -/
def debugLoop (f : Str) : Bytes → Str
  | [] => f
  | i :: rest => debugLoop (f ++ [Hex.digitChar (i.toNat / 16), Hex.digitChar (i.toNat % 16)]) rest

/-- hash.rs:50-58 `Debug`. -/
def debug {n : Nat} (a : Arr n) : Str := debugLoop [] a.1

/-- hash.rs:59-63 `Default`. -/
def default (n : Nat) : Arr n := zeros n

/-- hash.rs:120-125, 145-150, 169-174, 203-208 `checksum`: `buff.copy_from_slice(&bytes[0..4])`. -/
def checksum {ε : Type} {n : Nat} (a : Arr n) : Outcome ε (Arr 4) := do
  let s ← slice a.1 0 4
  copyFromSlice 4 s

/-- hash.rs:214-221 `MessageSignature::new`. -/
def messageSigNew {ε : Type} (bs : Bytes) : Outcome ε (Arr 65) := copyFromSlice 65 bs

end HashValue

end Stacks

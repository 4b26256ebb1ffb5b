import Verif.Model.Wallet
import Verif.Concrete.Ecdsa
import Verif.Concrete.Ripemd
import Verif.Model.Mnemonic

/-! # Hierarchical keys (BIP 32) over secp256k1

The model treats the crates `bip32` and `bip39` as parameters (class `Bip`). This file is an
executable instance of that class, in which the parsing of a mnemonic phrase is a parameter: it can be
that of `bip39` with any list of words (`bip39Phrases`), in particular the English one. It exists so that the repository's wallet tests can be evaluated by the kernel
(`Verif/VectorsWallet.lean`) and the hypothesis `Bip.Lawful` can be proved of the real scheme
(`Verif/Concrete/Bip32Lawful.lean`). The theorems of C104
relate it to the relations of `Verif/Spec/Bip32.lean`. -/

namespace Stacks.Concrete.Bip32
open Stacks.Concrete.Ecdsa

/-- SHA-512: the algorithm of SHA-512/256 with other initial values and no truncation. -/
def sha512P : Sha2 := { sha512_256P with
  iv := [0x6a09e667f3bcc908, 0xbb67ae8584caa73b, 0x3c6ef372fe94f82b, 0xa54ff53a5f1d36f1,
    0x510e527fade682d1, 0x9b05688c2b3e6c1f, 0x1f83d9abfb41bd6b, 0x5be0cd19137e2179] }

/-- The digest of SHA-512. -/
def sha512 (bs : Bytes) : Bytes :=
  let p := sha512P.pad bs
  (sha512P.blocks (Sha2.chunks 128 p.length p) sha512P.iv).flatMap (beBytes 8)

example : beVal (sha512 "abc".toUTF8.toList) =
    0xddaf35a193617abacc417349ae20413112e6fa4e89a97ea20a9eeee64b55d39a2192992a274fc1a836ba3c23a3feebbd454d4423643ce80e2a9ac94fa54ca49f := by
  decide +kernel

/-- HMAC-SHA512. -/
def hmac512 (key msg : Bytes) : Bytes :=
  let key := if 128 < key.length then sha512 key else key
  let pad (c : UInt8) : Bytes := (key ++ List.replicate (128 - key.length) 0).map (· ^^^ c)
  sha512 (pad 0x5c ++ sha512 (pad 0x36 ++ msg))

/-- The exclusive or of the iterates of PBKDF2. -/
def pbkdfLoop (password : Bytes) : Nat → Bytes → Bytes → Bytes
  | 0, _, acc => acc
  | i + 1, u, acc =>
    let u' := hmac512 password u
    pbkdfLoop password i u' (List.zipWith (· ^^^ ·) acc u')

/-- PBKDF2-HMAC-SHA512 with one block of output (64 bytes). -/
def pbkdf2 (password salt : Bytes) (iterations : Nat) : Bytes :=
  let u := hmac512 password (salt ++ [0, 0, 0, 1])
  pbkdfLoop password (iterations - 1) u u

/-- `Mnemonic::to_seed_normalized` (BIP 39). -/
def toSeed (phrase passphrase : Str) : Bytes :=
  pbkdf2 phrase.bytes (Str.bytes ("mnemonic".toList ++ passphrase)) 2048

/-- `XPrv`: a secret key, a chain code and a depth. -/
structure XPrv where
  key : SK
  chain : Nat
  depth : UInt8

/-- The errors of `bip32` that the repository can meet. -/
inductive Err where
  | crypto
  | depth
  | decode
deriving DecidableEq

/-- The master key of a seed. -/
def master (seed : Bytes) : Except Err XPrv :=
  force (beVal (hmac512 "Bitcoin seed".toUTF8.toList seed)) fun i =>
  force (i / 2 ^ 256) fun l =>
  force (i % 2 ^ 256) fun c =>
  if h : 0 < l ∧ l < n then .ok ⟨⟨l, h⟩, c, 0⟩ else .error .crypto

/-- `XPrv::derive_child`. -/
def deriveChild (x : XPrv) (i : UInt32) : Except Err XPrv :=
  if x.depth = 255 then .error .depth
  else
    let data : Bytes := (if 2 ^ 31 ≤ i.toNat then 0 :: beBytes 32 x.key.1 else (serialize (pub x.key)).1) ++ beBytes 4 i.toNat
    force (beVal (hmac512 (beBytes 32 x.chain) data)) fun t =>
    force (t / 2 ^ 256) fun l =>
    force (t % 2 ^ 256) fun c =>
    force ((l + x.key.1) % n) fun k =>
    if h : 0 < l ∧ l < n ∧ 0 < k ∧ k < n then .ok ⟨⟨k, h.2.2⟩, c, x.depth + 1⟩ else .error .crypto

/-- One component of a path: a number below 2³¹, with an apostrophe if hardened. -/
def parseIndex (s : Str) : Except Err UInt32 :=
  let hardened := s.getLast? = some '\''
  let digits := if hardened then s.dropLast else s
  if digits ≠ [] ∧ digits.all Char.isDigit then
    let v := digits.foldl (fun a c => a * 10 + (c.toNat - 48)) 0
    if v < 2 ^ 31 then .ok (UInt32.ofNat (if hardened then v + 2 ^ 31 else v)) else .error .decode
  else .error .decode

/-- The components of a text between slashes. -/
def splitSlash : Str → List Str
  | [] => [[]]
  | c :: cs => match splitSlash cs with
    | [] => [[]]
    | w :: ws => if c = '/' then [] :: w :: ws else (c :: w) :: ws

/-- The components of a path, in order. -/
def parseIndices : List Str → Except Err (List UInt32)
  | [] => .ok []
  | s :: ss => match parseIndex s with
    | .ok i => (match parseIndices ss with
      | .ok is => .ok (i :: is)
      | .error e => .error e)
    | .error e => .error e

/-- `DerivationPath::from_str`. -/
def parsePath (s : Str) : Except Err (List UInt32) :=
  match splitSlash s with
  | ['m'] :: rest => parseIndices rest
  | _ => .error .decode

/-- Successive derivations. -/
def deriveAll (x : XPrv) : List UInt32 → Except Err XPrv
  | [] => .ok x
  | i :: is => match deriveChild x i with
    | .ok y => deriveAll y is
    | .error e => .error e

/-- `XPrv::derive_from_path`. -/
def deriveFromPath (seed : Bytes) (path : List UInt32) : Except Err XPrv :=
  match master seed with
  | .ok x => deriveAll x path
  | .error e => .error e

/-- `SecretKey::from_slice`. -/
def skFromSlice (bs : Bytes) : Except Ecdsa.Err SK :=
  if bs.length = 32 then
    (if h : 0 < beVal bs ∧ beVal bs < n then .ok ⟨beVal bs, h⟩ else .error .invalidKey)
  else .error .invalidKey

/-- `PublicKey::from_slice`, for compressed keys (the repository parses no others). -/
def pkFromSlice (bs : Bytes) : Except Ecdsa.Err PK :=
  match bs with
  | tag :: xs =>
    if xs.length = 32 ∧ (tag = 2 ∨ tag = 3) then
      match liftX (beVal xs) (tag == 3) with
      | some q => if h : Valid q then .ok ⟨q, h⟩ else .error .invalidKey
      | none => .error .invalidKey
    else .error .invalidKey
  | [] => .error .invalidKey

/-- How phrases are read, and the words that are hashed. -/
structure Phrases where
  Mnemonic : Type
  Err : Type
  parse : Str → Except Err Mnemonic
  text : Mnemonic → Str

/-- The phrases of the crate `bip39`, for a list of words and a normalisation of text. -/
@[reducible] def bip39Phrases [Hashes] (normal : Str → Str) (list : List Str) : Phrases where
  Mnemonic := List Nat
  Err := Mnemonic.Error
  parse := Mnemonic.parse normal list
  text := fun m => Mnemonic.unwords (Mnemonic.wordIter list m)

/-- The crates `bip32` and `bip39`, as an instance of the class of the model. -/
@[reducible] def realBip (phrases : Phrases) : @Bip realSecp :=
  letI := realSecp
  { XPrv := XPrv
    Mnemonic := phrases.Mnemonic
    Path := List UInt32
    Err32 := Err
    Err39 := phrases.Err
    parseMnemonic := phrases.parse
    toSeed := fun m => toSeed (phrases.text m)
    parsePath := parsePath
    deriveFromPath := deriveFromPath
    deriveChild := deriveChild
    privateBytes := fun x => ⟨beBytes 32 x.key.1, by simp⟩
    publicBytes := fun x => serialize (pub x.key)
    skFromSlice := skFromSlice
    pkFromSlice := pkFromSlice }

end Stacks.Concrete.Bip32

import Verif.Model.Builder

/-! # `stacks/src/wallet.rs`

The crates `bip32` and `bip39` and the parsing of keys by `secp256k1` are parameters of the
model (class `Bip`). -/

namespace Stacks

/-- The parts of the crates `bip32`, `bip39` and `secp256k1` used by wallet.rs.

* `parseMnemonic` is `bip39::Mnemonic::parse`, `toSeed m p` is `m.to_seed_normalized(p)`;
* `parsePath` is `DerivationPath::from_str`, `deriveFromPath` is `XPrv::derive_from_path`;
* `deriveChild x i` is `x.derive_child(i.into())`;
* `privateBytes x` is `x.private_key().to_bytes()`, `publicBytes x` is
  `x.public_key().to_bytes()`;
* `skFromSlice` and `pkFromSlice` are `SecretKey::from_slice` and `PublicKey::from_slice`. -/
class Bip [Secp] where
  XPrv : Type
  Mnemonic : Type
  Path : Type
  Err32 : Type
  Err39 : Type
  parseMnemonic : Str → Except Err39 Mnemonic
  toSeed : Mnemonic → Str → Bytes
  parsePath : Str → Except Err32 Path
  deriveFromPath : Bytes → Path → Except Err32 XPrv
  deriveChild : XPrv → UInt32 → Except Err32 XPrv
  privateBytes : XPrv → Arr 32
  publicBytes : XPrv → Arr 33
  skFromSlice : Bytes → Except Secp.Err Secp.SK
  pkFromSlice : Bytes → Except Secp.Err Secp.PK

namespace Wallet

section
variable [Secp] [Bip]

/-- wallet.rs:22-37 `enum Error`. -/
inductive Error where
  | c32 (e : C32.Error)
  | bip32 (e : Bip.Err32)
  | bip39 (e : Bip.Err39)
  | secp256k1 (e : Secp.Err)

/-- wallet.rs:40 `STX_DERIVATION_PATH`. -/
def stxDerivationPath : Str := "m/44'/5757'/0'/0".toList

/-- wallet.rs:46-52 `struct StacksAccount`. -/
structure StacksAccount where
  ext : Bip.XPrv
  index : UInt32

/-- wallet.rs:61-64 `StacksAccount::derive`. -/
def StacksAccount.derive (index : UInt32) (ext : Bip.XPrv) : Outcome Error StacksAccount := do
  let child ← ofExcept .bip32 (Bip.deriveChild ext index)
  pure ⟨child, index⟩

/-- wallet.rs:74-76 `StacksAccount::private_key`. -/
def StacksAccount.privateKey (a : StacksAccount) : Outcome Error Secp.SK :=
  ofExcept .secp256k1 (Bip.skFromSlice (Bip.privateBytes a.ext).1)

/-- wallet.rs:79-81 `StacksAccount::public_key`. -/
def StacksAccount.publicKey (a : StacksAccount) : Outcome Error Secp.PK :=
  ofExcept .secp256k1 (Bip.pkFromSlice (Bip.publicBytes a.ext).1)

/-- wallet.rs:67-71 `StacksAccount::get_address`. -/
def StacksAccount.getAddress [Hashes] (a : StacksAccount) (version : C32.Version) : Outcome Error Str := do
  let addr := C32.hashP2pkh (Bip.publicBytes a.ext).1
  let c32 ← (C32.c32Address addr.1 version.toU8).mapErr .c32
  pure c32

/-- wallet.rs:42-43 `StacksAccounts`, a `HashMap<u32, StacksAccount>`: here a list of entries.
Hash maps are not modelled further than lookup and insertion. -/
abbrev StacksAccounts := List (UInt32 × StacksAccount)

/-- `HashMap::entry`: the value under a key. -/
def StacksAccounts.find (m : StacksAccounts) (key : UInt32) : Option StacksAccount := m.lookup key

/-- `HashMap::insert`: replaces the value under an existing key. -/
def StacksAccounts.insert (m : StacksAccounts) (key : UInt32) (a : StacksAccount) : StacksAccounts :=
  (key, a) :: m.filter (fun e => e.1 != key)

/-- wallet.rs:84-91 `struct StacksWallet`. -/
structure StacksWallet where
  ext : Bip.XPrv
  accounts : StacksAccounts

/-- wallet.rs:100-109 `StacksWallet::from_secret_key`. -/
def StacksWallet.fromSecretKey (sk : Str) : Outcome Error StacksWallet := do
  let mnemonic ← ofExcept .bip39 (Bip.parseMnemonic sk)
  let seed := Bip.toSeed mnemonic []
  let path ← ofExcept .bip32 (Bip.parsePath stxDerivationPath)
  let ext ← ofExcept .bip32 (Bip.deriveFromPath seed path)
  pure ⟨ext, []⟩

/-- wallet.rs:134-136 `StacksWallet::set_account`. -/
def StacksWallet.setAccount (w : StacksWallet) (index : UInt32) (account : StacksAccount) : StacksWallet :=
  { w with accounts := w.accounts.insert index account }

/-- wallet.rs:112-121 `StacksWallet::get_account`: the answer and the wallet afterwards. -/
def StacksWallet.getAccount (w : StacksWallet) (index : UInt32) : Outcome Error StacksAccount × StacksWallet :=
  match w.accounts.find index with
  | some account => (.ok account, w)
  | none =>
    match StacksAccount.derive index w.ext with
    | .ok account => (.ok account, w.setAccount index account)
    | r => (r, w)

/-- wallet.rs:124-126 `StacksWallet::private_key`. -/
def StacksWallet.privateKey (w : StacksWallet) : Outcome Error Secp.SK :=
  ofExcept .secp256k1 (Bip.skFromSlice (Bip.privateBytes w.ext).1)

/-- wallet.rs:129-131 `StacksWallet::public_key`. -/
def StacksWallet.publicKey (w : StacksWallet) : Outcome Error Secp.PK :=
  ofExcept .secp256k1 (Bip.pkFromSlice (Bip.publicBytes w.ext).1)

/-! ## Equality (`#[derive(PartialEq)]`) -/

section
variable [DecidableEq Bip.XPrv]

/-- wallet.rs:46: two accounts are equal if their keys and indexes are. (That `bip32` compares keys
by what they are is taken from that crate.) -/
def StacksAccount.eq (a b : StacksAccount) : Bool := a.ext == b.ext && a.index == b.index

/-- `HashMap::eq`: as many entries, and each entry of one has an equal value in the other. -/
def StacksAccounts.eq (m n : StacksAccounts) : Bool :=
  m.length == n.length && m.all fun e =>
    match n.find e.1 with
    | some a => e.2.eq a
    | none => false

/-- wallet.rs:85: the root key and the accounts. -/
def StacksWallet.eq (w v : StacksWallet) : Bool := w.ext == v.ext && StacksAccounts.eq w.accounts v.accounts

end

end

end Wallet

end Stacks

import Verif.Model.Hash
import Verif.Concrete.Sha2
import Verif.Proofs.Basic

/-! # ECDSA with public key recovery over secp256k1

The model treats the crate `secp256k1` as a parameter (class `Secp`). This file is an executable
instance of that class, `realSecp`: the algorithms of SEC 1 and SEC 2 with the conventions of
libsecp256k1 (deterministic nonces of RFC 6979, low `s`, recovery identifiers). It exists so that

* the repository's end-to-end tests of signed transactions can be evaluated by the kernel
  (`Verif/VectorsSigned.lean`), and
* the hypothesis `Secp.Lawful` can be proved of the real scheme (`Verif/Concrete/EcdsaLawful.lean`).

No theorem about the model depends on it. -/

namespace Stacks.Concrete.Ecdsa

/-- The field prime. -/
def p : Nat := 0xfffffffffffffffffffffffffffffffffffffffffffffffffffffffefffffc2f
/-- The order of the base point. -/
def n : Nat := 0xfffffffffffffffffffffffffffffffebaaedce6af48a03bbfd25e8cd0364141
/-- The base point. -/
def gx : Nat := 0x79be667ef9dcbbac55a06295ce870b07029bfcdb2dce28d959f2815b16f81798
def gy : Nat := 0x483ada7726a3c4655da4fbfc0e1108a8fd17b448a68554199c47d08ffb10d4b8

/-! ## Arithmetic -/

/-- The `l` low bits of `k`, most significant first. -/
def bits : Nat → Nat → List Bool
  | 0, _ => []
  | l + 1, k => (k / 2 ^ l % 2 == 1) :: bits l k

/-- Square and multiply. -/
def powLoop (m b : Nat) : List Bool → Nat → Nat
  | [], a => a
  | c :: cs, a => force (if c then a * a % m * b % m else a * a % m) (powLoop m b cs)

/-- `b ^ e` modulo `m`, for `e < 2 ^ 256`. -/
def powMod (m b e : Nat) : Nat := powLoop m b (bits 256 e) 1

/-- The inverse modulo a prime. -/
def inv (m a : Nat) : Nat := powMod m a (m - 2)

/-- A point in Jacobian coordinates: `(x / z², y / z³)`, or the point at infinity if `z = 0`. -/
structure Jac where
  x : Nat
  y : Nat
  z : Nat

/-- Doubling on `y² = x³ + 7`. -/
def dbl : Jac → Jac
  | ⟨x, y, z⟩ =>
    force (y * y % p) fun yy =>
    force (4 * x * yy % p) fun s =>
    force (3 * x * x % p) fun m =>
    force ((m * m + 2 * (p - s)) % p) fun x' =>
    force ((m * (s + (p - x')) + 8 * (p - yy) * yy) % p) fun y' =>
    force (2 * y * z % p) fun z' => ⟨x', y', z'⟩

/-- Addition of an affine point. -/
def addAff (x₂ y₂ : Nat) : Jac → Jac
  | ⟨x, y, z⟩ =>
    if z = 0 then ⟨x₂, y₂, 1⟩
    else
      force (z * z % p) fun zz =>
      force ((x₂ * zz + (p - x)) % p) fun h =>
      force ((y₂ * z * zz + (p - y)) % p) fun r =>
      if h = 0 then (if r = 0 then dbl ⟨x, y, z⟩ else ⟨1, 1, 0⟩)
      else
        force (h * h % p) fun hh =>
        force (h * hh % p) fun hhh =>
        force (x * hh % p) fun v =>
        force ((r * r + (p - hhh) + 2 * (p - v)) % p) fun x' =>
        force ((r * (v + (p - x')) + (p - hhh) * y) % p) fun y' =>
        force (z * h % p) fun z' => ⟨x', y', z'⟩

/-- Double and add. -/
def mulLoop (x₂ y₂ : Nat) : List Bool → Jac → Jac
  | [], a => a
  | false :: bs, a => (match dbl a with
    | ⟨x, y, z⟩ => mulLoop x₂ y₂ bs ⟨x, y, z⟩)
  | true :: bs, a => (match dbl a with
    | ⟨x, y, z⟩ => match addAff x₂ y₂ ⟨x, y, z⟩ with
      | ⟨x, y, z⟩ => mulLoop x₂ y₂ bs ⟨x, y, z⟩)

/-- Back to affine coordinates; `none` is the point at infinity. -/
def Jac.affine : Jac → Option (Nat × Nat)
  | ⟨x, y, z⟩ =>
    if z = 0 then none
    else
      force (inv p z) fun i =>
      force (i * i % p) fun ii =>
      force (x * ii % p) fun x' =>
      force (y * i % p * ii % p) fun y' => some (x', y')

/-- Scalar multiplication, for `k < 2 ^ 256`. -/
def mulPt (k : Nat) : Option (Nat × Nat) → Option (Nat × Nat)
  | none => none
  | some (x, y) => (mulLoop x y (bits 256 k) ⟨1, 1, 0⟩).affine

/-- Addition of points. -/
def addPt : Option (Nat × Nat) → Option (Nat × Nat) → Option (Nat × Nat)
  | none, q => q
  | q, none => q
  | some (x, y), some (x₂, y₂) => (addAff x₂ y₂ ⟨x, y, 1⟩).affine

/-- The base point. -/
def base : Option (Nat × Nat) := some (gx, gy)

/-! ## Keys -/

/-- Coordinates of a point of the curve, other than the point at infinity. -/
def Valid (q : Nat × Nat) : Prop := q.1 < p ∧ q.2 < p ∧ q.2 * q.2 % p = (q.1 * q.1 * q.1 + 7) % p

instance (q : Nat × Nat) : Decidable (Valid q) := inferInstanceAs (Decidable (_ ∧ _ ∧ _))

/-- `secp256k1::PublicKey`. -/
abbrev PK : Type := { q : Nat × Nat // Valid q }
/-- `secp256k1::SecretKey`. -/
abbrev SK : Type := { d : Nat // 0 < d ∧ d < n }

/-- The public key with the given coordinates (any other input gives the base point; this does
not happen, see `EcdsaLawful.lean`). -/
def mkKey : Option (Nat × Nat) → PK
  | none => ⟨(gx, gy), by decide +kernel⟩
  | some q => if h : Valid q then ⟨q, h⟩ else ⟨(gx, gy), by decide +kernel⟩

/-- `PublicKey::from_secret_key`. -/
def pub (d : SK) : PK := mkKey (mulPt d.1 base)

/-- `PublicKey::serialize`: the compressed form. -/
def serialize (q : PK) : Arr 33 :=
  ⟨(if q.1.2 % 2 = 0 then 2 else 3) :: beBytes 32 q.1.1, by simp⟩

/-! ## Signing -/

/-- HMAC-SHA256 with a 32-byte key. -/
def hmac (key msg : Bytes) : Bytes :=
  let pad (c : UInt8) : Bytes := (key ++ List.replicate 32 0).map (· ^^^ c)
  (sha256 (pad 0x5c ++ (sha256 (pad 0x36 ++ msg)).1)).1

/-- `serialize_compact`: a recoverable signature is a pair `r`, `s` below the order of the group
and the recovery identifier. -/
abbrev RSig : Type := { t : Nat × Nat × Fin 4 // t.1 < n ∧ t.2.1 < n }

theorem mod_n_lt (a : Nat) : a % n < n := Nat.mod_lt _ (by decide)

/-- The recovery identifier of the point `(x, y)`; `flip` if `s` was negated. -/
def recId (x y : Nat) (flip : Bool) : Fin 4 :=
  if n ≤ x then (if (y % 2 == 1) != flip then 3 else 2) else (if (y % 2 == 1) != flip then 1 else 0)

/-- ECDSA with the given nonce; `none` if the nonce cannot be used. -/
def signWith (m d k : Nat) : Option RSig :=
  if k = 0 ∨ n ≤ k then none
  else match mulPt k base with
    | none => none
    | some (x, y) =>
      force (x % n) fun r =>
      force (inv n k * ((m + r * d) % n) % n) fun s =>
      if r = 0 ∨ s = 0 then none
      else if n / 2 < s then some ⟨(r % n, (n - s) % n, recId x y true), mod_n_lt _, mod_n_lt _⟩
      else some ⟨(r % n, s % n, recId x y false), mod_n_lt _, mod_n_lt _⟩

/-- The attempts with the nonces of RFC 6979. The algorithm has no bound on the number of attempts;
here it is the first argument, and after that many failures (none has ever been seen to fail) the
nonces 1 and 2 are tried. -/
def signLoop (m d : Nat) : Nat → Bytes → Bytes → RSig
  | 0, _, _ => ((signWith m d 1).or (signWith m d 2)).getD ⟨(0, 0, 0), by decide, by decide⟩
  | a + 1, key, v =>
    force (beVal (hmac key v)) fun t =>
    match signWith m d t with
    | some s => s
    | none => force (beVal (hmac key (beBytes 32 t ++ [0]))) fun key =>
        signLoop m d a (beBytes 32 key) (hmac (beBytes 32 key) (beBytes 32 t))

/-- `Secp256k1::sign_ecdsa_recoverable`. -/
def sign (m : Arr 32) (d : SK) : RSig :=
  let x := beBytes 32 d.1 ++ m.1
  let v₀ := List.replicate 32 (1 : UInt8)
  force (beVal (hmac (List.replicate 32 0) (v₀ ++ [0] ++ x))) fun k₁ =>
  force (beVal (hmac (beBytes 32 k₁) v₀)) fun v₁ =>
  force (beVal (hmac (beBytes 32 k₁) (beBytes 32 v₁ ++ [1] ++ x))) fun k₂ =>
  force (beVal (hmac (beBytes 32 k₂) (beBytes 32 v₁))) fun v₂ =>
  force (beVal m.1) fun e =>
  signLoop e d.1 16 (beBytes 32 k₂) (beBytes 32 v₂)

/-! ## Recovery -/

/-- The errors of the crate that the repository can meet. -/
inductive Err where
  | invalidSignature
  | invalidRecoveryId
  | invalidKey
deriving DecidableEq

/-- The point with the given `x` and parity of `y`. -/
def liftX (x : Nat) (odd : Bool) : Option (Nat × Nat) :=
  if p ≤ x then none
  else
    force ((x * x * x + 7) % p) fun c =>
    force (powMod p c ((p + 1) / 4)) fun y =>
    if y * y % p ≠ c then none
    else if (y % 2 == 1) = odd then some (x, y) else some (x, (p - y) % p)

/-- `Secp256k1::recover_ecdsa`. -/
def recover (m : Arr 32) (t : RSig) : Except Err PK :=
  let r := t.1.1
  let s := t.1.2.1
  let id := t.1.2.2
  if r = 0 ∨ s = 0 then .error .invalidSignature
  else
    match liftX (if id.1 / 2 = 1 then r + n else r) (id.1 % 2 == 1) with
    | none => .error .invalidSignature
    | some q =>
      force (inv n r) fun i =>
      force (s * i % n) fun u =>
      force ((n - beVal m.1 % n) * i % n) fun w =>
      match addPt (mulPt u (some q)) (mulPt w base) with
      | none => .error .invalidSignature
      | some k => if h : Valid k then .ok ⟨k, h⟩ else .error .invalidSignature

/-- `RecoverableSignature::serialize_compact`. -/
def compact (t : RSig) : Fin 4 × Arr 64 :=
  (t.1.2.2, ⟨beBytes 32 t.1.1 ++ beBytes 32 t.1.2.1, by simp⟩)

/-- `RecoverableSignature::from_compact`. -/
def fromCompact (bs : Bytes) (id : Fin 4) : Except Err RSig :=
  if h : bs.length = 64 ∧ beVal (bs.take 32) < n ∧ beVal (bs.drop 32) < n then
    .ok ⟨(beVal (bs.take 32), beVal (bs.drop 32), id), h.2⟩
  else .error .invalidSignature

/-- The crate `secp256k1`, as an instance of the class of the model. -/
@[reducible] def realSecp : Secp where
  SK := SK
  PK := PK
  RSig := RSig
  Err := Err
  pub := pub
  serialize := serialize
  sign := sign
  recover := recover
  compact := compact
  fromCompact := fromCompact
  invalidRecId := .invalidRecoveryId

/-! ## Known answers -/

example : (serialize (pub ⟨0xedf9aee84d9b7abc145504dde6726c64f369d37ee34ded868fabd876c26570bc, by decide⟩)).1 =
    beBytes 33 0x03ef788b3830c00abe8f64f62dc32fc863bc0b2cafeb073b6c8e1c7657d9c2c3ab := by decide +kernel

end Stacks.Concrete.Ecdsa

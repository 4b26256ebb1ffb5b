import Verif.Model.Basic

/-! # SHA-256 and SHA-512/256 (FIPS 180-4)

The model treats the digests as parameters. These executable versions exist so that examples
and the repository's test vectors can be evaluated by the kernel. That they are the digests of the
standard is C106 (`Verif/Props/HashFunctions.lean`). -/

namespace Stacks.Concrete

/-- Evaluate `n` to a numeral before continuing (helps the kernel share work). -/
def force {α : Type} (n : Nat) (k : Nat → α) : α :=
  match n with
  | 0 => k 0
  | m + 1 => k (m + 1)

/-- Parameters distinguishing SHA-256 from SHA-512. -/
structure Sha2 where
  w : Nat
  rounds : List Nat
  iv : List Nat
  s0 : Nat × Nat × Nat
  s1 : Nat × Nat × Nat
  S0 : Nat × Nat × Nat
  S1 : Nat × Nat × Nat

namespace Sha2
variable (P : Sha2)

def rotr (x n : Nat) : Nat := (x >>> n) ||| ((x <<< (P.w - n)) % 2 ^ P.w)

/-- Three rotations xored. -/
def big (r : Nat × Nat × Nat) (x : Nat) : Nat := P.rotr x r.1 ^^^ P.rotr x r.2.1 ^^^ P.rotr x r.2.2
/-- Two rotations and a shift xored. -/
def small (r : Nat × Nat × Nat) (x : Nat) : Nat := P.rotr x r.1 ^^^ P.rotr x r.2.1 ^^^ (x >>> r.2.2)

/-- The rounds. `ws` is the window of the next 16 message schedule words. -/
def compress : List Nat → List Nat → (a b c d e f g h : Nat) → List Nat
  | k :: ks, w0 :: ws, a, b, c, d, e, f, g, h =>
    let ch := (e &&& f) ^^^ ((2 ^ P.w - 1 - e) &&& g)
    let maj := (a &&& b) ^^^ (a &&& c) ^^^ (b &&& c)
    force (h + P.big P.S1 e + ch + k + w0) fun t1 =>
    force ((t1 + P.big P.S0 a + maj) % 2 ^ P.w) fun a' =>
    force ((d + t1) % 2 ^ P.w) fun e' =>
    force ((w0 + P.small P.s0 (ws.getD 0 0) + ws.getD 8 0 + P.small P.s1 (ws.getD 13 0)) % 2 ^ P.w) fun w16 =>
    compress ks (ws ++ [w16]) a' a b c e' e f g
  | _, _, a, b, c, d, e, f, g, h => [a, b, c, d, e, f, g, h]

/-- Split into chunks of `n` (with fuel). -/
def chunks (n : Nat) : Nat → Bytes → List Bytes
  | 0, _ => []
  | fuel + 1, bs => if bs.isEmpty then [] else bs.take n :: chunks n fuel (bs.drop n)

def forceAll : List Nat → List Nat
  | [] => []
  | x :: xs => force x fun x => x :: forceAll xs

def block (H : List Nat) (blk : Bytes) : List Nat :=
  let ws := forceAll ((chunks (P.w / 8) 16 blk).map beVal)
  match H with
  | [a, b, c, d, e, f, g, h] =>
    forceAll (List.zipWith (fun x y => (x + y) % 2 ^ P.w) H (P.compress P.rounds ws a b c d e f g h))
  | _ => H

/-- Message padding. -/
def pad (bs : Bytes) : Bytes :=
  let bsz := 2 * P.w
  let lsz := P.w / 4
  let k := (2 * bsz - (bs.length + 1 + lsz) % bsz) % bsz
  bs ++ [0x80] ++ List.replicate k 0 ++ beBytes lsz (8 * bs.length)

def blocks : List Bytes → List Nat → List Nat
  | [], H => H
  | b :: bs, H => blocks bs (P.block H b)

/-- The digest truncated to 32 bytes. -/
def digest (bs : Bytes) : Bytes :=
  let p := P.pad bs
  ((blocks P (chunks (2 * P.w) p.length p) P.iv).flatMap (beBytes (P.w / 8))).take 32

end Sha2

/-- SHA-256. -/
def sha256P : Sha2 where
  w := 32
  rounds := [
  0x428a2f98, 0x71374491, 0xb5c0fbcf, 0xe9b5dba5, 0x3956c25b, 0x59f111f1, 0x923f82a4, 0xab1c5ed5,
  0xd807aa98, 0x12835b01, 0x243185be, 0x550c7dc3, 0x72be5d74, 0x80deb1fe, 0x9bdc06a7, 0xc19bf174,
  0xe49b69c1, 0xefbe4786, 0x0fc19dc6, 0x240ca1cc, 0x2de92c6f, 0x4a7484aa, 0x5cb0a9dc, 0x76f988da,
  0x983e5152, 0xa831c66d, 0xb00327c8, 0xbf597fc7, 0xc6e00bf3, 0xd5a79147, 0x06ca6351, 0x14292967,
  0x27b70a85, 0x2e1b2138, 0x4d2c6dfc, 0x53380d13, 0x650a7354, 0x766a0abb, 0x81c2c92e, 0x92722c85,
  0xa2bfe8a1, 0xa81a664b, 0xc24b8b70, 0xc76c51a3, 0xd192e819, 0xd6990624, 0xf40e3585, 0x106aa070,
  0x19a4c116, 0x1e376c08, 0x2748774c, 0x34b0bcb5, 0x391c0cb3, 0x4ed8aa4a, 0x5b9cca4f, 0x682e6ff3,
  0x748f82ee, 0x78a5636f, 0x84c87814, 0x8cc70208, 0x90befffa, 0xa4506ceb, 0xbef9a3f7, 0xc67178f2
    ]
  iv := [
  0x6a09e667, 0xbb67ae85, 0x3c6ef372, 0xa54ff53a, 0x510e527f, 0x9b05688c, 0x1f83d9ab, 0x5be0cd19
    ]
  s0 := (7, 18, 3)
  s1 := (17, 19, 10)
  S0 := (2, 13, 22)
  S1 := (6, 11, 25)

/-- SHA-512/256. -/
def sha512_256P : Sha2 where
  w := 64
  rounds := [
  0x428a2f98d728ae22, 0x7137449123ef65cd, 0xb5c0fbcfec4d3b2f, 0xe9b5dba58189dbbc,
  0x3956c25bf348b538, 0x59f111f1b605d019, 0x923f82a4af194f9b, 0xab1c5ed5da6d8118,
  0xd807aa98a3030242, 0x12835b0145706fbe, 0x243185be4ee4b28c, 0x550c7dc3d5ffb4e2,
  0x72be5d74f27b896f, 0x80deb1fe3b1696b1, 0x9bdc06a725c71235, 0xc19bf174cf692694,
  0xe49b69c19ef14ad2, 0xefbe4786384f25e3, 0x0fc19dc68b8cd5b5, 0x240ca1cc77ac9c65,
  0x2de92c6f592b0275, 0x4a7484aa6ea6e483, 0x5cb0a9dcbd41fbd4, 0x76f988da831153b5,
  0x983e5152ee66dfab, 0xa831c66d2db43210, 0xb00327c898fb213f, 0xbf597fc7beef0ee4,
  0xc6e00bf33da88fc2, 0xd5a79147930aa725, 0x06ca6351e003826f, 0x142929670a0e6e70,
  0x27b70a8546d22ffc, 0x2e1b21385c26c926, 0x4d2c6dfc5ac42aed, 0x53380d139d95b3df,
  0x650a73548baf63de, 0x766a0abb3c77b2a8, 0x81c2c92e47edaee6, 0x92722c851482353b,
  0xa2bfe8a14cf10364, 0xa81a664bbc423001, 0xc24b8b70d0f89791, 0xc76c51a30654be30,
  0xd192e819d6ef5218, 0xd69906245565a910, 0xf40e35855771202a, 0x106aa07032bbd1b8,
  0x19a4c116b8d2d0c8, 0x1e376c085141ab53, 0x2748774cdf8eeb99, 0x34b0bcb5e19b48a8,
  0x391c0cb3c5c95a63, 0x4ed8aa4ae3418acb, 0x5b9cca4f7763e373, 0x682e6ff3d6b2b8a3,
  0x748f82ee5defb2fc, 0x78a5636f43172f60, 0x84c87814a1f0ab72, 0x8cc702081a6439ec,
  0x90befffa23631e28, 0xa4506cebde82bde9, 0xbef9a3f7b2c67915, 0xc67178f2e372532b,
  0xca273eceea26619c, 0xd186b8c721c0c207, 0xeada7dd6cde0eb1e, 0xf57d4f7fee6ed178,
  0x06f067aa72176fba, 0x0a637dc5a2c898a6, 0x113f9804bef90dae, 0x1b710b35131c471b,
  0x28db77f523047d84, 0x32caab7b40c72493, 0x3c9ebe0a15c9bebc, 0x431d67c49c100d4c,
  0x4cc5d4becb3e42b6, 0x597f299cfc657e2a, 0x5fcb6fab3ad6faec, 0x6c44198c4a475817
    ]
  iv := [
  0x22312194fc2bf72c, 0x9f555fa3c84c64c2, 0x2393b86b6f53b151, 0x963877195940eabd,
  0x96283ee2a88effe3, 0xbe5e1e2553863992, 0x2b0199fc2c85b8aa, 0x0eb72ddc81c52ca2
    ]
  s0 := (1, 8, 7)
  s1 := (19, 61, 6)
  S0 := (28, 34, 39)
  S1 := (14, 18, 41)

/-- Give a byte list the length `n` (it has it already in all uses here). -/
def fit (n : Nat) (bs : Bytes) : Arr n :=
  ⟨(bs ++ List.replicate n 0).take n, by simp⟩

def sha256 (bs : Bytes) : Arr 32 := fit 32 (sha256P.digest bs)
def sha512_256 (bs : Bytes) : Arr 32 := fit 32 (sha512_256P.digest bs)

example : beVal (sha256 "abc".toUTF8.toList).1 =
    0xba7816bf8f01cfea414140de5dae2223b00361a396177a9cb410ff61f20015ad := by decide +kernel

example : beVal (sha512_256 "abc".toUTF8.toList).1 =
    0x53048e2681941ef99b2e29b76b4c7dabe4c2d0c634fc6d46e0e2f13107e7af23 := by decide +kernel

end Stacks.Concrete

import Verif.Concrete.Sha2
import Verif.Model.Hash

/-! # RIPEMD-160, and the concrete digests as an instance of `Hashes` -/

namespace Stacks.Concrete

def rotl32 (x n : Nat) : Nat := ((x <<< n) % 2 ^ 32) ||| (x >>> (32 - n))
def not32 (x : Nat) : Nat := 2 ^ 32 - 1 - x

/-- The five round functions. -/
def rmdF (j x y z : Nat) : Nat :=
  match j / 16 with
  | 0 => x ^^^ y ^^^ z
  | 1 => (x &&& y) ||| (not32 x &&& z)
  | 2 => (x ||| not32 y) ^^^ z
  | 3 => (x &&& z) ||| (y &&& not32 z)
  | _ => x ^^^ (y ||| not32 z)

def rmdR : List Nat := [
  0, 1, 2, 3, 4, 5, 6, 7, 8, 9, 10, 11, 12, 13, 14, 15,
  7, 4, 13, 1, 10, 6, 15, 3, 12, 0, 9, 5, 2, 14, 11, 8,
  3, 10, 14, 4, 9, 15, 8, 1, 2, 7, 0, 6, 13, 11, 5, 12,
  1, 9, 11, 10, 0, 8, 12, 4, 13, 3, 7, 15, 14, 5, 6, 2,
  4, 0, 5, 9, 7, 12, 2, 10, 14, 1, 3, 8, 11, 6, 15, 13]
def rmdR' : List Nat := [
  5, 14, 7, 0, 9, 2, 11, 4, 13, 6, 15, 8, 1, 10, 3, 12,
  6, 11, 3, 7, 0, 13, 5, 10, 14, 15, 8, 12, 4, 9, 1, 2,
  15, 5, 1, 3, 7, 14, 6, 9, 11, 8, 12, 2, 10, 0, 4, 13,
  8, 6, 4, 1, 3, 11, 15, 0, 5, 12, 2, 13, 9, 7, 10, 14,
  12, 15, 10, 4, 1, 5, 8, 7, 6, 2, 13, 14, 0, 3, 9, 11]
def rmdS : List Nat := [
  11, 14, 15, 12, 5, 8, 7, 9, 11, 13, 14, 15, 6, 7, 9, 8,
  7, 6, 8, 13, 11, 9, 7, 15, 7, 12, 15, 9, 11, 7, 13, 12,
  11, 13, 6, 7, 14, 9, 13, 15, 14, 8, 13, 6, 5, 12, 7, 5,
  11, 12, 14, 15, 14, 15, 9, 8, 9, 14, 5, 6, 8, 6, 5, 12,
  9, 15, 5, 11, 6, 8, 13, 12, 5, 12, 13, 14, 11, 8, 5, 6]
def rmdS' : List Nat := [
  8, 9, 9, 11, 13, 15, 15, 5, 7, 7, 8, 11, 14, 14, 12, 6,
  9, 13, 15, 7, 12, 8, 9, 11, 7, 7, 12, 7, 6, 15, 13, 11,
  9, 7, 15, 11, 8, 6, 6, 14, 12, 13, 5, 14, 13, 13, 7, 5,
  15, 5, 8, 11, 14, 14, 6, 14, 6, 9, 12, 9, 12, 5, 15, 8,
  8, 5, 12, 9, 12, 5, 14, 6, 8, 13, 6, 5, 15, 13, 11, 11]
def rmdK : List Nat := [0, 0x5a827999, 0x6ed9eba1, 0x8f1bbcdc, 0xa953fd4e]
def rmdK' : List Nat := [0x50a28be6, 0x5c4dd124, 0x6d703ef3, 0x7a6d76e9, 0]

/-- One of the two lines; `flip` selects the order of the round functions. -/
def rmdLine (ws : List Nat) (ks : List Nat) (flip : Bool) :
    Nat → List Nat → List Nat → (a b c d e : Nat) → List Nat
  | j, r :: rs, s :: ss, a, b, c, d, e =>
    let f := rmdF (if flip then 79 - j else j) b c d
    force ((a + f + ws.getD r 0 + ks.getD (j / 16) 0) % 2 ^ 32) fun t =>
    force ((rotl32 t s + e) % 2 ^ 32) fun t =>
    force (rotl32 c 10) fun c' =>
    rmdLine ws ks flip (j + 1) rs ss e t b c' d
  | _, _, _, a, b, c, d, e => [a, b, c, d, e]

def rmdBlock (H : List Nat) (blk : Bytes) : List Nat :=
  let ws := Sha2.forceAll ((Sha2.chunks 4 16 blk).map fun b => beVal b.reverse)
  match H with
  | [h0, h1, h2, h3, h4] =>
    match rmdLine ws rmdK false 0 rmdR rmdS h0 h1 h2 h3 h4,
        rmdLine ws rmdK' true 0 rmdR' rmdS' h0 h1 h2 h3 h4 with
    | [a, b, c, d, e], [a', b', c', d', e'] =>
      Sha2.forceAll [(h1 + c + d') % 2 ^ 32, (h2 + d + e') % 2 ^ 32, (h3 + e + a') % 2 ^ 32,
        (h4 + a + b') % 2 ^ 32, (h0 + b + c') % 2 ^ 32]
    | _, _ => H
  | _ => H

def rmdPad (bs : Bytes) : Bytes :=
  let k := (128 - (bs.length + 9) % 64) % 64
  bs ++ [0x80] ++ List.replicate k 0 ++ (beBytes 8 (8 * bs.length)).reverse

def rmdBlocks : List Bytes → List Nat → List Nat
  | [], H => H
  | b :: bs, H => rmdBlocks bs (rmdBlock H b)

def ripemd160 (bs : Bytes) : Arr 20 :=
  let p := rmdPad bs
  fit 20 ((rmdBlocks (Sha2.chunks 64 p.length p)
    [0x67452301, 0xefcdab89, 0x98badcfe, 0x10325476, 0xc3d2e1f0]).flatMap fun w => (beBytes 4 w).reverse)

example : beVal (ripemd160 "abc".toUTF8.toList).1 = 0x8eb208f7e05d987a9b044a8e98c6b087f15a0bfc := by
  decide +kernel

/-- The real digests. -/
@[reducible] def realHashes : Hashes where
  sha256 := sha256
  sha512_256 := sha512_256
  ripemd160 := ripemd160

end Stacks.Concrete

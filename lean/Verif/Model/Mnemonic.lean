import Verif.Model.Hash

/-! # `bip39::Mnemonic` (crate `bip39` 2.0.0, only the English list enabled)

`StacksWallet::from_secret_key` (wallet.rs:100-109) calls `bip39::Mnemonic::parse` and
`to_seed_normalized`. The crate is a dependency, not part of the repository; this file models its
parsing from its documentation and its source as published. The list of words is a parameter; the
English one is in `Verif/Concrete/Words.lean`. The normalisation of Unicode text (`nfkd`) is a parameter
`normal : Str → Str`, the identity on ASCII text. -/

namespace Stacks.Mnemonic

/-- `bip39::Error`, as far as parsing with one language gives it. -/
inductive Error where
  | badWordCount (n : Nat)
  | unknownWord (i : Nat)
  | invalidChecksum
deriving DecidableEq

/-- `char::is_whitespace`: the Unicode property `White_Space`. -/
def isWhite (c : Char) : Bool :=
  let n := c.toNat
  (9 ≤ n && n ≤ 13) || n == 0x20 || n == 0x85 || n == 0xa0 || n == 0x1680 || (0x2000 ≤ n && n ≤ 0x200a) ||
    n == 0x2028 || n == 0x2029 || n == 0x202f || n == 0x205f || n == 0x3000

/-- The loop of `str::split_whitespace`; `word` is the word read so far, in reverse. -/
def splitLoop : Str → Str → List Str
  | word, [] => if word = [] then [] else [word.reverse]
  | word, c :: cs =>
    if isWhite c then (if word = [] then splitLoop [] cs else word.reverse :: splitLoop [] cs)
    else splitLoop (c :: word) cs

/-- `str::split_whitespace`. -/
def splitWhitespace (s : Str) : List Str := splitLoop [] s

/-- `Language::find_word`: the position of a word in the list. -/
def findWord (list : List Str) (word : Str) : Option Nat :=
  match list with
  | [] => none
  | w :: ws => if w = word then some 0 else (findWord ws word).map (· + 1)

/-- `Mnemonic::language_of` when there is one language: the first word decides. -/
def languageOf (list : List Str) : List Str → Except Error Unit
  | [] => .error (.badWordCount 0)
  | w :: _ => if (findWord list w).isSome then .ok () else .error (.unknownWord 0)

/-- `is_invalid_word_count`. -/
def isInvalidWordCount (n : Nat) : Bool := n < 12 || n % 3 != 0 || 24 < n

/-- The loop over the words in `parse_in_normalized`: their positions in the list; `i` counts. -/
def findWords (list : List Str) : Nat → List Str → Except Error (List Nat)
  | _, [] => .ok []
  | i, w :: ws =>
    match findWord list w with
    | none => .error (.unknownWord i)
    | some idx =>
      match findWords list (i + 1) ws with
      | .ok idxs => .ok (idx :: idxs)
      | .error e => .error e

/-- `bits[i * 11 + j] = idx >> (10 - j) & 1 == 1`: eleven bits for each word. -/
def wordBits (idxs : List Nat) : List Bool :=
  idxs.flatMap fun idx => (List.range 11).map fun j => (idx >>> (10 - j)) &&& 1 == 1

/-- `if bits[i * 8 + j] { entropy[i] += 1 << (7 - j) }`: one byte of the entropy. -/
def entropyByte (bits : List Bool) (i : Nat) : UInt8 :=
  UInt8.ofNat (((List.range 8).map fun j => if bits.getD (i * 8 + j) false then 1 <<< (7 - j) else 0).sum)

/-- The bytes of entropy in the bits. -/
def entropyBytes (bits : List Bool) (n : Nat) : Bytes := (List.range n).map (entropyByte bits)

/-- `check[i / 8] & (1 << (7 - (i % 8))) > 0`: a bit of the hash. -/
def checkBit (check : Bytes) (i : Nat) : Bool :=
  0 < (check.getD (i / 8) 0).toNat &&& (1 <<< (7 - i % 8))

section
variable [Hashes]

/-- `Mnemonic::parse_in_normalized`: the positions of the words of the phrase. -/
def parseIn (list : List Str) (words : List Str) : Except Error (List Nat) :=
  let n := words.length
  if isInvalidWordCount n then .error (.badWordCount n)
  else
    match findWords list 0 words with
    | .error e => .error e
    | .ok idxs =>
      let bits := wordBits idxs
      let bytes := n / 3 * 4
      let check := (Hashes.sha256 (entropyBytes bits bytes)).1
      if (List.range (bytes / 4)).all fun i => bits.getD (8 * bytes + i) false == checkBit check i then .ok idxs
      else .error .invalidChecksum

/-- `Mnemonic::parse`: normalisation, the language and the words. -/
def parse (normal : Str → Str) (list : List Str) (s : Str) : Except Error (List Nat) :=
  let words := splitWhitespace (normal s)
  match languageOf list words with
  | .error e => .error e
  | .ok () => parseIn list words

end

/-- `Mnemonic::word_iter`: the words at the positions. -/
def wordIter (list : List Str) (idxs : List Nat) : List Str := idxs.map fun i => list.getD i []

/-- The words separated by single spaces, as `to_seed_normalized` hashes them. -/
def unwords : List Str → Str
  | [] => []
  | [w] => w
  | w :: ws => w ++ ' ' :: unwords ws

end Stacks.Mnemonic

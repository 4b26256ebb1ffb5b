import Verif.Spec.Num
import Verif.Model.Mnemonic
import Mathlib.Data.Set.Card

/-! # Mnemonic phrases (BIP 39)

A phrase of `n` words (12, 15, 18, 21 or 24) is a number in base 2048 whose digits are the positions of
the words in a list. The number is that of `4 n / 3` bytes of entropy, followed by the first `n / 3`
bits of their SHA-256. -/

namespace Stacks.Spec

/-- The white space of Unicode. -/
def WhiteSpace (c : Char) : Prop :=
  c.toNat ∈ [0x9, 0xa, 0xb, 0xc, 0xd, 0x20, 0x85, 0xa0, 0x1680, 0x2000, 0x2001, 0x2002, 0x2003, 0x2004, 0x2005,
    0x2006, 0x2007, 0x2008, 0x2009, 0x200a, 0x2028, 0x2029, 0x202f, 0x205f, 0x3000]

/-- A word: some characters, none of them white space. -/
def IsWord (w : Str) : Prop := w ≠ [] ∧ ∀ c ∈ w, ¬ WhiteSpace c

/-- The text is these words, with white space between them and perhaps around them. -/
inductive Spaced : Str → List Str → Prop
  | blank (gap : Str) : (∀ c ∈ gap, WhiteSpace c) → Spaced gap []
  | last (gap w : Str) : (∀ c ∈ gap, WhiteSpace c) → IsWord w → Spaced (gap ++ w) [w]
  | word (gap w rest : Str) (c : Char) (ws : List Str) : (∀ c ∈ gap, WhiteSpace c) → IsWord w → WhiteSpace c →
      Spaced rest ws → Spaced (gap ++ w ++ c :: rest) (w :: ws)

/-- A list that BIP 39 can use: 2048 different words. -/
structure WordList (list : List Str) : Prop where
  length : list.length = 2048
  nodup : list.Nodup
  word : ∀ w ∈ list, IsWord w

/-- How many words a phrase can have. -/
def PhraseLength (n : Nat) : Prop := n = 12 ∨ n = 15 ∨ n = 18 ∨ n = 21 ∨ n = 24

/-- The words are the phrase of the entropy. -/
structure IsPhrase [Hashes] (list : List Str) (entropy : Bytes) (ws : List Str) : Prop where
  length : PhraseLength ws.length
  known : ∀ w ∈ ws, w ∈ list
  bytes : entropy.length = 4 * (ws.length / 3)
  value : numValue 2048 (ws.map (list.idxOf ·)) =
    numValue 256 (entropy.map UInt8.toNat) * 2 ^ (ws.length / 3) +
      numValue 256 ((Hashes.sha256 entropy).1.map UInt8.toNat) / 2 ^ (256 - ws.length / 3)

/-- The words are a phrase. -/
def Phrase [Hashes] (list : List Str) (ws : List Str) : Prop := ∃ entropy, IsPhrase list entropy ws

/-- Why the words are refused. The first word is looked at before the words are counted. -/
def Refused [Hashes] (list : List Str) (ws : List Str) : Mnemonic.Error → Prop
  | .unknownWord i => (i = 0 ∨ PhraseLength ws.length) ∧ ∃ pre w post, ws = pre ++ w :: post ∧ pre.length = i ∧
      (∀ v ∈ pre, v ∈ list) ∧ w ∉ list
  | .badWordCount n => n = ws.length ∧ ¬ PhraseLength n ∧ ∀ w post, ws = w :: post → w ∈ list
  | .invalidChecksum => PhraseLength ws.length ∧ (∀ w ∈ ws, w ∈ list) ∧ ¬ Phrase list ws

end Stacks.Spec

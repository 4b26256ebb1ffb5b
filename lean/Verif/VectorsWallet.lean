import Verif.Concrete.Bip32
import Verif.Concrete.Words
import Verif.Props.Mnemonic

/-! # The repository's wallet tests, replayed on the model

`/repo/stacks/src/wallet.rs:143-189`. The seed of the phrase (2048 iterations of HMAC-SHA512) is
evaluated in `Verif/Concrete/Seed.lean`; everything after it, from the derivation path on,
is evaluated here. These are tests of the model, not proofs about it. -/

namespace Stacks.Vectors
open Stacks.Wallet

attribute [local instance] Concrete.realHashes Concrete.Ecdsa.realSecp
local instance : Bip := Concrete.Bip32.realBip (Concrete.Bip32.bip39Phrases id Concrete.Words.english)

/-- The phrase of `generate_wallet`. -/
def phrase : Str :=
  ("sound idle panel often situate develop unit text design antenna vendor screen opinion balcony " ++
   "share trigger accuse scatter visa uniform brass update opinion media").toList

theorem phrase_words : phrase = Mnemonic.unwords testPhrase :=
  eq_of_beq (show (phrase == Mnemonic.unwords testPhrase) = true by decide +kernel)

/-- It is accepted, and it is its own text. -/
theorem phrase_parses : ∃ m : List Nat, Bip.parseMnemonic phrase = .ok m ∧
    Mnemonic.unwords (Mnemonic.wordIter Concrete.Words.english m) = phrase := by
  have hp : ∀ s, (Bip.parseMnemonic s : Except Mnemonic.Error (List Nat)) = Mnemonic.parse id Concrete.Words.english s :=
    fun _ => rfl
  refine ⟨testPhrase.map (Concrete.Words.english.idxOf ·), ?_, ?_⟩
  · rw [hp, Mnemonic.parse_ok_iff id C103_english phrase]
    refine ⟨testPhrase, ?_, test_phrase.2, Eq.refl _⟩
    rw [phrase_words, id]
    exact Mnemonic.spaced_unwords fun w hw => C103_english.word w (test_positions.1 w hw)
  · have h : ∀ ws : List Str, (∀ w ∈ ws, w ∈ Concrete.Words.english) →
        Mnemonic.wordIter Concrete.Words.english (ws.map (Concrete.Words.english.idxOf ·)) = ws := by
      intro ws hws
      unfold Mnemonic.wordIter
      rw [List.map_map]
      conv => rhs; rw [← List.map_id ws]
      apply List.map_congr_left
      intro w hw
      have hi := List.idxOf_lt_length_of_mem (hws w hw)
      simp only [Function.comp]
      rw [List.getD_eq_getElem _ _ hi, List.getElem_idxOf hi, id]
    rw [h testPhrase test_positions.1]
    exact phrase_words.symm

/-- Two of the 2048 iterations, as a check of the definition of PBKDF2. -/
example : beVal (Concrete.Bip32.pbkdf2 phrase.bytes "mnemonic".toUTF8.toList 2) =
    0x95c453d2360e04abf8f3b4324f28dffd8aaaa8293cadce026ae035e1ebd7e41affc14514fabc9fa2832448474d8dad4af064d65089349f67e21e88a79e78fc49 := by
  decide +kernel

/-- The seed of the phrase. -/
def seed : Bytes := beBytes 64
  0x04afee363e2382656264c317d7440056e7ca1af65021152f9d927ee1cd057c56846c2afe54bb1c2c2de533a233ebb4025d5067caf0b48b04f3068d6e795db154

/-- The key of the wallet of the seed. -/
def root : Concrete.Bip32.XPrv where
  key := ⟨42832246791546344031678853017775315375255471778388076080035744443366424729072, by decide⟩
  chain := 25532026516906140107033506723942947414823833182269116227336569330912779576048
  depth := 4

/-- It is the one at the path of the repository. -/
theorem root_derived : (match Concrete.Bip32.parsePath stxDerivationPath with
    | .ok path => match Concrete.Bip32.deriveFromPath seed path with
      | .ok x => (x.key.1, x.chain, x.depth)
      | .error _ => (0, 0, 0)
    | .error _ => (0, 0, 0)) = (root.key.1, root.chain, root.depth) := by decide +kernel

end Stacks.Vectors

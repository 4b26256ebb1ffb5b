import Verif.Proofs.Mnemonic
import Verif.Concrete.Bip32Lawful
import Verif.Concrete.WordsLawful
import Verif.Props.Wallet

/-! # C102: which phrases make a wallet. C103: phrases and entropy -/

namespace Stacks
open Stacks.Spec Stacks.Wallet

section
variable [Hashes] (normal : Str → Str) {list : List Str}

omit [Hashes] in
/-- **C102** The words of a text are found however they are spaced. -/
theorem C102_words (s : Str) (ws : List Str) : Mnemonic.splitWhitespace s = ws ↔ Spaced s ws :=
  Mnemonic.splitWhitespace_iff s ws

/-- **C102** The texts that are accepted are the phrases, and the words kept are those of the text. -/
theorem C102_accepted (hl : WordList list) (s : Str) (ws : List Str) :
    (∃ m, Mnemonic.parse normal list s = .ok m ∧ Mnemonic.wordIter list m = ws) ↔
      Spaced (normal s) ws ∧ Phrase list ws := by
  constructor
  · rintro ⟨m, h, rfl⟩
    obtain ⟨ws, h1, h2, rfl⟩ := (Mnemonic.parse_ok_iff normal hl s m).1 h
    obtain ⟨e, he⟩ := id h2
    rw [Mnemonic.wordIter_idxOf he.known]
    exact ⟨h1, h2⟩
  · rintro ⟨h1, h2⟩
    obtain ⟨e, he⟩ := id h2
    exact ⟨_, (Mnemonic.parse_ok_iff normal hl s _).2 ⟨ws, h1, h2, rfl⟩, Mnemonic.wordIter_idxOf he.known⟩

/-- **C102** Every other text is refused, and the error says why. -/
theorem C102_refused (hl : WordList list) (s : Str) (e : Mnemonic.Error) :
    Mnemonic.parse normal list s = .error e ↔ ∃ ws, Spaced (normal s) ws ∧ Refused list ws e :=
  Mnemonic.parse_error_iff normal hl s e

/-- **C103** Entropy of 16, 20, 24, 28 or 32 bytes has exactly one phrase. -/
theorem C103_phrase_of_entropy (hl : WordList list) (entropy : Bytes)
    (h : entropy.length ∈ [16, 20, 24, 28, 32]) : ∃! ws, IsPhrase list entropy ws := by
  have hn : PhraseLength (entropy.length / 4 * 3) ∧ entropy.length = 4 * (entropy.length / 4 * 3 / 3) := by
    simp only [List.mem_cons, List.not_mem_nil, or_false] at h
    unfold PhraseLength
    omega
  obtain ⟨ws, hw, _⟩ := Mnemonic.phrase_exists hl hn.1 hn.2
  exact ⟨ws, hw, fun _ h' => Mnemonic.phrase_unique hl h' hw⟩

/-- **C103** And a phrase has exactly one entropy, of one of these lengths. -/
theorem C103_entropy_of_phrase (ws : List Str) (h : Phrase list ws) :
    ∃! entropy, IsPhrase list entropy ws ∧ entropy.length ∈ [16, 20, 24, 28, 32] := by
  obtain ⟨e, he⟩ := h
  refine ⟨e, ⟨he, ?_⟩, fun _ h' => Mnemonic.entropy_unique h'.1 he⟩
  have := he.length
  have := he.bytes
  unfold PhraseLength at *
  simp only [List.mem_cons, List.not_mem_nil, or_false]
  omega

/-- **C103** With all words but the last chosen freely, exactly 128, 64, 32, 16 or 8 of the 2048 words
complete a phrase of 12, 15, 18, 21 or 24 words. -/
theorem C103_last_word (hl : WordList list) (ws : List Str) (hn : PhraseLength (ws.length + 1))
    (hk : ∀ w ∈ ws, w ∈ list) : Set.ncard {w | Phrase list (ws ++ [w])} = 2 ^ (11 - (ws.length + 1) / 3) :=
  Mnemonic.last_word hl hn hk

omit [Hashes] in
open Concrete in
/-- **C103** The English list can be used. -/
theorem C103_english : WordList Words.english := Words.english_words

/-! ## Wallets -/

section
open Stacks.Concrete
attribute [local instance] Ecdsa.realSecp

omit [Hashes] in
/-- The path of all wallets parses to 44', 5757', 0', 0. -/
theorem parse_stxPath : Bip32.parsePath "m/44'/5757'/0'/0".toList =
    .ok [2 ^ 31 + 44, 2 ^ 31 + 5757, 2 ^ 31, 0] := by decide +kernel

omit [Hashes] in
theorem unwords_eq (ws : List Str) : Mnemonic.unwords ws = List.intercalate [' '] ws := by
  induction ws with
  | nil => rfl
  | cons w ws ih =>
    cases ws with
    | nil => simp [Mnemonic.unwords, List.intercalate]
    | cons v vs =>
      rw [Mnemonic.unwords, ih]
      · simp [List.intercalate]
      · simp

omit [Hashes] in
/-- The key of a wallet is derived from the seed of the words. -/
theorem toSeed_eq (ws : List Str) : Bip32.toSeed (Mnemonic.unwords ws) [] =
    Bip32.pbkdf2 (Str.bytes (List.intercalate [' '] ws)) (Str.bytes "mnemonic".toList) 2048 := by
  rw [Bip32.toSeed, unwords_eq, List.append_nil]

/-- **C102** A text makes a wallet if it is a phrase, and then the wallet depends on its words only: its key
is derived, along the path 44', 5757', 0', 0, from the seed that PBKDF2 makes of the words separated by
single spaces. Otherwise the error is that of the phrase. -/
theorem C102_wallet (hl : WordList list) : letI : Bip := Bip32.realBip (Bip32.bip39Phrases normal list)
    ∀ s : Str,
      (∀ ws, Spaced (normal s) ws → Phrase list ws → StacksWallet.fromSecretKey s =
        match Bip32.deriveFromPath
            (Bip32.pbkdf2 (Str.bytes (List.intercalate [' '] ws)) (Str.bytes "mnemonic".toList) 2048)
            [2 ^ 31 + 44, 2 ^ 31 + 5757, 2 ^ 31, 0] with
        | .ok key => .ok ⟨key, []⟩
        | .error e => .err (.bip32 e)) ∧
      (∀ ws e, Spaced (normal s) ws → Refused list ws e → StacksWallet.fromSecretKey s = .err (.bip39 e)) ∧
      (∃ ws, Spaced (normal s) ws ∧ (Phrase list ws ∨ ∃ e, Refused list ws e)) := by
  let _ : Bip := Bip32.realBip (Bip32.bip39Phrases normal list)
  intro s
  refine ⟨fun ws hs hp => ?_, fun ws e hs hr => ?_, ?_⟩
  · have hm := (Mnemonic.parse_ok_iff normal hl s _).2 ⟨ws, hs, hp, rfl⟩
    obtain ⟨e, he⟩ := id hp
    obtain ⟨h1, -, -, h2, -⟩ := Wallet.C59_root_key s
    have hseed : Bip.toSeed (ws.map (list.idxOf ·) : Bip.Mnemonic) [] =
        Bip32.pbkdf2 (Str.bytes (List.intercalate [' '] ws)) (Str.bytes "mnemonic".toList) 2048 := by
      rw [← toSeed_eq]
      show Bip32.toSeed (Mnemonic.unwords (Mnemonic.wordIter list _)) [] = _
      rw [Mnemonic.wordIter_idxOf he.known]
    rw [← hseed]
    generalize hx : Bip32.deriveFromPath (Bip.toSeed (ws.map (list.idxOf ·) : Bip.Mnemonic) [])
      [2 ^ 31 + 44, 2 ^ 31 + 5757, 2 ^ 31, 0] = x
    cases x with
    | ok key => exact (h1 _).2 ⟨_, _, key, hm, parse_stxPath, hx, rfl⟩
    | error e => exact h2 _ _ e hm parse_stxPath hx
  · have hm := (Mnemonic.parse_error_iff normal hl s e).2 ⟨ws, hs, hr⟩
    exact (Wallet.C59_root_key s).2.1 e hm
  · exact ⟨_, (Mnemonic.splitWhitespace_iff _ _).1 rfl, Mnemonic.phrase_or_refused list _⟩

/-- **C102** Two texts with the same words make the same wallet, or are refused for the same reason. -/
theorem C102_spacing (hl : WordList list) : letI : Bip := Bip32.realBip (Bip32.bip39Phrases normal list)
    ∀ (s s' : Str) (ws : List Str), Spaced (normal s) ws → Spaced (normal s') ws →
      StacksWallet.fromSecretKey s = StacksWallet.fromSecretKey s' := by
  let _ : Bip := Bip32.realBip (Bip32.bip39Phrases normal list)
  intro s s' ws h h'
  obtain ⟨a, b, -⟩ := C102_wallet normal hl s
  obtain ⟨a', b', -⟩ := C102_wallet normal hl s'
  rcases Mnemonic.phrase_or_refused list ws with hp | ⟨e, he⟩
  · exact (a ws h hp).trans (a' ws h' hp).symm
  · exact (b ws e h he).trans (b' ws e h' he).symm

omit [Hashes] in
theorem deriveChild_depth (x : Bip32.XPrv) (i : UInt32) :
    (∀ y, Bip32.deriveChild x i = .ok y → y.depth = x.depth + 1) ∧
    (∀ e, Bip32.deriveChild x i = .error e → x.depth ≠ 255 → e = .crypto) := by
  unfold Bip32.deriveChild
  by_cases hd : x.depth = 255
  · rw [if_pos hd]
    exact ⟨nofun, fun e _ h => absurd hd h⟩
  · rw [if_neg hd]
    simp only [Ecdsa.force_eq]
    generalize Bip32.hmac512 _ _ = t
    split
    · exact ⟨fun y h => by rw [← Except.ok.inj h], nofun⟩
    · exact ⟨nofun, fun e h _ => (Except.error.inj h).symm⟩

omit [Hashes] in
theorem deriveAll_depth (path : List UInt32) (x : Bip32.XPrv) (h : x.depth.toNat + path.length ≤ 255) :
    (∀ y, Bip32.deriveAll x path = .ok y → y.depth.toNat = x.depth.toNat + path.length) ∧
    (∀ e, Bip32.deriveAll x path = .error e → e = .crypto) := by
  induction path generalizing x with
  | nil => exact ⟨fun y h => by rw [← Except.ok.inj h]; rfl, nofun⟩
  | cons i is ih =>
    rw [List.length_cons] at h
    obtain ⟨h1, h2⟩ := deriveChild_depth x i
    rw [Bip32.deriveAll]
    cases hc : Bip32.deriveChild x i with
    | error e =>
      refine ⟨nofun, fun e' he => ?_⟩
      rw [← Except.error.inj he]
      exact h2 e hc (by rintro h'; rw [h'] at h; simp at h)
    | ok z =>
      have hz : z.depth.toNat = x.depth.toNat + 1 := by
        rw [h1 z hc, UInt8.toNat_add]
        simp
        omega
      obtain ⟨g1, g2⟩ := ih z (by omega)
      exact ⟨fun y hy => by rw [g1 y hy, hz, List.length_cons]; omega, g2⟩

omit [Hashes] in
theorem deriveFromPath_depth (seed : Bytes) (path : List UInt32) (h : path.length ≤ 255) :
    (∀ y, Bip32.deriveFromPath seed path = .ok y → y.depth.toNat = path.length) ∧
    (∀ e, Bip32.deriveFromPath seed path = .error e → e = .crypto) := by
  unfold Bip32.deriveFromPath Bip32.master
  simp only [Ecdsa.force_eq]
  generalize Bip32.hmac512 _ _ = t
  by_cases hl : 0 < beVal t / 2 ^ 256 ∧ beVal t / 2 ^ 256 < Ecdsa.n
  · rw [dif_pos hl]
    simp only []
    have := deriveAll_depth path ⟨⟨beVal t / 2 ^ 256, hl⟩, beVal t % 2 ^ 256, 0⟩ (by simpa using h)
    simpa using this
  · rw [dif_neg hl]
    exact ⟨nofun, fun e h => (Except.error.inj h).symm⟩

omit [Hashes] in
/-- **C102** Past the phrase nothing goes wrong but what BIP 32 itself allows for: a key that is out of
range, which HMAC-SHA512 gives with probability less than 2⁻¹²⁷. This holds of the wallet and of all its
accounts, hardened or not. -/
theorem C102_keys (phrases : Bip32.Phrases) : letI : Bip := Bip32.realBip phrases
    ∀ s : Str,
      (∀ e, StacksWallet.fromSecretKey s = .err (.bip32 e) → e = .crypto) ∧
      (∀ w, StacksWallet.fromSecretKey s = .ok w → ∀ (history : List UInt32) (i : UInt32) (e : Wallet.Error),
        ((afterCalls w (history.map .get)).getAccount i).1 = .err e → e = .bip32 .crypto) := by
  let _ : Bip := Bip32.realBip phrases
  intro s
  obtain ⟨h1, h2, -, h4, -⟩ := Wallet.C59_root_key s
  cases hm : (Bip.parseMnemonic s : Except phrases.Err phrases.Mnemonic) with
  | error e =>
    rw [h2 e hm]
    exact ⟨fun e h => (by injection h with h; cases h), nofun⟩
  | ok m =>
    have hx := deriveFromPath_depth (Bip.toSeed (m : Bip.Mnemonic) []) [2 ^ 31 + 44, 2 ^ 31 + 5757, 2 ^ 31, 0] (by simp)
    generalize hd : Bip32.deriveFromPath (Bip.toSeed (m : Bip.Mnemonic) [])
      [2 ^ 31 + 44, 2 ^ 31 + 5757, 2 ^ 31, 0] = x at hx
    cases x with
    | error e =>
      rw [h4 m _ e hm parse_stxPath hd]
      refine ⟨fun e' h => ?_, nofun⟩
      injection h with h
      injection h with h
      rw [← h]
      exact hx.2 e rfl
    | ok key =>
      rw [(h1 _).2 ⟨m, _, key, hm, parse_stxPath, hd, rfl⟩]
      refine ⟨nofun, fun w hw history i e he => ?_⟩
      rw [← Outcome.ok.inj hw, Wallet.C59_transparent] at he
      have hk := hx.1 key rfl
      generalize hc : Bip.deriveChild (key : Bip.XPrv) i = c at he
      cases c with
      | ok y => cases he
      | error e' =>
        rw [← Outcome.err.inj he]
        congr 1
        exact (deriveChild_depth key i).2 e' hc (by rintro h'; rw [h'] at hk; simp at hk)

end
end

/-! ## The hypotheses are satisfiable -/

section
open Stacks.Concrete
attribute [local instance] realHashes

/-- The phrase of the repository's tests, in twenty-four words. -/
def testPhrase : List Str :=
  ["sound", "idle", "panel", "often", "situate", "develop", "unit", "text", "design", "antenna", "vendor", "screen",
   "opinion", "balcony", "share", "trigger", "accuse", "scatter", "visa", "uniform", "brass", "update", "opinion",
   "media"].map String.toList

/-- The same words with other spaces. -/
def testText : Str := ('\t' :: '\n' :: List.intercalate [' ', '\u3000'] testPhrase) ++ [' ']

/-- The positions of its words. -/
def testPositions : List Nat :=
  [1662, 901, 1276, 1229, 1613, 484, 1901, 1789, 478, 78, 1937, 1548, 1243, 142, 1577, 1860, 13, 1539, 1957, 1899, 217, 1908,
   1243, 1107]

/-- Its entropy. -/
def testEntropy : Bytes :=
  [207, 206, 22, 126, 76, 220, 154, 121, 59, 110, 253, 59, 193, 59, 200, 224, 201, 182, 35, 177, 79, 68, 1, 184, 15, 210, 246,
   177, 179, 221, 38, 220]

set_option maxRecDepth 100000 in
theorem test_at : testPositions.map (fun i => Words.english[i]?) = testPhrase.map some := by decide +kernel

theorem test_positions : (∀ w ∈ testPhrase, w ∈ Words.english) ∧ testPhrase.map (Words.english.idxOf ·) = testPositions := by
  have key : ∀ (is : List Nat) (ws : List Str), is.map (fun i => Words.english[i]?) = ws.map some →
      (∀ w ∈ ws, w ∈ Words.english) ∧ ws.map (Words.english.idxOf ·) = is := by
    intro is
    induction is with
    | nil => intro ws h; cases ws with
      | nil => simp
      | cons => cases h
    | cons i is ih => intro ws h; cases ws with
      | nil => cases h
      | cons w ws =>
        rw [List.map_cons, List.map_cons, List.cons.injEq] at h
        obtain ⟨h1, h2⟩ := h
        obtain ⟨e1, e2⟩ := ih ws h2
        obtain ⟨hi, h1⟩ := List.getElem?_eq_some_iff.1 h1
        refine ⟨fun v hv => ?_, ?_⟩
        · rcases List.mem_cons.1 hv with rfl | hv
          · exact h1 ▸ List.getElem_mem hi
          · exact e1 v hv
        · rw [List.map_cons, e2, ← h1, C103_english.nodup.idxOf_getElem]
  exact key _ _ test_at

set_option maxRecDepth 100000 in
theorem test_words : Mnemonic.splitWhitespace testText = testPhrase := by decide +kernel

/-- It is a phrase, -/
theorem test_phrase : Spaced testText testPhrase ∧ Phrase Words.english testPhrase := by
  refine ⟨(C102_words _ _).1 test_words, testEntropy, Or.inr (Or.inr (Or.inr (Or.inr rfl))), test_positions.1, by decide, ?_⟩
  rw [test_positions.2]
  decide +kernel

/-- so these two texts make the same wallet. -/
example : letI := Ecdsa.realSecp; letI : Bip := Bip32.realBip (Bip32.bip39Phrases id Words.english)
    StacksWallet.fromSecretKey testText = StacksWallet.fromSecretKey (List.intercalate [' '] testPhrase) :=
  C102_spacing id C103_english _ _ testPhrase test_phrase.1 (by
    rw [← unwords_eq]
    refine Mnemonic.spaced_unwords fun w hw => ?_
    obtain ⟨e, he⟩ := test_phrase.2
    exact C103_english.word w (he.known w hw))

set_option maxRecDepth 100000 in
/-- A wrong check sum, a word missing, no word. -/
example : [List.replicate 12 "abandon".toList, List.replicate 11 "abandon".toList, []].map
      (fun ws => match Mnemonic.parse id Words.english (List.intercalate [' '] ws) with
        | .ok _ => none
        | .error e => some e) =
    [some .invalidChecksum, some (.badWordCount 11), some (.badWordCount 0)] := by decide +kernel

/-- A capital letter in the fourth word, and in the first one of too few. -/
example : Mnemonic.parse id Words.english (Mnemonic.unwords (testPhrase.set 3 "Often".toList)) = .error (.unknownWord 3) ∧
    Mnemonic.parse id Words.english "Often".toList = .error (.unknownWord 0) := by
  have ho : "Often".toList ∉ Words.english := fun h =>
    absurd ((Words.english_ascii h).2 'O' (by simp)) (by decide)
  have hw : IsWord "Often".toList := by
    refine ⟨by simp, fun c hc => ?_⟩
    simp only [List.mem_cons, List.not_mem_nil, or_false, show "Often".toList = ['O', 'f', 't', 'e', 'n'] from rfl] at hc
    rcases hc with rfl | rfl | rfl | rfl | rfl <;> unfold WhiteSpace <;> decide
  have hk := test_positions.1
  refine ⟨(Mnemonic.parse_error_iff id C103_english _ _).2 ⟨testPhrase.set 3 "Often".toList, ?_,
      Or.inr (by unfold PhraseLength; decide +kernel), testPhrase.take 3, _, testPhrase.drop 4, rfl, rfl,
      fun v hv => hk v (List.mem_of_mem_take hv), ho⟩,
    (Mnemonic.parse_error_iff id C103_english _ _).2 ⟨["Often".toList], ?_, Or.inl rfl, [], _, [], rfl, rfl, by simp, ho⟩⟩
  · refine Mnemonic.spaced_unwords fun v hv => ?_
    rcases List.mem_or_eq_of_mem_set hv with h | rfl
    · exact C103_english.word v (hk v h)
    · exact hw
  · exact Spaced.last [] _ (by simp) hw

/-- Eleven times the word `abandon` is completed to a phrase by 128 words. -/
example : Set.ncard {w | Phrase Words.english (List.replicate 11 "abandon".toList ++ [w])} = 128 :=
  C103_last_word C103_english _ (by simp [PhraseLength]) (by
    intro w hw
    rw [List.eq_of_mem_replicate hw]
    exact List.mem_map.2 ⟨"abandon", by simp [Words.wordsA], rfl⟩)

/-- Entropy of sixteen zeros has one phrase. -/
example : ∃! ws, IsPhrase Words.english (List.replicate 16 0) ws := C103_phrase_of_entropy C103_english _ (by simp)

end

end Stacks

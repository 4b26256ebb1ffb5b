import Verif.Spec.Mnemonic
import Verif.Proofs.Num
import Verif.Proofs.Basic
import Mathlib.Data.Nat.Bitwise

/-! # Lemmas about mnemonic phrases -/

namespace Stacks.Mnemonic
open Stacks.Spec

/-! ## Splitting -/

theorem isWhite_iff (c : Char) : isWhite c = true ↔ WhiteSpace c := by
  simp only [isWhite, WhiteSpace, List.mem_cons, List.not_mem_nil, or_false, Bool.or_eq_true, Bool.and_eq_true,
    decide_eq_true_eq, beq_iff_eq]
  omega

theorem isWhite_false (c : Char) : isWhite c = false ↔ ¬ WhiteSpace c := by
  rw [← isWhite_iff, Bool.not_eq_true]

theorem splitLoop_gap (gap s : Str) (h : ∀ c ∈ gap, WhiteSpace c) : splitLoop [] (gap ++ s) = splitLoop [] s := by
  induction gap with
  | nil => rfl
  | cons c cs ih =>
    rw [List.cons_append, splitLoop, if_pos ((isWhite_iff c).2 (h c (by simp))), if_pos rfl,
      ih fun d hd => h d (by simp [hd])]

theorem splitLoop_word (w s acc : Str) (h : ∀ c ∈ w, ¬ WhiteSpace c) :
    splitLoop acc (w ++ s) = splitLoop (w.reverse ++ acc) s := by
  induction w generalizing acc with
  | nil => rfl
  | cons c cs ih =>
    rw [List.cons_append, splitLoop, if_neg (by rw [isWhite_iff]; exact h c (by simp)),
      ih _ fun d hd => h d (by simp [hd])]
    simp

theorem splitWhitespace_of_spaced {s : Str} {ws : List Str} (h : Spaced s ws) : splitWhitespace s = ws := by
  induction h with
  | blank gap hg =>
    have := splitLoop_gap gap [] hg
    rw [List.append_nil] at this
    rw [splitWhitespace, this]
    rfl
  | last gap w hg hw =>
    have e := splitLoop_word w [] [] hw.2
    rw [List.append_nil, List.append_nil] at e
    rw [splitWhitespace, splitLoop_gap _ _ hg, e, splitLoop, if_neg (by simpa using hw.1), List.reverse_reverse]
  | word gap w rest c ws hg hw hc _ ih =>
    rw [splitWhitespace, List.append_assoc, splitLoop_gap _ _ hg, splitLoop_word _ _ _ hw.2, List.append_nil, splitLoop,
      if_pos ((isWhite_iff c).2 hc), if_neg (by simpa using hw.1), List.reverse_reverse]
    exact congrArg _ ih

theorem spaced_gap {s : Str} {ws : List Str} (c : Char) (hc : WhiteSpace c) (h : Spaced s ws) : Spaced (c :: s) ws := by
  have key : ∀ gap : Str, (∀ d ∈ gap, WhiteSpace d) → ∀ d ∈ c :: gap, WhiteSpace d := by
    intro gap hg d hd
    rcases List.mem_cons.1 hd with rfl | hd
    · exact hc
    · exact hg d hd
  cases h with
  | blank gap hg => exact .blank _ (key _ hg)
  | last gap w hg hw => exact .last (c :: gap) w (key _ hg) hw
  | word gap w rest d ws hg hw hd hr => exact .word (c :: gap) w rest d ws (key _ hg) hw hd hr

theorem spaced_loop (s acc : Str) (ha : ∀ c ∈ acc, ¬ WhiteSpace c) : Spaced (acc.reverse ++ s) (splitLoop acc s) := by
  induction s generalizing acc with
  | nil =>
    rw [splitLoop, List.append_nil]
    split
    · next h => subst h; exact .blank _ (by simp)
    · next h => exact .last [] _ (by simp) ⟨by simpa using h, by simpa using ha⟩
  | cons c cs ih =>
    rw [splitLoop]
    split
    · next hc =>
      rw [isWhite_iff] at hc
      split
      · next h => subst h; exact spaced_gap c hc (ih [] (by simp))
      · next h => exact .word [] _ cs c _ (by simp) ⟨by simpa using h, by simpa using ha⟩ hc (ih [] (by simp))
    · next hc =>
      rw [isWhite_iff] at hc
      have := ih (c :: acc) (by
        intro d hd
        rcases List.mem_cons.1 hd with rfl | hd
        · exact hc
        · exact ha d hd)
      simpa using this

theorem splitWhitespace_iff (s : Str) (ws : List Str) : splitWhitespace s = ws ↔ Spaced s ws :=
  ⟨fun h => h ▸ spaced_loop s [] (by simp), splitWhitespace_of_spaced⟩

theorem spaced_unwords {ws : List Str} (h : ∀ w ∈ ws, IsWord w) : Spaced (unwords ws) ws := by
  induction ws with
  | nil => exact .blank _ (by simp [unwords])
  | cons w ws ih =>
    cases ws with
    | nil => exact .last [] w (by simp) (h w (by simp))
    | cons v vs =>
      exact .word [] w _ ' ' _ (by simp) (h w (by simp)) (by simp [WhiteSpace]) (ih fun u hu => h u (by simp [hu]))

/-! ## Finding words -/

theorem findWord_eq (list : List Str) (w : Str) : findWord list w = if w ∈ list then some (list.idxOf w) else none := by
  induction list with
  | nil => simp [findWord]
  | cons v vs ih =>
    rw [findWord]
    by_cases h : v = w
    · subst h; simp
    · rw [if_neg h, ih, List.idxOf_cons_ne _ h]
      have : w ≠ v := fun e => h e.symm
      by_cases hm : w ∈ vs <;> simp [hm, this]

theorem findWords_ok (list : List Str) (i : Nat) (ws : List Str) (h : ∀ w ∈ ws, w ∈ list) :
    findWords list i ws = .ok (ws.map (list.idxOf ·)) := by
  induction ws generalizing i with
  | nil => rfl
  | cons w ws ih =>
    rw [findWords, findWord_eq, if_pos (h w (by simp)), ih (i + 1) fun v hv => h v (by simp [hv])]
    rfl

theorem findWords_err (list : List Str) (i : Nat) (pre : List Str) (w : Str) (post : List Str)
    (h : ∀ w ∈ pre, w ∈ list) (hw : w ∉ list) :
    findWords list i (pre ++ w :: post) = .error (.unknownWord (i + pre.length)) := by
  induction pre generalizing i with
  | nil => rw [List.nil_append, findWords, findWord_eq, if_neg hw]; rfl
  | cons v vs ih =>
    rw [List.cons_append, findWords, findWord_eq, if_pos (h v (by simp)), ih (i + 1) fun v hv => h v (by simp [hv])]
    simp only [List.length_cons]
    congr 2
    omega

/-! ## Bits -/

/-- The number written by bits. -/
def bitsVal (bs : List Bool) : Nat := numValue 2 (bs.map Bool.toNat)

theorem bitsVal_append (xs ys : List Bool) : bitsVal (xs ++ ys) = bitsVal xs * 2 ^ ys.length + bitsVal ys := by
  simp [bitsVal, numValue_append]

theorem bitsVal_lt (bs : List Bool) : bitsVal bs < 2 ^ bs.length := by
  have := numValue_lt (b := 2) (by omega) (ds := bs.map Bool.toNat) (by
    intro d hd
    obtain ⟨b, -, rfl⟩ := List.mem_map.1 hd
    cases b <;> simp)
  simpa [bitsVal] using this

theorem bitsVal_inj : ∀ {xs ys : List Bool}, xs.length = ys.length → bitsVal xs = bitsVal ys → xs = ys := by
  intro xs
  induction xs using List.reverseRecOn with
  | nil => intro ys h _; exact (List.length_eq_zero_iff.1 h.symm).symm
  | append_singleton xs x ih =>
    intro ys h hv
    induction ys using List.reverseRecOn with
    | nil => simp at h
    | append_singleton ys y _ =>
      rw [bitsVal_append, bitsVal_append] at hv
      have hx : bitsVal [x] = x.toNat := by cases x <;> rfl
      have hy : bitsVal [y] = y.toNat := by cases y <;> rfl
      rw [hx, hy] at hv
      simp only [List.length_singleton, Nat.pow_one] at hv
      have bx := Bool.toNat_lt x
      have by' := Bool.toNat_lt y
      have h1 : bitsVal xs = bitsVal ys := by omega
      have h2 : x.toNat = y.toNat := by omega
      have : x = y := by cases x <;> cases y <;> simp_all
      rw [ih (by simpa using h) h1, this]

/-- The lowest `n` bits of a number, highest first. -/
def natBits (n x : Nat) : List Bool := (List.range n).map fun j => x.testBit (n - 1 - j)

theorem natBits_succ (n x : Nat) : natBits (n + 1) x = natBits n (x / 2) ++ [x.testBit 0] := by
  rw [natBits, List.range_succ, List.map_append, natBits]
  congr 1
  · apply List.map_congr_left
    intro j hj
    rw [List.mem_range] at hj
    rw [Nat.testBit_div_two]
    congr 1
    omega
  · simp

@[simp] theorem natBits_length (n x : Nat) : (natBits n x).length = n := by simp [natBits]

theorem bitsVal_natBits (n x : Nat) : bitsVal (natBits n x) = x % 2 ^ n := by
  induction n generalizing x with
  | zero => simp [natBits, bitsVal, numValue, Nat.mod_one]
  | succ n ih =>
    rw [natBits_succ, bitsVal_append, ih]
    have hx : bitsVal [x.testBit 0] = x % 2 := by
      rw [Nat.testBit_zero]
      rcases Nat.mod_two_eq_zero_or_one x with h | h <;> rw [h] <;> rfl
    rw [hx, List.length_singleton, Nat.pow_one, Nat.pow_succ, Nat.mul_comm (2 ^ n) 2, Nat.mod_mul]
    omega

theorem shift_bit (x k : Nat) : ((x >>> k) &&& 1 == 1) = x.testBit k := by
  rw [Nat.testBit_eq_decide_div_mod_eq, Nat.shiftRight_eq_div_pow, Nat.and_one_is_mod]
  rfl

theorem wordBits_eq (idxs : List Nat) : wordBits idxs = idxs.flatMap (natBits 11) := by
  simp only [wordBits, shift_bit]
  rfl

theorem wordBits_length (idxs : List Nat) : (wordBits idxs).length = 11 * idxs.length := by
  rw [wordBits_eq]
  induction idxs with
  | nil => rfl
  | cons i is ih => rw [List.flatMap_cons, List.length_append, ih, natBits_length, List.length_cons]; omega

theorem bitsVal_wordBits (idxs : List Nat) (h : ∀ i ∈ idxs, i < 2048) :
    bitsVal (wordBits idxs) = numValue 2048 idxs := by
  induction idxs with
  | nil => rfl
  | cons i is ih =>
    have hl := wordBits_length is
    rw [wordBits_eq] at ih hl ⊢
    rw [List.flatMap_cons, bitsVal_append, ih fun j hj => h j (by simp [hj]), hl, bitsVal_natBits, numValue_cons,
      Nat.mod_eq_of_lt (show i < 2 ^ 11 from h i (by simp)), Nat.pow_mul]

/-- Eight bits in a row. -/
def eight (bits : List Bool) (i : Nat) : List Bool := (List.range 8).map fun j => bits.getD (i * 8 + j) false

theorem entropyByte_toNat (bits : List Bool) (i : Nat) : (entropyByte bits i).toNat = bitsVal (eight bits i) := by
  have key : ∀ b0 b1 b2 b3 b4 b5 b6 b7 : Bool,
      (UInt8.ofNat ([if b0 then 1 <<< (7 - 0) else 0, if b1 then 1 <<< (7 - 1) else 0, if b2 then 1 <<< (7 - 2) else 0,
        if b3 then 1 <<< (7 - 3) else 0, if b4 then 1 <<< (7 - 4) else 0, if b5 then 1 <<< (7 - 5) else 0,
        if b6 then 1 <<< (7 - 6) else 0, if b7 then 1 <<< (7 - 7) else 0].sum)).toNat =
        bitsVal [b0, b1, b2, b3, b4, b5, b6, b7] := by decide +kernel
  exact key _ _ _ _ _ _ _ _

theorem take_eight (bits : List Bool) (n : Nat) (h : 8 * (n + 1) ≤ bits.length) :
    bits.take (8 * (n + 1)) = bits.take (8 * n) ++ eight bits n := by
  apply List.ext_getElem?
  intro i
  by_cases h1 : i < 8 * n
  · rw [List.getElem?_append_left (by simp; omega), List.getElem?_take_of_lt (by omega), List.getElem?_take_of_lt h1]
  · rw [List.getElem?_append_right (by simp; omega)]
    have hl : (bits.take (8 * n)).length = 8 * n := by simp; omega
    rw [hl]
    by_cases h2 : i < 8 * (n + 1)
    · rw [List.getElem?_take_of_lt h2]
      have h3 : i - 8 * n < 8 := by omega
      have h4 : n * 8 + (i - 8 * n) = i := by omega
      simp only [eight, List.getElem?_map, List.getElem?_range h3, Option.map_some, h4]
      rw [List.getD_eq_getElem?_getD, List.getElem?_eq_getElem (by omega)]
      rfl
    · rw [List.getElem?_eq_none (by simp; omega), List.getElem?_eq_none (by simp [eight]; omega)]

theorem entropyBytes_length (bits : List Bool) (n : Nat) : (entropyBytes bits n).length = n := by simp [entropyBytes]

theorem numValue_bytes (bs : Bytes) : numValue 256 (bs.map UInt8.toNat) = beVal bs := by
  rw [numValue, List.foldl_map, beVal]

theorem beVal_entropyBytes (bits : List Bool) (n : Nat) (h : 8 * n ≤ bits.length) :
    beVal (entropyBytes bits n) = bitsVal (bits.take (8 * n)) := by
  induction n with
  | zero => simp [entropyBytes, beVal, bitsVal, numValue]
  | succ n ih =>
    rw [take_eight bits n h, bitsVal_append, ← ih (by omega), entropyBytes, List.range_succ, List.map_append, beVal_append]
    have e1 : (eight bits n).length = 8 := by simp [eight]
    have e2 : beVal [entropyByte bits n] = bitsVal (eight bits n) := by
      rw [← entropyByte_toNat]; simp [beVal]
    simp only [List.map_cons, List.map_nil, List.length_singleton, Nat.pow_one, e1, e2]
    rfl

theorem testBit_beVal (bs : Bytes) (i : Nat) (h : i < 8 * bs.length) :
    (beVal bs).testBit (8 * bs.length - 1 - i) = (bs.getD (i / 8) 0).toNat.testBit (7 - i % 8) := by
  induction bs generalizing i with
  | nil => simp at h
  | cons b bs ih =>
    have hlt := beVal_lt bs
    have e : beVal (b :: bs) = 2 ^ (8 * bs.length) * b.toNat + beVal bs := by
      rw [beVal_cons, Nat.pow_mul, Nat.mul_comm]
    rw [e, Nat.testBit_two_pow_mul_add _ (by rw [Nat.pow_mul]; exact hlt)]
    simp only [List.length_cons] at h ⊢
    by_cases hi : i < 8
    · rw [if_neg (by omega), Nat.div_eq_of_lt hi, Nat.mod_eq_of_lt hi]
      simp only [List.getD_cons_zero]
      congr 1
      omega
    · rw [if_pos (by omega)]
      have := ih (i - 8) (by omega)
      have e1 : 8 * (bs.length + 1) - 1 - i = 8 * bs.length - 1 - (i - 8) := by omega
      have e2 : i / 8 = (i - 8) / 8 + 1 := by omega
      have e3 : i % 8 = (i - 8) % 8 := by omega
      rw [e1, e2, e3, this, List.getD_cons_succ]

theorem checkBit_eq (bs : Bytes) (i : Nat) (h : i < 8 * bs.length) :
    checkBit bs i = (beVal bs).testBit (8 * bs.length - 1 - i) := by
  rw [testBit_beVal bs i h, checkBit, Nat.one_shiftLeft, Nat.and_two_pow]
  cases ((bs.getD (i / 8) 0).toNat).testBit (7 - i % 8) <;> simp

/-- The first bits of a hash, as a number. -/
theorem bitsVal_check (bs : Bytes) (k : Nat) (h : k ≤ 8 * bs.length) :
    bitsVal ((List.range k).map (checkBit bs)) = beVal bs / 2 ^ (8 * bs.length - k) := by
  have e : (List.range k).map (checkBit bs) = natBits k (beVal bs / 2 ^ (8 * bs.length - k)) := by
    apply List.map_congr_left
    intro j hj
    rw [List.mem_range] at hj
    rw [checkBit_eq _ _ (by omega), Nat.testBit_div_two_pow]
    congr 1
    omega
  rw [e, bitsVal_natBits, Nat.mod_eq_of_lt]
  rw [Nat.div_lt_iff_lt_mul (by positivity), ← Nat.pow_add]
  have := beVal_lt bs
  have e2 : (256 : Nat) ^ bs.length = 2 ^ (8 * bs.length) := by rw [Nat.pow_mul]
  rw [e2] at this
  have e3 : k + (8 * bs.length - k) = 8 * bs.length := by omega
  rwa [e3]

/-! ## The check -/

section
variable [Hashes]

theorem check_iff (bits : List Bool) (k : Nat) (hk : k ≤ 8) (hb : bits.length = 33 * k) :
    ((List.range k).all fun i => bits.getD (8 * (4 * k) + i) false ==
        checkBit (Hashes.sha256 (entropyBytes bits (4 * k))).1 i) = true ↔
      bitsVal bits = beVal (entropyBytes bits (4 * k)) * 2 ^ k +
        beVal (Hashes.sha256 (entropyBytes bits (4 * k))).1 / 2 ^ (256 - k) := by
  generalize hd : Hashes.sha256 (entropyBytes bits (4 * k)) = d
  have hl : d.1.length = 32 := d.2
  have hsum : bits.take (8 * (4 * k)) ++ bits.drop (8 * (4 * k)) = bits := List.take_append_drop _ _
  have hdl : (bits.drop (8 * (4 * k))).length = k := by rw [List.length_drop]; omega
  have hval : bitsVal bits = beVal (entropyBytes bits (4 * k)) * 2 ^ k + bitsVal (bits.drop (8 * (4 * k))) := by
    rw [beVal_entropyBytes _ _ (by omega)]
    conv_lhs => rw [← hsum]
    rw [bitsVal_append, hdl]
  have hc := bitsVal_check d.1 k (by omega)
  rw [hl] at hc
  rw [hval, Nat.add_left_cancel_iff, ← hc]
  have hall : ((List.range k).all fun i => bits.getD (8 * (4 * k) + i) false == checkBit d.1 i) = true ↔
      bits.drop (8 * (4 * k)) = (List.range k).map (checkBit d.1) := by
    rw [List.all_eq_true]
    constructor
    · intro h
      apply List.ext_getElem (by simp [hdl])
      intro i h1 h2
      have := h i (by rw [List.mem_range]; omega)
      rw [beq_iff_eq, List.getD_eq_getElem?_getD, List.getElem?_eq_getElem (by omega)] at this
      simpa using this
    · intro h i hi
      rw [List.mem_range] at hi
      have h1 : i < (bits.drop (8 * (4 * k))).length := by omega
      have := List.getElem_of_eq h h1
      rw [beq_iff_eq, List.getD_eq_getElem?_getD, List.getElem?_eq_getElem (by omega)]
      simpa using this
  rw [hall]
  exact ⟨fun h => by rw [h], fun h => bitsVal_inj (by simp [hdl]) h⟩

omit [Hashes] in
theorem phraseLength_iff (n : Nat) : isInvalidWordCount n = false ↔ PhraseLength n := by
  simp only [isInvalidWordCount, PhraseLength, Bool.or_eq_false_iff, decide_eq_false_iff_not, bne_eq_false_iff_eq]
  omega

omit [Hashes] in
theorem idxOf_lt {list : List Str} (hl : WordList list) {w : Str} (h : w ∈ list) : list.idxOf w < 2048 := by
  rw [← hl.length]
  exact List.idxOf_lt_length_of_mem h

omit [Hashes] in
theorem beVal_inj {x y : Bytes} (hl : x.length = y.length) (h : beVal x = beVal y) : x = y := by
  rw [← beBytes_beVal x, ← beBytes_beVal y, h, hl]

/-- The check in `parseIn` is that the words are a phrase. -/
theorem phrase_iff {list : List Str} (hl : WordList list) {ws : List Str} (hn : PhraseLength ws.length)
    (hk : ∀ w ∈ ws, w ∈ list) :
    ((List.range (ws.length / 3 * 4 / 4)).all fun i =>
        (wordBits (ws.map (list.idxOf ·))).getD (8 * (ws.length / 3 * 4) + i) false ==
        checkBit (Hashes.sha256 (entropyBytes (wordBits (ws.map (list.idxOf ·))) (ws.length / 3 * 4))).1 i) = true ↔
      Phrase list ws := by
  generalize hb : wordBits (ws.map (list.idxOf ·)) = bits
  have hbl : bits.length = 11 * ws.length := by rw [← hb, wordBits_length, List.length_map]
  have hv : bitsVal bits = numValue 2048 (ws.map (list.idxOf ·)) := by
    rw [← hb, bitsVal_wordBits]
    intro i hi
    obtain ⟨w, hw, rfl⟩ := List.mem_map.1 hi
    exact idxOf_lt hl (hk w hw)
  have h3 : ws.length = 3 * (ws.length / 3) := by unfold PhraseLength at hn; omega
  have h8 : ws.length / 3 ≤ 8 := by unfold PhraseLength at hn; omega
  generalize hkk : ws.length / 3 = k at h3 h8
  have e1 : k * 4 / 4 = k := by omega
  have e2 : k * 4 = 4 * k := by omega
  rw [e1, e2, check_iff bits k h8 (by omega), hv]
  constructor
  · intro h
    refine ⟨entropyBytes bits (4 * k), hn, hk, by rw [entropyBytes_length, hkk], ?_⟩
    rw [hkk, numValue_bytes, numValue_bytes]
    exact h
  · rintro ⟨e, -, -, he, h⟩
    rw [hkk] at he h
    rw [numValue_bytes, numValue_bytes] at h
    have hd := beVal_lt (Hashes.sha256 e).1
    have hlen : (Hashes.sha256 e).1.length = 32 := (Hashes.sha256 e).2
    rw [hlen] at hd
    have hd' : beVal (Hashes.sha256 e).1 / 2 ^ (256 - k) < 2 ^ k := by
      rw [Nat.div_lt_iff_lt_mul (by positivity), ← Nat.pow_add]
      have : k + (256 - k) = 256 := by omega
      rw [this]
      exact hd
    have hdrop : (bits.drop (8 * (4 * k))).length = k := by rw [List.length_drop]; omega
    have hval : bitsVal bits = bitsVal (bits.take (8 * (4 * k))) * 2 ^ k + bitsVal (bits.drop (8 * (4 * k))) := by
      conv_lhs => rw [← List.take_append_drop (8 * (4 * k)) bits]
      rw [bitsVal_append, hdrop]
    have hlt := bitsVal_lt (bits.drop (8 * (4 * k)))
    rw [hdrop] at hlt
    have q1 : bitsVal bits / 2 ^ k = bitsVal (bits.take (8 * (4 * k))) := by
      rw [hval, Nat.mul_comm, Nat.mul_add_div (by positivity), Nat.div_eq_of_lt hlt, Nat.add_zero]
    have q2 : bitsVal bits / 2 ^ k = beVal e := by
      rw [hv, h, Nat.mul_comm, Nat.mul_add_div (by positivity), Nat.div_eq_of_lt hd', Nat.add_zero]
    have hee : entropyBytes bits (4 * k) = e := by
      apply beVal_inj (by rw [entropyBytes_length, he])
      rw [beVal_entropyBytes _ _ (by omega), ← q1, q2]
    rw [hee]
    exact h

/-- The entropy of a phrase is determined by its words. -/
theorem entropy_unique {list : List Str} {e e' : Bytes} {ws : List Str} (h : IsPhrase list e ws)
    (h' : IsPhrase list e' ws) : e = e' := by
  have hk : ws.length / 3 ≤ 8 := by have := h.length; unfold PhraseLength at this; omega
  have key : ∀ x : Bytes, numValue 256 ((Hashes.sha256 x).1.map UInt8.toNat) / 2 ^ (256 - ws.length / 3) <
      2 ^ (ws.length / 3) := by
    intro x
    rw [numValue_bytes]
    have hd := beVal_lt (Hashes.sha256 x).1
    have hlen : (Hashes.sha256 x).1.length = 32 := (Hashes.sha256 x).2
    rw [hlen] at hd
    rw [Nat.div_lt_iff_lt_mul (by positivity), ← Nat.pow_add]
    have : ws.length / 3 + (256 - ws.length / 3) = 256 := by omega
    rw [this]
    exact hd
  apply beVal_inj (h.bytes.trans h'.bytes.symm)
  have e1 := h.value
  rw [h'.value, numValue_bytes, numValue_bytes e] at e1
  have := congrArg (· / 2 ^ (ws.length / 3)) e1
  simp only [Nat.mul_comm _ (2 ^ (ws.length / 3))] at this
  rw [Nat.mul_add_div (by positivity), Nat.mul_add_div (by positivity), Nat.div_eq_of_lt (key e'),
    Nat.div_eq_of_lt (key e)] at this
  simpa using this.symm

omit [Hashes] in
theorem numValue_inj {b : Nat} (hb : 0 < b) : ∀ {xs ys : List Nat}, (∀ d ∈ xs, d < b) → (∀ d ∈ ys, d < b) →
    xs.length = ys.length → numValue b xs = numValue b ys → xs = ys := by
  intro xs
  induction xs with
  | nil => intro ys _ _ h _; exact (List.length_eq_zero_iff.1 h.symm).symm
  | cons x xs ih =>
    intro ys hx hy h hv
    cases ys with
    | nil => simp at h
    | cons y ys =>
      rw [numValue_cons, numValue_cons] at hv
      have hl : xs.length = ys.length := by simpa using h
      have h1 := numValue_lt hb (ds := xs) fun d hd => hx d (by simp [hd])
      have h2 := numValue_lt hb (ds := ys) fun d hd => hy d (by simp [hd])
      rw [hl] at hv h1
      have hp : 0 < b ^ ys.length := by positivity
      have e1 := congrArg (· / b ^ ys.length) hv
      have e2 := congrArg (· % b ^ ys.length) hv
      simp only [Nat.mul_comm _ (b ^ ys.length)] at e1 e2
      rw [Nat.mul_add_div hp, Nat.mul_add_div hp, Nat.div_eq_of_lt h1, Nat.div_eq_of_lt h2] at e1
      rw [Nat.mul_add_mod, Nat.mul_add_mod, Nat.mod_eq_of_lt h1, Nat.mod_eq_of_lt h2] at e2
      rw [ih (fun d hd => hx d (by simp [hd])) (fun d hd => hy d (by simp [hd])) hl e2]
      simp only [Nat.add_zero] at e1
      rw [e1]

omit [Hashes] in
theorem idxOf_getD {list : List Str} (hl : WordList list) {i : Nat} (hi : i < 2048) :
    list.getD i [] ∈ list ∧ list.idxOf (list.getD i []) = i := by
  have h : i < list.length := by rw [hl.length]; exact hi
  have e : list.getD i [] = list[i] := by rw [List.getD_eq_getElem?_getD, List.getElem?_eq_getElem h]; rfl
  rw [e]
  exact ⟨List.getElem_mem h, hl.nodup.idxOf_getElem i h⟩

omit [Hashes] in
theorem getD_idxOf {list : List Str} {w : Str} (h : w ∈ list) : list.getD (list.idxOf w) [] = w := by
  have h' := List.idxOf_lt_length_of_mem h
  rw [List.getD_eq_getElem?_getD, List.getElem?_eq_getElem h', Option.getD_some, List.getElem_idxOf]

omit [Hashes] in
theorem wordIter_idxOf {list ws : List Str} (h : ∀ w ∈ ws, w ∈ list) :
    wordIter list (ws.map (list.idxOf ·)) = ws := by
  rw [wordIter, List.map_map]
  conv_rhs => rw [← List.map_id ws]
  exact List.map_congr_left fun w hw => getD_idxOf (h w hw)

/-- The checksum of some entropy, as a number. -/
def checksum (k : Nat) (e : Bytes) : Nat := beVal (Hashes.sha256 e).1 / 2 ^ (256 - k)

theorem checksum_lt {k : Nat} (hk : k ≤ 8) (e : Bytes) : checksum k e < 2 ^ k := by
  have hd := beVal_lt (Hashes.sha256 e).1
  have hlen : (Hashes.sha256 e).1.length = 32 := (Hashes.sha256 e).2
  rw [hlen] at hd
  rw [checksum, Nat.div_lt_iff_lt_mul (by positivity), ← Nat.pow_add]
  have : k + (256 - k) = 256 := by omega
  rw [this]
  exact hd

theorem phrase_exists {list : List Str} (hl : WordList list) {e : Bytes} {n : Nat} (hn : PhraseLength n)
    (he : e.length = 4 * (n / 3)) : ∃ ws, IsPhrase list e ws ∧ ws.length = n := by
  have h3 : n = 3 * (n / 3) := by unfold PhraseLength at hn; omega
  have h8 : n / 3 ≤ 8 := by unfold PhraseLength at hn; omega
  generalize hk : n / 3 = k at h3 h8 he
  have hc := checksum_lt h8 e
  have hv : beVal e * 2 ^ k + checksum k e < 2048 ^ n := by
    have h1 := beVal_lt e
    have e1 : (256 : Nat) ^ e.length = 2 ^ (32 * k) := by
      rw [he, show (256 : Nat) = 2 ^ 8 from rfl, ← Nat.pow_mul]; congr 1; omega
    have e2 : (2048 : Nat) ^ n = 2 ^ (32 * k) * 2 ^ k := by
      rw [show (2048 : Nat) = 2 ^ 11 from rfl, ← Nat.pow_mul, ← Nat.pow_add]; congr 1; omega
    rw [e1] at h1
    rw [e2]
    calc beVal e * 2 ^ k + checksum k e < beVal e * 2 ^ k + 2 ^ k := by omega
      _ = (beVal e + 1) * 2 ^ k := by ring
      _ ≤ _ := Nat.mul_le_mul_right _ h1
  generalize hN : beVal e * 2 ^ k + checksum k e = N at hv
  have hdl := numDigits_length_le (c := 2048) (by omega) hv
  let ds := List.replicate (n - (numDigits 2048 N).length) 0 ++ numDigits 2048 N
  have hds : ∀ d ∈ ds, d < 2048 := by
    intro d hd
    rcases List.mem_append.1 hd with h | h
    · rw [List.eq_of_mem_replicate h]; omega
    · exact numDigits_lt (by omega) h
  have hlen : ds.length = n := by simp only [ds, List.length_append, List.length_replicate]; omega
  have hmap : (ds.map fun i => list.getD i []).map (list.idxOf ·) = ds := by
    rw [List.map_map]
    conv_rhs => rw [← List.map_id ds]
    exact List.map_congr_left fun i hi => (idxOf_getD hl (hds i hi)).2
  have hlen' : (ds.map fun i => list.getD i []).length = n := by rw [List.length_map, hlen]
  refine ⟨ds.map fun i => list.getD i [], ⟨hlen'.symm ▸ hn, ?_, ?_, ?_⟩, hlen'⟩
  · intro w hw
    obtain ⟨i, hi, rfl⟩ := List.mem_map.1 hw
    exact (idxOf_getD hl (hds i hi)).1
  · rw [hlen', hk]; exact he
  · rw [hmap, hlen', hk, numValue_bytes, numValue_bytes, numValue_replicate_zero_append, numValue_numDigits]
    exact hN.symm

theorem phrase_unique {list : List Str} (hl : WordList list) {e : Bytes} {ws ws' : List Str} (h : IsPhrase list e ws)
    (h' : IsPhrase list e ws') : ws = ws' := by
  have hn : ws.length = ws'.length := by
    have := h.length; have := h'.length; have := h.bytes; have := h'.bytes
    unfold PhraseLength at *
    omega
  have hv := h.value
  rw [hn, ← h'.value] at hv
  have hd : ∀ us : List Str, (∀ w ∈ us, w ∈ list) → ∀ d ∈ us.map (list.idxOf ·), d < 2048 := by
    intro us hus d hd
    obtain ⟨w, hw, rfl⟩ := List.mem_map.1 hd
    exact idxOf_lt hl (hus w hw)
  have := numValue_inj (by omega) (hd ws h.known) (hd ws' h'.known) (by simp [hn]) hv
  rw [← wordIter_idxOf h.known, this, wordIter_idxOf h'.known]

/-! ## The last word -/

/-- With the other words fixed, the last words that make a phrase. -/
theorem last_word {list : List Str} (hl : WordList list) {ws : List Str} (hn : PhraseLength (ws.length + 1))
    (hk : ∀ w ∈ ws, w ∈ list) :
    Set.ncard {w | Phrase list (ws ++ [w])} = 2 ^ (11 - (ws.length + 1) / 3) := by
  have h3 : ws.length + 1 = 3 * ((ws.length + 1) / 3) := by unfold PhraseLength at hn; omega
  have h8 : (ws.length + 1) / 3 ≤ 8 := by unfold PhraseLength at hn; omega
  generalize hkk : (ws.length + 1) / 3 = k at h3 h8
  generalize hV : numValue 2048 (ws.map (list.idxOf ·)) = V
  have hVlt : V < 2048 ^ ws.length := by
    rw [← hV]
    have := numValue_lt (b := 2048) (by omega) (ds := ws.map (list.idxOf ·)) (by
      intro d hd
      obtain ⟨w, hw, rfl⟩ := List.mem_map.1 hd
      exact idxOf_lt hl (hk w hw))
    simpa using this
  have hpow : (2 : Nat) ^ (11 - k) * 2 ^ k = 2048 := by
    rw [← Nat.pow_add, show 11 - k + k = 11 by omega]
  let f : Nat → Nat := fun a => checksum k (beBytes (4 * k) (V * 2 ^ (11 - k) + a))
  have hf : ∀ a, f a < 2 ^ k := fun a => checksum_lt h8 _
  let g : Nat → Str := fun a => list.getD (a * 2 ^ k + f a) []
  have hlt : ∀ a, a < 2 ^ (11 - k) → a * 2 ^ k + f a < 2048 := by
    intro a ha
    calc a * 2 ^ k + f a < a * 2 ^ k + 2 ^ k := by have := hf a; omega
      _ = (a + 1) * 2 ^ k := by ring
      _ ≤ 2 ^ (11 - k) * 2 ^ k := Nat.mul_le_mul_right _ ha
      _ = 2048 := hpow
  have hset : {w | Phrase list (ws ++ [w])} = g '' Set.Iio (2 ^ (11 - k)) := by
    ext w
    simp only [Set.mem_ofPred_eq, Set.mem_image, Set.mem_Iio]
    constructor
    · rintro ⟨e, h⟩
      have hw : w ∈ list := h.known w (by simp)
      have hx := idxOf_lt hl hw
      have hv := h.value
      have hb := h.bytes
      simp only [List.length_append, List.length_singleton, hkk, List.map_append, List.map_cons, List.map_nil] at hv hb
      rw [numValue_append, numValue_bytes, numValue_bytes, hV] at hv
      have e0 : numValue 2048 [list.idxOf w] = list.idxOf w := by simp [numValue]
      rw [e0, List.length_singleton, Nat.pow_one] at hv
      have hcs : beVal (Hashes.sha256 e).1 / 2 ^ (256 - k) = checksum k e := rfl
      rw [hcs] at hv
      have hc := checksum_lt h8 e
      obtain ⟨x, hxw⟩ : ∃ x, x = list.idxOf w := ⟨_, rfl⟩
      rw [← hxw] at hx hv
      have hdiv := congrArg (· / 2 ^ k) hv
      have hmod := congrArg (· % 2 ^ k) hv
      have eV : V * 2048 + x = 2 ^ k * (V * 2 ^ (11 - k)) + x := by rw [← hpow]; ring
      simp only [Nat.mul_comm (beVal e) (2 ^ k), eV] at hdiv hmod
      rw [Nat.mul_add_div (by positivity), Nat.mul_add_div (by positivity), Nat.div_eq_of_lt hc, Nat.add_zero] at hdiv
      rw [Nat.mul_add_mod, Nat.mul_add_mod, Nat.mod_eq_of_lt hc] at hmod
      have he : beBytes (4 * k) (beVal e) = e := beBytes_beVal' hb
      refine ⟨x / 2 ^ k, ?_, ?_⟩
      · rw [Nat.div_lt_iff_lt_mul (by positivity), hpow]; exact hx
      · have hfx : f (x / 2 ^ k) = x % 2 ^ k := by
          show checksum k (beBytes (4 * k) (V * 2 ^ (11 - k) + x / 2 ^ k)) = _
          rw [hdiv, he, hmod]
        show list.getD (x / 2 ^ k * 2 ^ k + f (x / 2 ^ k)) [] = w
        rw [hfx, Nat.div_add_mod', hxw, getD_idxOf hw]
    · rintro ⟨a, ha, rfl⟩
      have hE : V * 2 ^ (11 - k) + a < 256 ^ (4 * k) := by
        have h1 : V * 2 ^ (11 - k) + a < (V + 1) * 2 ^ (11 - k) := by rw [Nat.add_mul]; omega
        have h2 : (V + 1) * 2 ^ (11 - k) ≤ 2048 ^ ws.length * 2 ^ (11 - k) := Nat.mul_le_mul_right _ hVlt
        have h4 : (2048 : Nat) ^ ws.length * 2 ^ (11 - k) = 256 ^ (4 * k) := by
          rw [show (2048 : Nat) = 2 ^ 11 from rfl, show (256 : Nat) = 2 ^ 8 from rfl, ← Nat.pow_mul, ← Nat.pow_mul,
            ← Nat.pow_add]
          congr 1
          omega
        omega
      have hgi := idxOf_getD hl (hlt a ha)
      refine ⟨beBytes (4 * k) (V * 2 ^ (11 - k) + a), ?_, ?_, ?_, ?_⟩
      · simpa using hn
      · intro w hw
        rcases List.mem_append.1 hw with h | h
        · exact hk w h
        · rw [List.mem_singleton.1 h]; exact hgi.1
      · simp [hkk]
      · simp only [List.length_append, List.length_singleton, hkk, List.map_append, List.map_cons, List.map_nil]
        rw [numValue_append, numValue_bytes, numValue_bytes, hV, beVal_beBytes hE]
        have e0 : ∀ x, numValue 2048 [x] = x := fun x => by simp [numValue]
        have e1 : list.idxOf (g a) = a * 2 ^ k + f a := hgi.2
        rw [e0, e1, List.length_singleton, Nat.pow_one]
        have e2 : beVal (Hashes.sha256 (beBytes (4 * k) (V * 2 ^ (11 - k) + a))).1 / 2 ^ (256 - k) = f a := rfl
        rw [e2]
        generalize f a = c
        rw [← hpow]
        ring
  rw [hset, Set.InjOn.ncard_image]
  · rw [← Finset.coe_Iio, Set.ncard_coe_finset, Nat.card_Iio]
  · intro a ha b hb hab
    have := congrArg (list.idxOf ·) hab
    simp only [g] at this
    rw [(idxOf_getD hl (hlt a ha)).2, (idxOf_getD hl (hlt b hb)).2] at this
    have := congrArg (· / 2 ^ k) this
    simp only [Nat.mul_comm _ (2 ^ k)] at this
    rw [Nat.mul_add_div (by positivity), Nat.mul_add_div (by positivity), Nat.div_eq_of_lt (hf a),
      Nat.div_eq_of_lt (hf b)] at this
    simpa using this

/-! ## Parsing -/

/-- `Mnemonic::parse` after the text is split into words. -/
def parseWords (list ws : List Str) : Except Error (List Nat) :=
  match languageOf list ws with
  | .error e => .error e
  | .ok () => parseIn list ws

omit [Hashes] in
theorem languageOf_ok {list ws : List Str} (h0 : ws ≠ []) (h : ∀ w post, ws = w :: post → w ∈ list) :
    languageOf list ws = .ok () := by
  cases ws with
  | nil => exact absurd rfl h0
  | cons w ws => rw [languageOf, findWord_eq, if_pos (h w ws rfl)]; rfl

theorem parseWords_phrase {list : List Str} (hl : WordList list) {ws : List Str} (h : Phrase list ws) :
    parseWords list ws = .ok (ws.map (list.idxOf ·)) := by
  have hp := h
  obtain ⟨e, h⟩ := h
  have h0 : ws ≠ [] := by
    rintro rfl
    have := h.length
    simp [PhraseLength] at this
  rw [parseWords, languageOf_ok h0 fun w post hw => h.known w (by simp [hw])]
  simp only [parseIn]
  rw [if_neg (by rw [(phraseLength_iff _).2 h.length]; simp), findWords_ok _ _ _ h.known]
  exact if_pos ((phrase_iff hl h.length h.known).2 hp)

theorem parseWords_refused {list : List Str} (hl : WordList list) {ws : List Str} {e : Error}
    (h : Refused list ws e) : parseWords list ws = .error e := by
  cases e with
  | unknownWord i =>
    obtain ⟨hi, pre, w, post, rfl, hp, hpre, hw⟩ := h
    rw [parseWords]
    cases pre with
    | nil =>
      rw [List.nil_append, languageOf, findWord_eq, if_neg hw, ← hp]
      rfl
    | cons v vs =>
      rw [languageOf_ok (by simp) (by
        rintro w' post' he
        rw [List.cons_append, List.cons.injEq] at he
        exact he.1 ▸ hpre v (by simp))]
      simp only [parseIn]
      rw [if_neg (by
        rw [(phraseLength_iff _).2 (hi.resolve_left (by rw [← hp]; simp))]; simp), findWords_err _ _ _ _ _ hpre hw, hp,
        Nat.zero_add]
  | badWordCount n =>
    obtain ⟨rfl, hn, hw⟩ := h
    rw [parseWords]
    cases ws with
    | nil => rfl
    | cons w ws =>
      rw [languageOf_ok (by simp) hw]
      simp only [parseIn]
      rw [if_pos]
      rw [← phraseLength_iff, Bool.not_eq_false] at hn
      exact hn
  | invalidChecksum =>
    obtain ⟨hn, hk, hc⟩ := h
    have h0 : ws ≠ [] := by
      rintro rfl
      simp [PhraseLength] at hn
    rw [parseWords, languageOf_ok h0 fun w post hw => hk w (by simp [hw])]
    simp only [parseIn]
    rw [if_neg (by rw [(phraseLength_iff _).2 hn]; simp), findWords_ok _ _ _ hk]
    exact if_neg (mt (phrase_iff hl hn hk).1 hc)

omit [Hashes] in
theorem first_unknown (list ws : List Str) : (∀ w ∈ ws, w ∈ list) ∨
    ∃ pre w post, ws = pre ++ w :: post ∧ (∀ v ∈ pre, v ∈ list) ∧ w ∉ list := by
  induction ws with
  | nil => left; simp
  | cons w ws ih =>
    by_cases hw : w ∈ list
    · rcases ih with h | ⟨pre, v, post, rfl, h1, h2⟩
      · left
        intro v hv
        rcases List.mem_cons.1 hv with rfl | hv
        · exact hw
        · exact h v hv
      · right
        refine ⟨w :: pre, v, post, rfl, ?_, h2⟩
        intro u hu
        rcases List.mem_cons.1 hu with rfl | hu
        · exact hw
        · exact h1 u hu
    · exact .inr ⟨[], w, ws, rfl, by simp, hw⟩

theorem phrase_or_refused (list ws : List Str) : Phrase list ws ∨ ∃ e, Refused list ws e := by
  rcases first_unknown list ws with hk | ⟨pre, w, post, rfl, h1, h2⟩
  · by_cases hn : PhraseLength ws.length
    · by_cases hp : Phrase list ws
      · exact .inl hp
      · exact .inr ⟨.invalidChecksum, hn, hk, hp⟩
    · exact .inr ⟨.badWordCount ws.length, rfl, hn, fun w post hw => hk w (by simp [hw])⟩
  · right
    by_cases hn : PhraseLength (pre ++ w :: post).length
    · exact ⟨.unknownWord pre.length, .inr hn, pre, w, post, rfl, rfl, h1, h2⟩
    · cases pre with
      | nil => exact ⟨.unknownWord 0, .inl rfl, [], w, post, rfl, rfl, h1, h2⟩
      | cons v vs =>
        refine ⟨.badWordCount _, rfl, hn, fun u us hu => ?_⟩
        rw [List.cons_append, List.cons.injEq] at hu
        exact hu.1 ▸ h1 v (by simp)

theorem parse_eq (normal : Str → Str) (list : List Str) (s : Str) :
    parse normal list s = parseWords list (splitWhitespace (normal s)) := rfl

theorem parse_ok_iff (normal : Str → Str) {list : List Str} (hl : WordList list) (s : Str) (m : List Nat) :
    parse normal list s = .ok m ↔ ∃ ws, Spaced (normal s) ws ∧ Phrase list ws ∧ m = ws.map (list.idxOf ·) := by
  rw [parse_eq]
  constructor
  · intro h
    refine ⟨_, (splitWhitespace_iff _ _).1 rfl, ?_⟩
    rcases phrase_or_refused list (splitWhitespace (normal s)) with hp | ⟨e, he⟩
    · rw [parseWords_phrase hl hp] at h
      exact ⟨hp, (Except.ok.inj h).symm⟩
    · rw [parseWords_refused hl he] at h
      cases h
  · rintro ⟨ws, hs, hp, rfl⟩
    rw [(splitWhitespace_iff _ _).2 hs, parseWords_phrase hl hp]

theorem parse_error_iff (normal : Str → Str) {list : List Str} (hl : WordList list) (s : Str) (e : Error) :
    parse normal list s = .error e ↔ ∃ ws, Spaced (normal s) ws ∧ Refused list ws e := by
  rw [parse_eq]
  constructor
  · intro h
    refine ⟨_, (splitWhitespace_iff _ _).1 rfl, ?_⟩
    rcases phrase_or_refused list (splitWhitespace (normal s)) with hp | ⟨e', he⟩
    · rw [parseWords_phrase hl hp] at h
      cases h
    · rw [parseWords_refused hl he] at h
      exact Except.error.inj h ▸ he
  · rintro ⟨ws, hs, he⟩
    rw [(splitWhitespace_iff _ _).2 hs, parseWords_refused hl he]

end

end Stacks.Mnemonic

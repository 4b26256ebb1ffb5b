import Verif.Model.B58
import Verif.Spec.B58
import Verif.Spec.C32
import Verif.Proofs.Basic
import Verif.Proofs.Num
import Verif.Proofs.C32Check

/-! Helper lemmas for Base58. -/

namespace Stacks.B58
open Stacks.Spec

theorem beVal_eq_numValue (bs : Bytes) : beVal bs = numValue 256 (bs.map UInt8.toNat) := by
  unfold beVal numValue
  rw [List.foldl_map]

theorem beVal_reverse (l : Bytes) : beVal l.reverse = Nat.ofDigits 256 (l.map UInt8.toNat) := by
  rw [beVal_eq_numValue, numValue_eq_ofDigits, List.map_reverse, List.reverse_reverse]

/-! ### encoding -/

theorem idx_alphabet {d : Nat} (h : d < 58) :
    ∃ ch, (idx alphabet d : Outcome Error UInt8) = .ok ch ∧ Char.ofNat ch.toNat = b58Char d := by
  have : ∀ d : Fin 58, ∃ ch, alphabet[d.1]? = some ch ∧ Char.ofNat ch.toNat = b58Char d.1 := by
    intro d
    have hd : ∀ d : Fin 58, (alphabet[d.1]?).map (fun ch => Char.ofNat ch.toNat) = some (b58Char d.1) := by
      decide +kernel
    have := hd d
    rcases he : alphabet[d.1]? with _ | ch
    · simp [he] at this
    · simp only [he, Option.map_some, Option.some.injEq] at this
      exact ⟨ch, rfl, this⟩
  obtain ⟨ch, h1, h2⟩ := this ⟨d, h⟩
  refine ⟨ch, ?_, h2⟩
  unfold idx
  rw [show alphabet[d]? = some ch from h1]; rfl

theorem countLeading_eq (data : Bytes) : countLeading 0 data = leadingZeros (data.map UInt8.toNat) := by
  induction data with
  | nil => rfl
  | cons b rest ih =>
    unfold countLeading leadingZeros
    by_cases h : b = 0
    · subst h
      rw [if_pos (by simp), ih]
      rfl
    · have h' : b.toNat ≠ 0 := fun h0 => h (UInt8.toNat_inj.1 h0)
      rw [if_neg (by simpa using h), List.map_cons, List.takeWhile_cons_of_neg (by simpa using h')]
      rfl

/-- One iteration. -/
theorem encodeLoop_step {buff : Bytes} (hb : buff ≠ []) (result : Str) :
    ∃ temp, temp.head? ≠ some 0 ∧ beVal temp = beVal buff / 58 ∧
      encodeLoop buff result = encodeLoop temp (result ++ [b58Char (beVal buff % 58)]) := by
  obtain ⟨temp, h1, h2, h3⟩ := divLoop_spec buff 0 [] (by omega) (by simp)
  simp only [beVal_nil, Nat.zero_mul, Nat.zero_add] at h1 h3
  obtain ⟨ch, e1, e2⟩ := idx_alphabet (Nat.mod_lt (beVal buff) (by omega : 0 < 58))
  refine ⟨temp, h2, h3, ?_⟩
  rw [encodeLoop, dif_neg hb]
  split
  · rename_i t r ht
    rw [h1] at ht
    simp only [Outcome.ok.injEq, Prod.mk.injEq] at ht
    obtain ⟨rfl, rfl⟩ := ht
    rw [e1]
    simp only [e2]
  · rename_i e ht; rw [h1] at ht; simp at ht
  · rename_i ht; rw [h1] at ht; simp at ht

theorem head_ne_zero_pos {buff : Bytes} (hb : buff ≠ []) (h : buff.head? ≠ some 0) : 0 < beVal buff := by
  rcases buff with _ | ⟨t, ts⟩
  · exact absurd rfl hb
  · have ht : t ≠ 0 := by simpa using h
    have ht' : t.toNat ≠ 0 := fun h0 => ht (UInt8.toNat_inj.1 h0)
    rw [beVal_cons]
    have : 0 < t.toNat * 256 ^ ts.length := Nat.mul_pos (by omega) (by positivity)
    omega

theorem encodeLoop_canonical : ∀ (n : Nat) (buff : Bytes) (result : Str), beVal buff = n →
    buff.head? ≠ some 0 → encodeLoop buff result = .ok (result ++ (Nat.digits 58 n).map b58Char) := by
  intro n
  induction n using Nat.strong_induction_on with
  | _ n ih =>
    intro buff result hn hh
    by_cases hb : buff = []
    · subst hb
      have : n = 0 := by simpa using hn.symm
      subst this
      rw [encodeLoop, dif_pos rfl]; simp
    · obtain ⟨temp, h1, h2, h3⟩ := encodeLoop_step hb result
      have hpos := head_ne_zero_pos hb hh
      rw [h3, ih (n / 58) (by omega) temp _ (by rw [h2, hn]) h1, hn]
      rw [Nat.digits_def' (b := 58) (by omega) (by omega : 0 < n)]
      simp

theorem encodeLoop_pos {buff : Bytes} (result : Str) (h : 0 < beVal buff) :
    encodeLoop buff result = .ok (result ++ (Nat.digits 58 (beVal buff)).map b58Char) := by
  have hb : buff ≠ [] := by rintro rfl; simp at h
  obtain ⟨temp, h1, h2, h3⟩ := encodeLoop_step hb result
  rw [h3, encodeLoop_canonical _ temp _ h2 h1]
  rw [Nat.digits_def' (b := 58) (by omega) h]
  simp

theorem encodeLoop_zero {buff : Bytes} (result : Str) (hb : buff ≠ []) (h : beVal buff = 0) :
    encodeLoop buff result = .ok (result ++ ['1']) := by
  obtain ⟨temp, h1, h2, h3⟩ := encodeLoop_step hb result
  rw [h] at h2 h3
  rw [h3, encodeLoop_canonical _ temp _ h2 h1]
  simp
  decide

theorem b58Encode_of_loop {data : Bytes} {ds : List Nat} (h : encodeLoop data [] = .ok (ds.map b58Char)) :
    b58Encode data = .ok (List.replicate (leadingZeros (data.map UInt8.toNat)) '1' ++ ds.reverse.map b58Char) := by
  obtain ⟨ch, e1, e2⟩ := idx_alphabet (by omega : 0 < 58)
  unfold b58Encode
  simp only [h, Outcome.ok_bind, e1, e2, Outcome.pure_def, countLeading_eq]
  rw [List.reverse_append, List.reverse_replicate, List.map_reverse]
  rfl

theorem beVal_pos_iff (data : Bytes) : 0 < beVal data ↔ ∃ b ∈ data, b ≠ 0 := by
  induction data with
  | nil => simp
  | cons b rest ih =>
    rw [beVal_cons]
    simp only [List.mem_cons, exists_eq_or_imp, ← ih]
    by_cases hb : b = 0
    · subst hb; simp
    · have h' : b.toNat ≠ 0 := fun h0 => hb (UInt8.toNat_inj.1 h0)
      have : 0 < b.toNat * 256 ^ rest.length := Nat.mul_pos (by omega) (by positivity)
      simp only [ne_eq, hb, not_false_eq_true, true_or, iff_true]
      omega

theorem b58Encode_eq {data : Bytes} (h : data = [] ∨ ∃ b ∈ data, b ≠ 0) :
    b58Encode data = .ok ((rebase 256 58 (data.map UInt8.toNat)).map b58Char) := by
  have hl : encodeLoop data [] = .ok ((Nat.digits 58 (beVal data)).map b58Char) := by
    rcases h with rfl | h
    · rw [encodeLoop, dif_pos rfl]; simp
    · rw [encodeLoop_pos [] ((beVal_pos_iff data).2 h)]; rfl
  rw [b58Encode_of_loop hl]
  unfold rebase numDigits
  rw [List.map_append, List.map_replicate, beVal_eq_numValue]
  rfl

theorem leadingZeros_replicate (n : Nat) : leadingZeros (List.replicate n 0) = n := by
  simp [leadingZeros]

theorem b58Encode_zeros (n : Nat) :
    b58Encode (List.replicate (n + 1) 0) = .ok (List.replicate (n + 2) '1') := by
  have h0 : beVal (List.replicate (n + 1) 0) = 0 := by
    by_contra h
    obtain ⟨b, hb, hb0⟩ := (beVal_pos_iff _).1 (Nat.pos_of_ne_zero h)
    exact hb0 (List.eq_of_mem_replicate hb)
  have hl : encodeLoop (List.replicate (n + 1) 0) [] = .ok ([0].map b58Char) := by
    rw [encodeLoop_zero [] (by simp [List.replicate_succ]) h0]; decide
  rw [b58Encode_of_loop hl, List.map_replicate, show (0 : UInt8).toNat = 0 from rfl, leadingZeros_replicate]
  rw [show ([0].reverse.map b58Char) = List.replicate 1 '1' by decide +kernel, List.replicate_append_replicate]

/-! ### decoding -/

theorem byteMap_table : ∀ n : Fin 256, byteMap[n.1]? =
    some (match b58Value (Char.ofNat n.1) with
    | some v => (v : Int)
    | none => -1) := by decide +kernel

theorem b58Alphabet_ascii : ∀ c ∈ b58Alphabet, c.toNat < 128 := by decide +kernel

theorem b58Value_lt {c : Char} {v : Nat} (h : b58Value c = some v) : v < 58 := by
  unfold b58Value at h
  have : b58Alphabet.length = 58 := by decide +kernel
  rw [← this]
  rw [List.idxOf?_eq_some_iff] at h
  exact h.1

theorem b58Char_of_value {c : Char} {v : Nat} (h : b58Value c = some v) : b58Char v = c := by
  unfold b58Value at h
  rw [List.idxOf?_eq_some_iff] at h
  obtain ⟨hv, h1, _⟩ := h
  unfold b58Char
  rw [List.getD_eq_getElem?_getD, List.getElem?_eq_getElem hv]
  simpa using h1

theorem b58Value_ascii {c : Char} {v : Nat} (h : b58Value c = some v) : c.toNat < 128 := by
  have h1 := b58Char_of_value h
  have h2 := b58Value_lt h
  have : ∀ v : Fin 58, (b58Char v.1).toNat < 128 := by decide +kernel
  rw [← h1]; exact this ⟨v, h2⟩

theorem lookup {c : Char} (h : c.toNat < 256) : byteMap[c.toNat]? =
    some (match b58Value c with
    | some v => (v : Int)
    | none => -1) := by
  have := byteMap_table ⟨c.toNat, h⟩
  simpa only [Char.ofNat_toNat] using this

theorem lookup_none {c : Char} (h : 256 ≤ c.toNat) : byteMap[c.toNat]? = none := by
  rw [List.getElem?_eq_none]
  have : byteMap.length = 256 := by decide +kernel
  omega

theorem mulAdd_spec : ∀ (l : Bytes) (carry : Nat), carry < 58 →
    ∃ l' c', mulAdd l carry = .ok l' ∧ l'.length = l.length ∧
      Nat.ofDigits 256 (l'.map UInt8.toNat) + 256 ^ l.length * c' =
        58 * Nat.ofDigits 256 (l.map UInt8.toNat) + carry := by
  intro l
  induction l with
  | nil => intro carry h; exact ⟨[], carry, rfl, rfl, by simp⟩
  | cons b rest ih =>
    intro carry h
    have hb := b.toNat_lt
    obtain ⟨l', c', h1, h2, h3⟩ := ih ((carry + b.toNat * 58) / 256) (by omega)
    refine ⟨UInt8.ofNat ((carry + b.toNat * 58) % 256) :: l', c', ?_, by simp [h2], ?_⟩
    · rw [mulAdd, u32, if_pos (by omega), Outcome.ok_bind, h1]; rfl
    · rw [List.map_cons, List.map_cons, Nat.ofDigits_cons, Nat.ofDigits_cons, UInt8.toNat_ofNat',
        show (2 : Nat) ^ 8 = 256 by norm_num, Nat.mod_mod, List.length_cons]
      have := Nat.div_add_mod (carry + b.toNat * 58) 256
      have e : 256 ^ (rest.length + 1) * c' = 256 * (256 ^ rest.length * c') := by ring
      rw [e]
      omega

theorem decodeLoop_ok : ∀ (s : Str) (buff : Bytes), (∀ c ∈ s, (b58Value c).isSome) →
    beVal buff * 58 ^ s.length + numValue 58 (s.filterMap b58Value) < 256 ^ buff.length →
    ∃ buff', decodeLoop buff s = .ok buff' ∧
      beVal buff' = beVal buff * 58 ^ s.length + numValue 58 (s.filterMap b58Value) := by
  intro s
  induction s with
  | nil => intro buff _ _; exact ⟨buff, rfl, by simp [numValue]⟩
  | cons c s ih =>
    intro buff hs hlt
    obtain ⟨v, hv⟩ := Option.isSome_iff_exists.1 (hs c (List.mem_cons_self ..))
    have hv58 := b58Value_lt hv
    have hc := b58Value_ascii hv
    have hfl : (s.filterMap b58Value).length = s.length := by
      have hs' : ∀ c ∈ s, (b58Value c).isSome := fun c h => hs c (List.mem_cons_of_mem _ h)
      clear ih hs hlt
      induction s with
      | nil => rfl
      | cons d s ih =>
        obtain ⟨w, hw⟩ := Option.isSome_iff_exists.1 (hs' d (List.mem_cons_self ..))
        rw [List.filterMap_cons, hw]
        simp only [List.length_cons]
        rw [ih (fun c h => hs' c (List.mem_cons_of_mem _ h))]
    have hnum : beVal buff * 58 ^ (c :: s).length + numValue 58 ((c :: s).filterMap b58Value) =
        (58 * beVal buff + v) * 58 ^ s.length + numValue 58 (s.filterMap b58Value) := by
      rw [List.filterMap_cons, hv]
      simp only []
      rw [numValue_cons, hfl, List.length_cons, pow_succ]; ring
    rw [hnum] at hlt ⊢
    obtain ⟨l', c', h1, h2, h3⟩ := mulAdd_spec buff.reverse v hv58
    rw [← beVal_reverse, ← beVal_reverse, List.reverse_reverse, List.length_reverse] at h3
    rw [List.length_reverse] at h2
    have hpos : 0 < 58 ^ s.length := by positivity
    have hsmall : 58 * beVal buff + v < 256 ^ buff.length := by
      have : 58 * beVal buff + v ≤ (58 * beVal buff + v) * 58 ^ s.length := Nat.le_mul_of_pos_right _ hpos
      omega
    have hc0 : c' = 0 := by
      by_contra hne
      have : 256 ^ buff.length ≤ 256 ^ buff.length * c' := Nat.le_mul_of_pos_right _ (Nat.pos_of_ne_zero hne)
      omega
    subst hc0
    have hval : beVal l'.reverse = 58 * beVal buff + v := by omega
    obtain ⟨buff', g1, g2⟩ := ih l'.reverse (fun c h => hs c (List.mem_cons_of_mem _ h))
      (by rw [hval, List.length_reverse, h2]; exact hlt)
    refine ⟨buff', ?_, by rw [g2, hval]⟩
    rw [decodeLoop, lookup (by omega), hv]
    simp only [Outcome.orPanic_some, Outcome.ok_bind]
    rw [if_neg (by omega), if_pos (by omega), Outcome.ok_bind]
    simp only [Int.toNat_natCast, h1, Outcome.ok_bind, g1]

/-- The first character that is not a digit decides. -/
theorem decodeLoop_bad : ∀ (l : Str) (buff : Bytes) (c : Char) (r : Str), (∀ c ∈ l, (b58Value c).isSome) →
    b58Value c = none →
    decodeLoop buff (l ++ c :: r) = if c.toNat < 256 then .err (.badChar c) else .panic := by
  intro l
  induction l with
  | nil =>
    intro buff c r _ hc
    rw [List.nil_append, decodeLoop]
    by_cases h : c.toNat < 256
    · rw [lookup h, if_pos h, hc]
      simp
    · rw [lookup_none (by omega), if_neg h]; rfl
  | cons d l ih =>
    intro buff c r hl hc
    obtain ⟨v, hv⟩ := Option.isSome_iff_exists.1 (hl d (List.mem_cons_self ..))
    have hd := b58Value_ascii hv
    obtain ⟨l', c', h1, _, _⟩ := mulAdd_spec buff.reverse v (b58Value_lt hv)
    rw [List.cons_append, decodeLoop, lookup (by omega), hv]
    simp only [Outcome.orPanic_some, Outcome.ok_bind]
    rw [if_neg (by omega), if_pos (by omega), Outcome.ok_bind]
    simp only [Int.toNat_natCast, h1, Outcome.ok_bind]
    exact ih _ c r (fun c h => hl c (List.mem_cons_of_mem _ h)) hc

/-- The buffer allocated by `b58_decode` is large enough. -/
theorem capacity (n : Nat) : 58 ^ n < 256 ^ (n * 733 / 1000 + 1) := by
  have h1 : 58 ^ 1000 ≤ 256 ^ 733 := by decide +kernel
  have h2 : (58 ^ n) ^ 1000 < (256 ^ (n * 733 / 1000 + 1)) ^ 1000 := by
    calc (58 ^ n) ^ 1000 = (58 ^ 1000) ^ n := by rw [← pow_mul, ← pow_mul, Nat.mul_comm]
      _ ≤ (256 ^ 733) ^ n := Nat.pow_le_pow_left h1 n
      _ = 256 ^ (733 * n) := by rw [← pow_mul]
      _ < 256 ^ ((n * 733 / 1000 + 1) * 1000) := Nat.pow_lt_pow_right (by norm_num) (by omega)
      _ = _ := by rw [pow_mul]
  exact lt_of_pow_lt_pow_left₀ 1000 (by positivity) h2

theorem ascii_of_b58 {s : Str} (h : ∀ c ∈ s, (b58Value c).isSome) : ∀ c ∈ s, c.toNat < 128 := by
  intro c hc
  obtain ⟨v, hv⟩ := Option.isSome_iff_exists.1 (h c hc)
  exact b58Value_ascii hv

theorem countLeading_ones {s : Str} (h : ∀ c ∈ s, (b58Value c).isSome) :
    countLeading 0x31 s.bytes = leadingZeros (s.filterMap b58Value) := by
  rw [Str.bytes_of_ascii (ascii_of_b58 h)]
  induction s with
  | nil => rfl
  | cons c s ih =>
    obtain ⟨v, hv⟩ := Option.isSome_iff_exists.1 (h c (List.mem_cons_self ..))
    have hlt := b58Value_lt hv
    have hch := b58Char_of_value hv
    rw [List.filterMap_cons, hv, List.map_cons]
    simp only []
    unfold countLeading leadingZeros
    have key : ∀ v : Fin 58, (UInt8.ofNat (b58Char v.1).toNat == 0x31) = (v.1 == 0) := by decide +kernel
    have := key ⟨v, hlt⟩
    rw [← hch, this]
    by_cases h0 : v = 0
    · subst h0
      rw [if_pos (by simp), ih (fun c hc => h c (List.mem_cons_of_mem _ hc)), List.takeWhile_cons_of_pos (by simp)]
      rfl
    · rw [if_neg (by simpa using h0), List.takeWhile_cons_of_neg (by simpa using h0)]; rfl

theorem b58Decode_eq {s : Str} (h : ∀ c ∈ s, (b58Value c).isSome) :
    b58Decode s = .ok ((rebase 58 256 (s.filterMap b58Value)).map UInt8.ofNat) := by
  have hasc := ascii_of_b58 h
  by_cases hs : s = []
  · subst hs
    simp [b58Decode, rebase, numDigits, numValue, leadingZeros]
  · have hlt : numValue 58 (s.filterMap b58Value) < 58 ^ s.length := by
      have h1 := numValue_lt (b := 58) (by omega) (ds := s.filterMap b58Value) (by
        intro d hd
        obtain ⟨c, _, hc⟩ := List.mem_filterMap.1 hd
        exact b58Value_lt hc)
      have h2 : (s.filterMap b58Value).length ≤ s.length := List.length_filterMap_le ..
      exact lt_of_lt_of_le h1 (Nat.pow_le_pow_right (by omega) h2)
    have h0 : beVal (List.replicate (s.len * 733 / 1000 + 1) 0) = 0 := by
      by_contra h
      obtain ⟨b, hb, hb0⟩ := (beVal_pos_iff _).1 (Nat.pos_of_ne_zero h)
      exact hb0 (List.eq_of_mem_replicate hb)
    obtain ⟨buff, e1, e2⟩ := decodeLoop_ok s (List.replicate (s.len * 733 / 1000 + 1) 0) h (by
      rw [h0, List.length_replicate, Str.len_of_ascii hasc]
      have := capacity s.length
      omega)
    rw [h0, Nat.zero_mul, Nat.zero_add] at e2
    unfold b58Decode
    have hne : s.bytes.isEmpty = false := by
      rw [Str.bytes_of_ascii hasc]
      cases s <;> simp_all
    rw [hne]
    simp only [Bool.false_eq_true, if_false, e1, Outcome.ok_bind, Outcome.pure_def]
    rw [countLeading_ones h]
    have hdrop : buff.dropWhile (· == 0) = (numDigits 256 (numValue 58 (s.filterMap b58Value))).map UInt8.ofNat := by
      have h1 : (buff.dropWhile (· == 0)).map UInt8.toNat = (buff.map UInt8.toNat).dropWhile (· == 0) := by
        clear e1 e2
        induction buff with
        | nil => rfl
        | cons b rest ih =>
          by_cases hb : b = 0
          · subst hb
            rw [List.dropWhile_cons_of_pos (by simp), List.map_cons, List.dropWhile_cons_of_pos (by simp), ih]
          · have h' : b.toNat ≠ 0 := fun h0 => hb (UInt8.toNat_inj.1 h0)
            rw [List.dropWhile_cons_of_neg (by simpa using hb), List.map_cons,
              List.dropWhile_cons_of_neg (by simpa using h')]
      rw [dropWhile_zero_eq (b := 256) (by omega) (C32.u8_digits_lt buff), ← beVal_eq_numValue, e2] at h1
      rw [← h1, C32.ofNat_map_toNat]
    rw [hdrop]
    unfold rebase
    rw [List.map_append, List.map_replicate]; rfl

theorem b58Char_value {d : Nat} (h : d < 58) : b58Value (b58Char d) = some d := by
  have : ∀ d : Fin 58, b58Value (b58Char d.1) = some d.1 := by decide +kernel
  exact this ⟨d, h⟩

theorem filterMap_b58Char {l : List Nat} (h : ∀ d ∈ l, d < 58) : (l.map b58Char).filterMap b58Value = l := by
  rw [List.filterMap_map]
  induction l with
  | nil => rfl
  | cons d l ih =>
    rw [List.filterMap_cons]
    simp only [Function.comp, b58Char_value (h d (List.mem_cons_self ..))]
    rw [show (fun x => b58Value (b58Char x)) = b58Value ∘ b58Char from rfl,
      ih (fun d hd => h d (List.mem_cons_of_mem _ hd))]

theorem map_b58Char_values {s : Str} (h : ∀ c ∈ s, (b58Value c).isSome) :
    (s.filterMap b58Value).map b58Char = s := by
  induction s with
  | nil => rfl
  | cons c s ih =>
    obtain ⟨v, hv⟩ := Option.isSome_iff_exists.1 (h c (List.mem_cons_self ..))
    rw [List.filterMap_cons, hv]
    simp only [List.map_cons, b58Char_of_value hv]
    rw [ih (fun d hd => h d (List.mem_cons_of_mem _ hd))]

theorem map_b58Char_isSome {l : List Nat} (h : ∀ d ∈ l, d < 58) : ∀ c ∈ l.map b58Char, (b58Value c).isSome := by
  intro c hc
  obtain ⟨d, hd, rfl⟩ := List.mem_map.1 hc
  rw [b58Char_value (h d hd)]; rfl

theorem b58Decode_encode {data : Bytes} (h : data = [] ∨ ∃ b ∈ data, b ≠ 0) :
    (b58Encode data >>= b58Decode) = .ok data := by
  have hlt : ∀ d ∈ rebase 256 58 (data.map UInt8.toNat), d < 58 := fun d hd => rebase_lt (by omega) hd
  rw [b58Encode_eq h, Outcome.ok_bind, b58Decode_eq (map_b58Char_isSome hlt), filterMap_b58Char hlt,
    rebase_rebase 58 (by omega) (C32.u8_digits_lt data), C32.ofNat_map_toNat]

theorem b58Decode_ones (n : Nat) : b58Decode (List.replicate n '1') = .ok (List.replicate n 0) := by
  have h1 : b58Char 0 = '1' := by decide +kernel
  have h2 : List.replicate n '1' = (List.replicate n 0).map b58Char := by rw [List.map_replicate, h1]
  have hlt : ∀ d ∈ List.replicate n 0, d < 58 := by
    intro d hd; rw [List.eq_of_mem_replicate hd]; omega
  rw [h2, b58Decode_eq (map_b58Char_isSome hlt), filterMap_b58Char hlt]
  have hz : numValue 58 (List.replicate n 0) = 0 := by
    have := numValue_replicate_zero_append 58 n []
    simpa [numValue] using this
  unfold rebase
  rw [leadingZeros_replicate, hz]
  simp [numDigits]

end Stacks.B58

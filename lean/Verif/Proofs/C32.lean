import Verif.Model.C32
import Verif.Spec.C32
import Verif.Proofs.Basic
import Verif.Proofs.Hex
import Verif.Proofs.Num

/-! Helper lemmas for the C32 functions. -/

namespace Stacks.C32
open Stacks.Spec

/-- The alphabet byte of a digit. -/
def alph (d : Nat) : UInt8 := alphabet.getD d 0

theorem idx_alphabet {ε : Type} {d : Nat} (h : d < 32) : (idx alphabet d : Outcome ε UInt8) = .ok (alph d) := by
  have : ∀ d : Fin 32, alphabet[d.1]? = some (alph d.1) := by decide +kernel
  unfold idx
  rw [this ⟨d, h⟩]; rfl

theorem idx_alphabet_ge {ε : Type} {d : Nat} (h : 32 ≤ d) : (idx alphabet d : Outcome ε UInt8) = .panic := by
  unfold idx
  rw [List.getElem?_eq_none]; · rfl
  · have : alphabet.length = 32 := by decide +kernel
    omega

theorem alph_zero_iff {d : Nat} (h : d < 32) : alph d = alph 0 ↔ d = 0 := by
  have : ∀ d : Fin 32, alph d.1 = alph 0 ↔ d.1 = 0 := by decide +kernel
  exact this ⟨d, h⟩

theorem alph_lt {d : Nat} (h : d < 32) : (alph d).toNat < 128 := by
  have : ∀ d : Fin 32, (alph d.1).toNat < 128 := by decide +kernel
  exact this ⟨d, h⟩

theorem alph_char {d : Nat} (h : d < 32) : Char.ofNat (alph d).toNat = c32Char d := by
  have : ∀ d : Fin 32, Char.ofNat (alph d.1).toNat = c32Char d.1 := by decide +kernel
  exact this ⟨d, h⟩

theorem and31 (x : UInt32) : (x &&& 0x1F).toNat = x.toNat % 32 := by
  rw [UInt32.toNat_and]
  exact Nat.and_two_pow_sub_one_eq_mod _ 5

theorem shr5 (x : UInt32) : (x >>> 5).toNat = x.toNat / 32 := by
  rw [UInt32.toNat_shiftRight]
  show x.toNat >>> 5 = _
  rw [Nat.shiftRight_eq_div_pow]

theorem encodeDrain_spec (encoded : Bytes) (buff : UInt32) (bits : Nat) (hb : buff.toNat < 2 ^ bits) :
    ∃ ds buff' bits', encodeDrain encoded buff bits = .ok (encoded ++ ds.map alph, buff', bits') ∧
      bits' < 5 ∧ buff'.toNat < 2 ^ bits' ∧ bits = 5 * ds.length + bits' ∧
      buff.toNat = Nat.ofDigits 32 ds + 32 ^ ds.length * buff'.toNat ∧ ∀ d ∈ ds, d < 32 := by
  induction bits using Nat.strong_induction_on generalizing encoded buff with
  | _ bits ih =>
    unfold encodeDrain
    by_cases h : bits ≥ 5
    · have h32 : 2 ^ bits = 32 * 2 ^ (bits - 5) := by
        conv_lhs => rw [show bits = 5 + (bits - 5) by omega, pow_add]
        norm_num
      have hlt : (buff >>> 5).toNat < 2 ^ (bits - 5) := by
        rw [shr5]; omega
      obtain ⟨ds, buff', bits', h1, h2, h3, h4, h5, h6⟩ :=
        ih (bits - 5) (by omega) (encoded ++ [alph (buff &&& 0x1F).toNat]) (buff >>> 5) hlt
      have hm : (buff &&& 0x1F).toNat < 32 := by rw [and31]; omega
      rw [if_pos h, idx_alphabet hm, Outcome.ok_bind, h1]
      refine ⟨(buff &&& 0x1F).toNat :: ds, buff', bits', ?_, h2, h3, ?_, ?_, ?_⟩
      · simp
      · rw [List.length_cons]; omega
      · rw [Nat.ofDigits_cons, List.length_cons, pow_succ]
        rw [shr5] at h5
        rw [and31]
        have := Nat.div_add_mod buff.toNat 32
        rw [h5] at this
        conv_lhs => rw [← this]
        ring
      · intro d hd
        rcases List.mem_cons.1 hd with rfl | hd
        · exact hm
        · exact h6 d hd
    · rw [if_neg h]
      exact ⟨[], buff, bits, by simp, by omega, hb, by simp, by simp, by simp⟩

theorem or_shl32 {buff : UInt32} {byte : UInt8} {bits : Nat} (hbits : bits < 5)
    (hb : buff.toNat < 2 ^ bits) :
    ∃ sh, shl32 byte.toUInt32 bits = .ok sh ∧
      (buff ||| sh).toNat = buff.toNat + byte.toNat * 2 ^ bits := by
  unfold shl32
  rw [if_pos (by omega)]
  refine ⟨_, rfl, ?_⟩
  have h8 := byte.toNat_lt
  have hp : 2 ^ bits ≤ 16 := by
    calc 2 ^ bits ≤ 2 ^ 4 := Nat.pow_le_pow_right (by omega) (by omega)
      _ = 16 := by norm_num
  have hmul : byte.toNat * 2 ^ bits < 2 ^ 32 := by nlinarith
  rw [UInt32.toNat_or, UInt32.toNat_shiftLeft, UInt32.toNat_ofNat', UInt8.toNat_toUInt32]
  rw [show bits % 2 ^ 32 % 32 = bits by omega, Nat.shiftLeft_eq, Nat.mod_eq_of_lt hmul,
    Nat.or_comm, Nat.mul_comm byte.toNat, ← Nat.two_pow_add_eq_or_of_lt hb]
  omega

theorem encodeLoop_spec : ∀ (l encoded : Bytes) (buff : UInt32) (bits : Nat), bits < 5 →
    buff.toNat < 2 ^ bits →
    ∃ ds buff' bits', encodeLoop encoded buff bits l = .ok (encoded ++ ds.map alph, buff', bits') ∧
      bits' < 5 ∧ buff'.toNat < 2 ^ bits' ∧ bits + 8 * l.length = 5 * ds.length + bits' ∧
      buff.toNat + 2 ^ bits * Nat.ofDigits 256 (l.map UInt8.toNat) =
        Nat.ofDigits 32 ds + 32 ^ ds.length * buff'.toNat ∧ ∀ d ∈ ds, d < 32 := by
  intro l
  induction l with
  | nil =>
    intro encoded buff bits hbits hb
    exact ⟨[], buff, bits, by simp [encodeLoop], hbits, hb, by simp, by simp, by simp⟩
  | cons byte rest ih =>
    intro encoded buff bits hbits hb
    obtain ⟨sh, hs1, hs2⟩ := or_shl32 (byte := byte) hbits hb
    have hlt : (buff ||| sh).toNat < 2 ^ (bits + 8) := by
      rw [hs2, pow_add]
      have := byte.toNat_lt
      have : 0 < 2 ^ bits := by positivity
      nlinarith
    obtain ⟨ds1, buff1, bits1, h1, h2, h3, h4, h5, h6⟩ := encodeDrain_spec encoded _ _ hlt
    obtain ⟨ds2, buff2, bits2, g1, g2, g3, g4, g5, g6⟩ :=
      ih (encoded ++ ds1.map alph) buff1 bits1 h2 h3
    refine ⟨ds1 ++ ds2, buff2, bits2, ?_, g2, g3, ?_, ?_, ?_⟩
    · rw [encodeLoop, hs1, Outcome.ok_bind, h1, Outcome.ok_bind]
      show encodeLoop _ _ _ _ = _
      rw [g1]; simp
    · rw [List.length_cons, List.length_append]; omega
    · rw [List.map_cons, Nat.ofDigits_cons, Nat.ofDigits_append, List.length_append, pow_add]
      rw [hs2] at h5
      have hpow : 2 ^ bits * 256 = 32 ^ ds1.length * 2 ^ bits1 := by
        rw [show (32 : Nat) = 2 ^ 5 by norm_num, ← pow_mul, ← pow_add, ← h4, pow_add]
        norm_num
      have e1 : 2 ^ bits * (byte.toNat + 256 * Nat.ofDigits 256 (rest.map UInt8.toNat)) =
          byte.toNat * 2 ^ bits + 32 ^ ds1.length * (2 ^ bits1 * Nat.ofDigits 256 (rest.map UInt8.toNat)) := by
        rw [mul_add, ← mul_assoc, hpow]; ring
      have e2 : 32 ^ ds1.length * (2 ^ bits1 * Nat.ofDigits 256 (rest.map UInt8.toNat)) + 32 ^ ds1.length * buff1.toNat =
          32 ^ ds1.length * Nat.ofDigits 32 ds2 + 32 ^ ds1.length * 32 ^ ds2.length * buff2.toNat := by
        rw [← mul_add, Nat.add_comm (2 ^ bits1 * _), g5]; ring
      rw [e1]
      omega
    · intro d hd
      rcases List.mem_append.1 hd with hd | hd
      · exact h6 d hd
      · exact g6 d hd

/-- Dropping trailing zero digits of a digit list written least significant digit first. -/
theorem popWhileEq_map {b : Nat} (hb : 1 < b) {f : Nat → UInt8} (hf : ∀ d, d < b → (f d = f 0 ↔ d = 0))
    {ds : List Nat} (hd : ∀ d ∈ ds, d < b) :
    popWhileEq (f 0) (ds.map f) = (numDigits b (Nat.ofDigits b ds)).reverse.map f := by
  have h1 : (ds.map f).reverse.dropWhile (· == f 0) = (ds.reverse.dropWhile (· == 0)).map f := by
    rw [← List.map_reverse]
    have hr : ∀ d ∈ ds.reverse, d < b := fun d h => hd d (List.mem_reverse.1 h)
    generalize ds.reverse = l at hr
    induction l with
    | nil => rfl
    | cons d l ih =>
      have hdl := hr d (List.mem_cons_self ..)
      rw [List.map_cons]
      by_cases h0 : d = 0
      · subst h0
        rw [List.dropWhile_cons_of_pos (by simp), List.dropWhile_cons_of_pos (by simp)]
        exact ih (fun d h => hr d (List.mem_cons_of_mem _ h))
      · rw [List.dropWhile_cons_of_neg (by simpa [hf d hdl] using h0),
          List.dropWhile_cons_of_neg (by simpa using h0), List.map_cons]
  unfold popWhileEq
  rw [h1, dropWhile_zero_eq hb (fun d h => hd d (List.mem_reverse.1 h)), numValue_eq_ofDigits,
    List.reverse_reverse, List.map_reverse]

theorem pushPerLeadingZero_eq (z : UInt8) (data : Bytes) :
    pushPerLeadingZero z data = List.replicate (leadingZeros (data.map UInt8.toNat)) z := by
  induction data with
  | nil => rfl
  | cons b rest ih =>
    unfold pushPerLeadingZero leadingZeros
    by_cases h : b = 0
    · subst h
      rw [if_pos (by simp), ih]
      rfl
    · have h' : b.toNat ≠ 0 := fun h0 => h (UInt8.toNat_inj.1 h0)
      rw [if_neg (by simpa using h), List.map_cons, List.takeWhile_cons_of_neg (by simpa using h')]
      rfl

theorem leadingZeros_le (ds : List Nat) : leadingZeros ds ≤ ds.length := by
  unfold leadingZeros
  exact (List.takeWhile_sublist _).length_le

theorem c32Encode_eq (data : Bytes) :
    c32Encode data = .ok ((rebase 256 32 (data.map UInt8.toNat)).map c32Char) := by
  obtain ⟨ds, buff, bits, h1, h2, h3, h4, h5, h6⟩ := encodeLoop_spec data.reverse [] 0 0 (by omega) (by decide)
  have hbuff : buff.toNat < 32 := by
    have : 2 ^ bits ≤ 2 ^ 5 := Nat.pow_le_pow_right (by omega) (by omega)
    omega
  obtain ⟨ds', e1, e2, e3⟩ : ∃ ds' : List Nat,
      (if bits > 0 then do
          let ch ← idx alphabet (buff &&& 0x1F).toNat
          pure (([] ++ ds.map alph) ++ [ch])
        else pure ([] ++ ds.map alph) : Outcome Error Bytes) = .ok (ds'.map alph) ∧
      Nat.ofDigits 32 ds' = Nat.ofDigits 256 (data.reverse.map UInt8.toNat) ∧ ∀ d ∈ ds', d < 32 := by
    by_cases hb : bits > 0
    · refine ⟨ds ++ [buff.toNat], ?_, ?_, ?_⟩
      · have hm : (buff &&& 0x1F).toNat = buff.toNat := by rw [and31, Nat.mod_eq_of_lt hbuff]
        rw [if_pos hb, hm, idx_alphabet hbuff]; simp
      · rw [Nat.ofDigits_append, Nat.ofDigits_singleton, ← h5]; simp
      · intro d hd
        rcases List.mem_append.1 hd with hd | hd
        · exact h6 d hd
        · rw [List.mem_singleton] at hd; omega
    · refine ⟨ds, ?_, ?_, h6⟩
      · rw [if_neg hb]; simp
      · have h0 : bits = 0 := by omega
        subst h0
        have h0 : buff.toNat = 0 := by omega
        rw [h0] at h5
        simpa using h5.symm
  have hval : Nat.ofDigits 32 ds' = numValue 256 (data.map UInt8.toNat) := by
    rw [e2, numValue_eq_ofDigits, List.map_reverse]
  unfold c32Encode
  rw [h1, Outcome.ok_bind]
  show (_ >>= _) = _
  rw [e1, Outcome.ok_bind, idx_alphabet (by omega : 0 < 32), Outcome.ok_bind]
  simp only []
  rw [popWhileEq_map (b := 32) (by omega) (fun d h => alph_zero_iff h) e3, hval, pushPerLeadingZero_eq,
    List.reverse_append, List.reverse_replicate, ← List.map_reverse, List.reverse_reverse]
  have hr : List.replicate (leadingZeros (data.map UInt8.toNat)) (alph 0) ++
      (numDigits 32 (numValue 256 (data.map UInt8.toNat))).map alph =
      (rebase 256 32 (data.map UInt8.toNat)).map alph := by
    unfold rebase; rw [List.map_append, List.map_replicate]
  rw [hr]
  unfold stringFromUtf8
  rw [fromUtf8_ascii]
  · rw [Outcome.ofOption_some, List.map_map]
    congr 1
    apply List.map_congr_left
    intro d hd
    exact alph_char (rebase_lt (by omega) hd)
  · intro b hb
    obtain ⟨d, hd, rfl⟩ := List.mem_map.1 hb
    exact alph_lt (rebase_lt (by omega) hd)

/-! ### decoding -/

theorem byteMap_table : ∀ n : Fin 128, (byteMap[n.1]?).getD (-1) =
    match c32Value (Char.ofNat n.1) with
    | some v => (v : Int)
    | none => -1 := by decide +kernel

theorem c32Value_lt {c : Char} {v : Nat} (h : c32Value c = some v) : v < 32 := by
  unfold c32Value at h
  have : c32Alphabet.length = 32 := by decide +kernel
  rw [← this]
  rw [List.idxOf?_eq_some_iff] at h
  exact h.1

theorem toUpper_nonascii {c : Char} (h : 128 ≤ c.toNat) : c.toUpper = c := by
  unfold Char.toUpper
  rw [dif_neg]
  rintro ⟨_, h2⟩
  have : c.toNat ≤ 122 := h2
  omega

theorem c32Value_ascii {c : Char} {v : Nat} (h : c32Value c = some v) : c.toNat < 128 := by
  by_contra hc
  have hc : 128 ≤ c.toNat := by omega
  have hu := toUpper_nonascii hc
  have hcanon : c32Canon c = c := by
    unfold c32Canon
    simp only [hu]
    rw [if_neg, if_neg]
    · rintro (rfl | rfl) <;> revert hc <;> decide
    · rintro rfl; revert hc; decide
  unfold c32Value at h
  rw [hcanon, List.idxOf?_eq_some_iff] at h
  obtain ⟨hv, h1, _⟩ := h
  have hm : c ∈ c32Alphabet := by rw [← (by simpa using h1 : c32Alphabet[v] = c)]; exact List.getElem_mem ..
  have : ∀ c ∈ c32Alphabet, c.toNat < 128 := by decide +kernel
  have := this c hm
  omega

theorem lookup_char {c : Char} (h : c.toNat < 128) :
    (byteMap[(UInt8.ofNat c.toNat).toNat]?).getD (-1) =
      match c32Value c with
      | some v => (v : Int)
      | none => -1 := by
  have := byteMap_table ⟨c.toNat, h⟩
  simp only [Char.ofNat_toNat] at this
  rw [UInt8.toNat_ofNat', Nat.mod_eq_of_lt (by omega), this]

theorem decodeLookup_ok : ∀ {r : Str}, (∀ c ∈ r, (c32Value c).isSome) →
    decodeLookup (r.map fun c => UInt8.ofNat c.toNat) = .ok ((r.filterMap c32Value).map UInt8.ofNat) := by
  intro r
  induction r with
  | nil => intro _; rfl
  | cons c r ih =>
    intro h
    obtain ⟨v, hv⟩ := Option.isSome_iff_exists.1 (h c (List.mem_cons_self ..))
    have hlt := c32Value_lt hv
    rw [List.map_cons, decodeLookup]
    simp only [lookup_char (c32Value_ascii hv), hv]
    rw [if_neg (by omega), if_pos (by omega), ih (fun c hc => h c (List.mem_cons_of_mem _ hc))]
    simp [hv]

theorem decodeLookup_bad : ∀ {r : Str} {c : Char}, (∀ c ∈ r, c.toNat < 128) →
    r.find? (fun c => (c32Value c).isNone) = some c →
    decodeLookup (r.map fun c => UInt8.ofNat c.toNat) = .err (.badChar c) := by
  intro r
  induction r with
  | nil => intro c _ h; simp at h
  | cons d r ih =>
    intro c ha h
    have hd := ha d (List.mem_cons_self ..)
    rw [List.map_cons, decodeLookup]
    simp only [lookup_char hd]
    rcases hv : c32Value d with _ | v
    · rw [List.find?_cons_of_pos (by simp [hv])] at h
      simp only [Option.some.injEq] at h
      subst h
      simp only []
      rw [if_pos (by omega), UInt8.toNat_ofNat', Nat.mod_eq_of_lt (by omega), Char.ofNat_toNat]
    · rw [List.find?_cons_of_neg (by simp [hv])] at h
      have hlt := c32Value_lt hv
      simp only []
      rw [if_neg (by omega), if_pos (by omega), ih (fun c hc => ha c (List.mem_cons_of_mem _ hc)) h]
      rfl

theorem and255 (x : UInt16) : (x &&& 0xFF).toUInt8 = UInt8.ofNat (x.toNat % 256) := by
  apply UInt8.toNat_inj.1
  rw [UInt16.toNat_toUInt8, UInt16.toNat_and, UInt8.toNat_ofNat']
  rw [show (0xFF : UInt16).toNat = 2 ^ 8 - 1 from rfl, Nat.and_two_pow_sub_one_eq_mod]

theorem shr8 (x : UInt16) : (x >>> 8).toNat = x.toNat / 256 := by
  rw [UInt16.toNat_shiftRight]
  show x.toNat >>> 8 = _
  rw [Nat.shiftRight_eq_div_pow]

theorem decodeDrain_spec (decoded : Bytes) (carry : UInt16) (bits : Nat) (hb : carry.toNat < 2 ^ bits) :
    ∃ ds carry' bits', decodeDrain decoded carry bits = (decoded ++ ds.map UInt8.ofNat, carry', bits') ∧
      bits' < 8 ∧ carry'.toNat < 2 ^ bits' ∧ bits = 8 * ds.length + bits' ∧
      carry.toNat = Nat.ofDigits 256 ds + 256 ^ ds.length * carry'.toNat ∧ ∀ d ∈ ds, d < 256 := by
  induction bits using Nat.strong_induction_on generalizing decoded carry with
  | _ bits ih =>
    unfold decodeDrain
    by_cases h : bits ≥ 8
    · have h256 : 2 ^ bits = 256 * 2 ^ (bits - 8) := by
        conv_lhs => rw [show bits = 8 + (bits - 8) by omega, pow_add]
        norm_num
      have hlt : (carry >>> 8).toNat < 2 ^ (bits - 8) := by
        rw [shr8]; omega
      obtain ⟨ds, carry', bits', h1, h2, h3, h4, h5, h6⟩ :=
        ih (bits - 8) (by omega) (decoded ++ [(carry &&& 0xFF).toUInt8]) (carry >>> 8) hlt
      rw [if_pos h, h1]
      refine ⟨carry.toNat % 256 :: ds, carry', bits', ?_, h2, h3, ?_, ?_, ?_⟩
      · rw [and255]; simp
      · rw [List.length_cons]; omega
      · rw [Nat.ofDigits_cons, List.length_cons, pow_succ]
        rw [shr8] at h5
        have := Nat.div_add_mod carry.toNat 256
        rw [h5] at this
        conv_lhs => rw [← this]
        ring
      · intro d hd
        rcases List.mem_cons.1 hd with rfl | hd
        · omega
        · exact h6 d hd
    · rw [if_neg h]
      exact ⟨[], carry, bits, by simp, by omega, hb, by simp, by simp, by simp⟩

theorem or_shl16 {carry : UInt16} {v bits : Nat} (hv : v < 32) (hbits : bits < 8)
    (hb : carry.toNat < 2 ^ bits) :
    ∃ sh, shl16 (UInt8.ofNat v).toUInt16 bits = .ok sh ∧
      (carry ||| sh).toNat = carry.toNat + v * 2 ^ bits := by
  unfold shl16
  rw [if_pos (by omega)]
  refine ⟨_, rfl, ?_⟩
  have hp : 2 ^ bits ≤ 128 := by
    calc 2 ^ bits ≤ 2 ^ 7 := Nat.pow_le_pow_right (by omega) (by omega)
      _ = 128 := by norm_num
  have hmul : v * 2 ^ bits < 2 ^ 16 := by nlinarith
  rw [UInt16.toNat_or, UInt16.toNat_shiftLeft, UInt16.toNat_ofNat', UInt8.toNat_toUInt16,
    UInt8.toNat_ofNat', Nat.mod_eq_of_lt (show v < 2 ^ 8 by omega)]
  rw [show bits % 2 ^ 16 % 16 = bits by omega, Nat.shiftLeft_eq, Nat.mod_eq_of_lt hmul,
    Nat.or_comm, Nat.mul_comm v, ← Nat.two_pow_add_eq_or_of_lt hb]
  omega

theorem decodeLoop_spec : ∀ (l : List Nat) (decoded : Bytes) (carry : UInt16) (bits : Nat), bits < 8 →
    carry.toNat < 2 ^ bits → (∀ v ∈ l, v < 32) →
    ∃ ds carry' bits', decodeLoop decoded carry bits (l.map UInt8.ofNat) =
        .ok (decoded ++ ds.map UInt8.ofNat, carry', bits') ∧
      bits' < 8 ∧ carry'.toNat < 2 ^ bits' ∧ bits + 5 * l.length = 8 * ds.length + bits' ∧
      carry.toNat + 2 ^ bits * Nat.ofDigits 32 l =
        Nat.ofDigits 256 ds + 256 ^ ds.length * carry'.toNat ∧ ∀ d ∈ ds, d < 256 := by
  intro l
  induction l with
  | nil =>
    intro decoded carry bits hbits hb _
    exact ⟨[], carry, bits, by simp [decodeLoop], hbits, hb, by simp, by simp, by simp⟩
  | cons v rest ih =>
    intro decoded carry bits hbits hb hv
    have hv0 := hv v (List.mem_cons_self ..)
    obtain ⟨sh, hs1, hs2⟩ := or_shl16 hv0 hbits hb
    have hlt : (carry ||| sh).toNat < 2 ^ (bits + 5) := by
      rw [hs2, pow_add]
      have : 0 < 2 ^ bits := by positivity
      nlinarith
    obtain ⟨ds1, carry1, bits1, h1, h2, h3, h4, h5, h6⟩ := decodeDrain_spec decoded _ _ hlt
    obtain ⟨ds2, carry2, bits2, g1, g2, g3, g4, g5, g6⟩ :=
      ih (decoded ++ ds1.map UInt8.ofNat) carry1 bits1 h2 h3 (fun v h => hv v (List.mem_cons_of_mem _ h))
    refine ⟨ds1 ++ ds2, carry2, bits2, ?_, g2, g3, ?_, ?_, ?_⟩
    · rw [List.map_cons, decodeLoop, hs1, Outcome.ok_bind, h1]
      show decodeLoop _ _ _ _ = _
      rw [g1]; simp
    · rw [List.length_cons, List.length_append]; omega
    · rw [Nat.ofDigits_cons, Nat.ofDigits_append, List.length_append, pow_add]
      rw [hs2] at h5
      have hpow : 2 ^ bits * 32 = 256 ^ ds1.length * 2 ^ bits1 := by
        rw [show (256 : Nat) = 2 ^ 8 by norm_num, ← pow_mul, ← pow_add, ← h4, pow_add]
        norm_num
      have e1 : 2 ^ bits * (v + 32 * Nat.ofDigits 32 rest) =
          v * 2 ^ bits + 256 ^ ds1.length * (2 ^ bits1 * Nat.ofDigits 32 rest) := by
        rw [mul_add, ← mul_assoc, hpow]; ring
      have e2 : 256 ^ ds1.length * (2 ^ bits1 * Nat.ofDigits 32 rest) + 256 ^ ds1.length * carry1.toNat =
          256 ^ ds1.length * Nat.ofDigits 256 ds2 + 256 ^ ds1.length * 256 ^ ds2.length * carry2.toNat := by
        rw [← mul_add, Nat.add_comm (2 ^ bits1 * _), g5]; ring
      rw [e1]
      omega
    · intro d hd
      rcases List.mem_append.1 hd with hd | hd
      · exact h6 d hd
      · exact g6 d hd

theorem ofNat_zero_iff {d : Nat} (h : d < 256) : UInt8.ofNat d = UInt8.ofNat 0 ↔ d = 0 := by
  constructor
  · intro h0
    have := congrArg UInt8.toNat h0
    rw [UInt8.toNat_ofNat', Nat.mod_eq_of_lt h] at this
    simpa using this
  · rintro rfl; rfl

theorem map_toNat_ofNat {l : List Nat} (h : ∀ d ∈ l, d < 256) :
    (l.map UInt8.ofNat).map UInt8.toNat = l := by
  rw [List.map_map]
  conv_rhs => rw [← List.map_id l]
  apply List.map_congr_left
  intro d hd
  show (UInt8.ofNat d).toNat = d
  rw [UInt8.toNat_ofNat', Nat.mod_eq_of_lt (h d hd)]

theorem ascii_of_c32 {s : Str} (h : ∀ c ∈ s, (c32Value c).isSome) : ∀ c ∈ s, c.toNat < 128 := by
  intro c hc
  obtain ⟨v, hv⟩ := Option.isSome_iff_exists.1 (h c hc)
  exact c32Value_ascii hv

theorem c32Decode_eq {s : Str} (h : ∀ c ∈ s, (c32Value c).isSome) :
    c32Decode s = .ok ((rebase 32 256 (s.filterMap c32Value)).map UInt8.ofNat) := by
  have hasc := ascii_of_c32 h
  have hlook := decodeLookup_ok (r := s.reverse) (fun c hc => h c (List.mem_reverse.1 hc))
  have hlt : ∀ v ∈ s.filterMap c32Value, v < 32 := by
    intro v hv
    obtain ⟨c, _, hc⟩ := List.mem_filterMap.1 hv
    exact c32Value_lt hc
  rw [List.filterMap_reverse] at hlook
  generalize s.filterMap c32Value = vs at hlook hlt
  have hlt' : ∀ v ∈ vs.reverse, v < 32 := fun v hv => hlt v (List.mem_reverse.1 hv)
  obtain ⟨ds, carry, bits, h1, h2, h3, h4, h5, h6⟩ := decodeLoop_spec vs.reverse [] 0 0 (by omega) (by decide) hlt'
  have hcarry : carry.toNat < 256 := by
    have : 2 ^ bits ≤ 2 ^ 8 := Nat.pow_le_pow_right (by omega) (by omega)
    omega
  obtain ⟨ds', e1, e2, e3⟩ : ∃ ds' : List Nat,
      (if bits > 0 then do
          let b ← u8FromU16 carry
          pure (([] ++ ds.map UInt8.ofNat) ++ [b])
        else pure ([] ++ ds.map UInt8.ofNat) : Outcome Error Bytes) = .ok (ds'.map UInt8.ofNat) ∧
      Nat.ofDigits 256 ds' = Nat.ofDigits 32 vs.reverse ∧ ∀ d ∈ ds', d < 256 := by
    by_cases hb : bits > 0
    · refine ⟨ds ++ [carry.toNat], ?_, ?_, ?_⟩
      · rw [if_pos hb, u8FromU16, if_pos hcarry]; simp
      · rw [Nat.ofDigits_append, Nat.ofDigits_singleton, ← h5]; simp
      · intro d hd
        rcases List.mem_append.1 hd with hd | hd
        · exact h6 d hd
        · rw [List.mem_singleton] at hd; omega
    · refine ⟨ds, ?_, ?_, h6⟩
      · rw [if_neg hb]; simp
      · have h0 : bits = 0 := by omega
        subst h0
        have h0 : carry.toNat = 0 := by omega
        rw [h0] at h5
        simpa using h5.symm
  have hval : Nat.ofDigits 256 ds' = numValue 32 vs := by
    rw [e2, numValue_eq_ofDigits]
  unfold c32Decode
  rw [Str.isAscii_iff.2 hasc]
  simp only [Bool.not_true, Bool.false_eq_true, if_false]
  rw [Str.bytes_of_ascii hasc, ← List.map_reverse, hlook, Outcome.ok_bind, h1, Outcome.ok_bind]
  show (_ >>= _) = _
  rw [e1, Outcome.ok_bind]
  simp only [Outcome.pure_def]
  rw [show (0 : UInt8) = UInt8.ofNat 0 from rfl,
    popWhileEq_map (b := 256) (by omega) (fun d h => ofNat_zero_iff h) e3, hval, pushPerLeadingZero_eq,
    ← List.map_reverse, List.reverse_reverse, map_toNat_ofNat (fun d hd => by have := hlt d hd; omega),
    List.reverse_append, List.reverse_replicate, ← List.map_reverse, List.reverse_reverse]
  unfold rebase
  rw [List.map_append, List.map_replicate]

theorem c32Decode_nonascii {s : Str} (h : ¬ ∀ c ∈ s, c.toNat < 128) : c32Decode s = .err .badInput := by
  unfold c32Decode
  have : s.isAscii = false := by
    rcases hs : s.isAscii with _ | _
    · rfl
    · exact absurd (Str.isAscii_iff.1 hs) h
  rw [this]; rfl

theorem c32Decode_bad {s : Str} {c : Char} (ha : ∀ c ∈ s, c.toNat < 128)
    (h : s.reverse.find? (fun c => (c32Value c).isNone) = some c) :
    c32Decode s = .err (.badChar c) := by
  unfold c32Decode
  rw [Str.isAscii_iff.2 ha]
  simp only [Bool.not_true, Bool.false_eq_true, if_false]
  rw [Str.bytes_of_ascii ha, ← List.map_reverse,
    decodeLookup_bad (fun c hc => ha c (List.mem_reverse.1 hc)) h]
  rfl

theorem c32Char_value {d : Nat} (h : d < 32) : c32Value (c32Char d) = some d := by
  have : ∀ d : Fin 32, c32Value (c32Char d.1) = some d.1 := by decide +kernel
  exact this ⟨d, h⟩

theorem c32Char_value_canon {c : Char} {d : Nat} (h : c32Value c = some d) : c32Char d = c32Canon c := by
  unfold c32Value at h
  rw [List.idxOf?_eq_some_iff] at h
  obtain ⟨hv, h1, _⟩ := h
  unfold c32Char
  rw [List.getD_eq_getElem?_getD, List.getElem?_eq_getElem hv]
  simpa using h1

theorem filterMap_c32Char {l : List Nat} (h : ∀ d ∈ l, d < 32) : (l.map c32Char).filterMap c32Value = l := by
  rw [List.filterMap_map]
  induction l with
  | nil => rfl
  | cons d l ih =>
    rw [List.filterMap_cons]
    simp only [Function.comp, c32Char_value (h d (List.mem_cons_self ..))]
    rw [show (fun x => c32Value (c32Char x)) = c32Value ∘ c32Char from rfl,
      ih (fun d hd => h d (List.mem_cons_of_mem _ hd))]

theorem map_c32Char_values {s : Str} (h : ∀ c ∈ s, (c32Value c).isSome) :
    (s.filterMap c32Value).map c32Char = c32CanonStr s := by
  induction s with
  | nil => rfl
  | cons c s ih =>
    obtain ⟨v, hv⟩ := Option.isSome_iff_exists.1 (h c (List.mem_cons_self ..))
    rw [List.filterMap_cons, hv]
    simp only [List.map_cons, c32Char_value_canon hv, c32CanonStr]
    rw [ih (fun d hd => h d (List.mem_cons_of_mem _ hd))]
    rfl

theorem u8_digits_lt (data : Bytes) : ∀ d ∈ data.map UInt8.toNat, d < 256 := by
  intro d hd
  obtain ⟨b, _, rfl⟩ := List.mem_map.1 hd
  exact b.toNat_lt

theorem ofNat_map_toNat (data : Bytes) : (data.map UInt8.toNat).map UInt8.ofNat = data := by
  rw [List.map_map]
  conv_rhs => rw [← List.map_id data]
  apply List.map_congr_left
  intro b _
  exact UInt8.ofNat_toNat

theorem c32Encode_values {data : Bytes} {s : Str} (h : c32Encode data = .ok s) :
    (∀ c ∈ s, (c32Value c).isSome) ∧ s.filterMap c32Value = rebase 256 32 (data.map UInt8.toNat) := by
  rw [c32Encode_eq] at h
  cases h
  have hlt : ∀ d ∈ rebase 256 32 (data.map UInt8.toNat), d < 32 := fun d hd => rebase_lt (by omega) hd
  refine ⟨?_, filterMap_c32Char hlt⟩
  intro c hc
  obtain ⟨d, hd, rfl⟩ := List.mem_map.1 hc
  rw [c32Char_value (hlt d hd)]; rfl

theorem c32Decode_encode {data : Bytes} {s : Str} (h : c32Encode data = .ok s) : c32Decode s = .ok data := by
  obtain ⟨h1, h2⟩ := c32Encode_values h
  rw [c32Decode_eq h1, h2, rebase_rebase 32 (by omega) (u8_digits_lt data), ofNat_map_toNat]

theorem c32Decode_ok_iff {s : Str} : (∃ bs, c32Decode s = .ok bs) ↔ ∀ c ∈ s, (c32Value c).isSome := by
  constructor
  · rintro ⟨bs, h⟩
    by_contra hc
    by_cases ha : ∀ c ∈ s, c.toNat < 128
    · rcases hf : s.reverse.find? (fun c => (c32Value c).isNone) with _ | c
      · apply hc
        intro c hcs
        rw [List.find?_eq_none] at hf
        have := hf c (List.mem_reverse.2 hcs)
        simpa [Option.isSome_iff_ne_none] using this
      · rw [c32Decode_bad ha hf] at h; simp at h
    · rw [c32Decode_nonascii ha] at h; simp at h
  · intro h; exact ⟨_, c32Decode_eq h⟩

theorem c32Encode_decode {s : Str} {data : Bytes} (h : c32Decode s = .ok data) :
    c32Encode data = .ok (c32CanonStr s) := by
  have h1 := c32Decode_ok_iff.1 ⟨_, h⟩
  rw [c32Decode_eq h1] at h
  cases h
  have hlt : ∀ v ∈ s.filterMap c32Value, v < 32 := by
    intro v hv
    obtain ⟨c, _, hc⟩ := List.mem_filterMap.1 hv
    exact c32Value_lt hc
  rw [c32Encode_eq, map_toNat_ofNat (fun d hd => rebase_lt (by omega) hd),
    rebase_rebase 256 (by omega) hlt, map_c32Char_values h1]

theorem c32Decode_not_panic (s : Str) : c32Decode s ≠ .panic := by
  by_cases hs : ∀ c ∈ s, (c32Value c).isSome
  · rw [c32Decode_eq hs]; simp
  · by_cases ha : ∀ c ∈ s, c.toNat < 128
    · rcases hf : s.reverse.find? (fun c => (c32Value c).isNone) with _ | c
      · exfalso; apply hs
        intro c hcs
        rw [List.find?_eq_none] at hf
        have := hf c (List.mem_reverse.2 hcs)
        simpa [Option.isSome_iff_ne_none] using this
      · rw [c32Decode_bad ha hf]; simp
    · rw [c32Decode_nonascii ha]; simp

end Stacks.C32

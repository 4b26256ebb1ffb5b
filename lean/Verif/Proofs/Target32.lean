import Verif.Model.Target32
import Verif.Proofs.Release
import Verif.Proofs.B58

/-! # Lemmas about builds for 32-bit targets -/

namespace Stacks.Target32
open Stacks.Spec Stacks.Clarity

/-! ## Base58 -/

theorem b58Loop (checks : Bool) (buff : Bytes) (s : Str) :
    (if checks then B58.decodeLoop buff s else Release.B58.decodeLoop buff s) = B58.decodeLoop buff s := by
  cases checks
  · exact Release.b58_decodeLoop_eq s buff
  · rfl

/-- The loop of `b58_decode` keeps the number modulo what the buffer can hold. -/
theorem decodeLoop_mod : ∀ (s : Str) (buff : Bytes), (∀ c ∈ s, (b58Value c).isSome) →
    ∃ buff', B58.decodeLoop buff s = .ok buff' ∧ buff'.length = buff.length ∧
      beVal buff' = (beVal buff * 58 ^ s.length + numValue 58 (s.filterMap b58Value)) % 256 ^ buff.length := by
  intro s
  induction s with
  | nil =>
    intro buff _
    refine ⟨buff, rfl, rfl, ?_⟩
    rw [Nat.mod_eq_of_lt]
    · simp [numValue]
    · have := numValue_lt (b := 256) (by omega) (C32.u8_digits_lt buff)
      rw [List.length_map, ← B58.beVal_eq_numValue] at this
      simpa [numValue] using this
  | cons c s ih =>
    intro buff hs
    obtain ⟨v, hv⟩ := Option.isSome_iff_exists.1 (hs c (List.mem_cons_self ..))
    have hs' : ∀ c ∈ s, (b58Value c).isSome := fun c h => hs c (List.mem_cons_of_mem _ h)
    have hv58 := B58.b58Value_lt hv
    have hc := B58.b58Value_ascii hv
    have hfl : (s.filterMap b58Value).length = s.length := by
      have := congrArg List.length (B58.map_b58Char_values hs')
      rwa [List.length_map] at this
    have hnum : beVal buff * 58 ^ (c :: s).length + numValue 58 ((c :: s).filterMap b58Value) =
        (58 * beVal buff + v) * 58 ^ s.length + numValue 58 (s.filterMap b58Value) := by
      rw [List.filterMap_cons, hv]
      simp only []
      rw [numValue_cons, hfl, List.length_cons, pow_succ]; ring
    obtain ⟨l', c', h1, h2, h3⟩ := B58.mulAdd_spec buff.reverse v hv58
    rw [← B58.beVal_reverse, ← B58.beVal_reverse, List.reverse_reverse, List.length_reverse] at h3
    rw [List.length_reverse] at h2
    obtain ⟨buff', g1, g2, g3⟩ := ih l'.reverse hs'
    rw [List.length_reverse, h2] at g2 g3
    refine ⟨buff', ?_, g2, ?_⟩
    · rw [B58.decodeLoop, B58.lookup (by omega), hv]
      simp only [Outcome.orPanic_some, Outcome.ok_bind]
      rw [if_neg (by omega), if_pos (by omega), Outcome.ok_bind]
      simp only [Int.toNat_natCast, h1, Outcome.ok_bind, g1]
    · rw [hnum, g3, ← h3]
      rw [Nat.add_mod _ (numValue _ _), Nat.mul_mod, Nat.add_mod ((_ + _) * _), Nat.mul_mod (_ + _),
        Nat.add_mul_mod_self_left]

theorem dropZeros (buff : Bytes) :
    (buff.dropWhile (· == 0)).map UInt8.toNat = numDigits 256 (beVal buff) := by
  have h1 : (buff.dropWhile (· == 0)).map UInt8.toNat = (buff.map UInt8.toNat).dropWhile (· == 0) := by
    induction buff with
    | nil => rfl
    | cons b rest ih =>
      by_cases hb : b = 0
      · subst hb
        rw [List.dropWhile_cons_of_pos (by simp), List.map_cons, List.dropWhile_cons_of_pos (by simp), ih]
      · have h' : b.toNat ≠ 0 := fun h0 => hb (UInt8.toNat_inj.1 h0)
        rw [List.dropWhile_cons_of_neg (by simpa using hb), List.map_cons,
          List.dropWhile_cons_of_neg (by simpa using h')]
  rw [h1, dropWhile_zero_eq (b := 256) (by omega) (C32.u8_digits_lt buff), ← B58.beVal_eq_numValue]

theorem beVal_zeros (n : Nat) : beVal (List.replicate n 0) = 0 := by
  by_contra h
  obtain ⟨b, hb, hb0⟩ := (B58.beVal_pos_iff _).1 (Nat.pos_of_ne_zero h)
  exact hb0 (List.eq_of_mem_replicate hb)

/-! ## Clarity values -/

section

theorem readLen_lt {bytes : Bytes} {n : Nat} (h : readLen bytes = .ok n) : n < 2 ^ 32 := by
  unfold readLen at h
  simp only [Outcome.bind_eq_ok, Outcome.pure_def, Outcome.ok.injEq] at h
  obtain ⟨b1, _, b2, _, b3, _, b4, _, rfl⟩ := h
  have := numValue_lt (b := 256) (by omega) (C32.u8_digits_lt [b1, b2, b3, b4])
  rw [← B58.beVal_eq_numValue, show ([b1, b2, b3, b4].map UInt8.toNat).length = 4 from rfl] at this
  norm_num at this ⊢
  exact this

theorem stringBody_eq (checks : Bool) (bytes : Bytes) (h : bytes.length < 2 ^ 31) :
    stringBody checks bytes = Clarity.stringBody bytes := by
  unfold stringBody Clarity.stringBody
  cases hr : readLen bytes with
  | panic => rfl
  | err e => rfl
  | ok len =>
    have h32 := readLen_lt hr
    simp only [Outcome.ok_bind]
    by_cases hl : 5 + len < 2 ^ 32
    · rw [usize, if_pos hl, Outcome.ok_bind]
    · have e : (slice bytes 5 (5 + len) : Outcome Clarity.Error Bytes) = .panic := by
        rw [slice, if_neg (by omega)]
      rw [e, usize, if_neg hl]
      cases checks
      · simp only [Bool.false_eq_true, if_false, Outcome.ok_bind]
        rw [slice, if_neg (by omega)]
      · rfl

variable [Hashes]

/-- Decoders that agree on the shorter inputs give the same list. -/
theorem listLoop_congr {f g : Bytes → Outcome Clarity.Error CV} (bytes : Bytes)
    (h : ∀ b : Bytes, b.length ≤ bytes.length → f b = g b) :
    ∀ n off, listLoop f bytes n off = listLoop g bytes n off := by
  intro n
  induction n with
  | zero => intro off; rfl
  | succ n ih =>
    intro off
    rw [listLoop, listLoop]
    unfold sliceFrom
    split
    · simp only [Outcome.ok_bind, ih]
      rw [h _ (by rw [List.length_drop]; omega)]
    · rfl

theorem tupleLoop_congr {f g : Bytes → Outcome Clarity.Error CV} (bytes : Bytes)
    (h : ∀ b : Bytes, b.length ≤ bytes.length → f b = g b) :
    ∀ n off, tupleLoop f bytes n off = tupleLoop g bytes n off := by
  intro n
  induction n with
  | zero => intro off; rfl
  | succ n ih =>
    intro off
    rw [tupleLoop, tupleLoop]
    congr 1; funext k
    congr 1; funext ks
    congr 1; funext key
    simp only []
    unfold sliceFrom
    split
    · simp only [Outcome.ok_bind, ih]
      rw [h _ (by rw [List.length_drop]; omega)]
    · rfl

omit [Hashes] in
theorem rest_congr {f g : Bytes → Outcome Clarity.Error CV} (bytes : Bytes)
    (h : ∀ b : Bytes, b.length ≤ bytes.length → f b = g b) :
    ((sliceFrom bytes 1 : Outcome Clarity.Error Bytes) >>= f) = (sliceFrom bytes 1 >>= g) := by
  unfold sliceFrom
  split
  · rw [Outcome.ok_bind, Outcome.ok_bind, h _ (by rw [List.length_drop]; omega)]
  · rfl

theorem decodeAt_eq (checks : Bool) : ∀ (fuel : Nat) (bytes : Bytes), bytes.length < 2 ^ 31 →
    decodeAt checks fuel bytes = Clarity.decodeAt .panic fuel bytes := by
  intro fuel
  induction fuel with
  | zero => intros; rfl
  | succ n ih =>
    intro bytes hb
    have hr : ∀ b : Bytes, b.length ≤ bytes.length → decodeAt checks n b = Clarity.decodeAt .panic n b :=
      fun b h => ih b (by omega)
    have e1 : respOkDecode (decodeAt checks n) bytes = respOkDecode (Clarity.decodeAt .panic n) bytes := by
      unfold respOkDecode; congr 1; funext _; exact rest_congr bytes hr
    have e2 : respErrDecode (decodeAt checks n) bytes = respErrDecode (Clarity.decodeAt .panic n) bytes := by
      unfold respErrDecode; congr 1; funext _; exact rest_congr bytes hr
    have e3 : someDecode (decodeAt checks n) bytes = someDecode (Clarity.decodeAt .panic n) bytes := by
      unfold someDecode; congr 1; funext _; exact rest_congr bytes hr
    have e4 : listDecode (decodeAt checks n) bytes = listDecode (Clarity.decodeAt .panic n) bytes := by
      unfold listDecode; congr 1; funext _; congr 1; funext len; exact listLoop_congr bytes hr _ _
    have e5 : tupleDecode (decodeAt checks n) bytes = tupleDecode (Clarity.decodeAt .panic n) bytes := by
      unfold tupleDecode; congr 1; funext _; congr 1; funext len; exact tupleLoop_congr bytes hr _ _
    have e6 : strAsciiDecode checks bytes = Clarity.strAsciiDecode bytes := by
      unfold strAsciiDecode Clarity.strAsciiDecode; rw [stringBody_eq checks bytes hb]
    have e7 : strUtf8Decode checks bytes = Clarity.strUtf8Decode bytes := stringBody_eq checks bytes hb
    rw [decodeAt, Clarity.decodeAt, e1, e2, e3, e4, e5, e6, e7]

theorem decode_eq (checks : Bool) (bytes : Bytes) (h : bytes.length < 2 ^ 31) :
    decode checks bytes = Clarity.decode bytes := decodeAt_eq checks _ bytes h

theorem fnArgsLoop_eq (checks : Bool) : ∀ (n : Nat) (bytes : Bytes), bytes.length < 2 ^ 31 →
    fnArgsLoop checks n bytes = Clarity.fnArgsLoop n bytes := by
  intro n
  induction n with
  | zero => intros; rfl
  | succ n ih =>
    intro bytes h
    rw [fnArgsLoop, Clarity.fnArgsLoop, decode_eq checks bytes h]
    congr 1; funext arg
    congr 1; funext l
    unfold sliceFrom
    split
    · rw [Outcome.ok_bind, Outcome.ok_bind, ih _ (by rw [List.length_drop]; omega)]
    · rfl

end

end Stacks.Target32

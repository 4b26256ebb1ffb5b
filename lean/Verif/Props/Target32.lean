import Verif.Proofs.Target32
import Verif.Props.B58
import Verif.Props.Release
import Verif.Props.Clarity

/-! # C109: targets with 32-bit sizes -/

namespace Stacks
open Stacks.Spec

/-- **C109** Base58 encoding is the same on a 32-bit target, except that data of `2^32 / 138` bytes (31 million) or more
panic if overflow is checked. -/
theorem C109_b58_encode (checks : Bool) (data : Bytes) :
    Target32.b58Encode checks data =
      if checks = true ∧ 2 ^ 32 ≤ data.length * 138 then .panic else B58.b58Encode data := by
  have hr : Release.B58.b58Encode data = B58.b58Encode data := (C107_codecs data []).2.2.1
  have hc : ∀ p, p < 2 ^ 32 → (Target32.withCapacity (p / 100 + 1) 4 : Outcome B58.Error Unit) = .ok () := by
    intro p hp
    rw [Target32.withCapacity, if_pos (by omega)]
  have hb : (if checks = true then B58.b58Encode data else Release.B58.b58Encode data) = B58.b58Encode data := by
    rw [hr, ite_self]
  unfold Target32.b58Encode
  by_cases h : data.length * 138 < 2 ^ 32
  · rw [Target32.usize, if_pos h, Outcome.ok_bind, hc _ h, Outcome.ok_bind, hb,
      if_neg (fun ⟨_, h'⟩ => absurd h (Nat.not_lt.2 h'))]
  · cases checks with
    | false =>
      rw [Target32.usize, if_neg h, if_neg (by decide), Outcome.ok_bind, hc _ (Nat.mod_lt _ (by norm_num)),
        Outcome.ok_bind, hb, if_neg (by simp)]
    | true => rw [Target32.usize, if_neg h, if_pos rfl, hb, if_pos ⟨rfl, Nat.le_of_not_lt h⟩]; rfl

/-- **C109** Decoding Base58 is the same for texts of less than `2^32 / 733` bytes (5.8 million). -/
theorem C109_b58_decode_agrees (checks : Bool) (s : Str) (h : s.len * 733 < 2 ^ 32) :
    Target32.b58Decode checks s = B58.b58Decode s := by
  unfold Target32.b58Decode B58.b58Decode Target32.usize
  rw [if_pos h]
  simp only [Outcome.ok_bind, Target32.b58Loop]

/-- **C109** The same for Base58Check. -/
theorem C109_base58check_decode_agrees [Hashes] (checks : Bool) (s : Str) (h : s.len * 733 < 2 ^ 32) :
    Target32.base58checkDecode checks s = B58.base58checkDecode s := by
  unfold Target32.base58checkDecode B58.base58checkDecode
  rw [C109_b58_decode_agrees checks s h]

/-- **C109** For longer texts a build with overflow checks panics. -/
theorem C109_b58_decode_checked (s : Str) (h : 2 ^ 32 ≤ s.len * 733) : Target32.b58Decode true s = .panic := by
  have hne : s.bytes.isEmpty = false := by
    cases hb : s.bytes with
    | nil => rw [Str.len, hb] at h; simp at h
    | cons => rfl
  have hu : (Target32.usize true (s.len * 733) : Outcome B58.Error Nat) = .panic := by
    rw [Target32.usize, if_neg (Nat.not_lt.2 h), if_pos rfl]
  unfold Target32.b58Decode
  rw [hne, hu]
  rfl

theorem digits_isSome {s : Str} (h : ∀ c ∈ s, c ∈ b58Alphabet) : ∀ c ∈ s, (b58Value c).isSome := by
  intro c hc
  have := h c hc
  rw [b58Value, Option.isSome_iff_ne_none, ne_eq, List.idxOf?_eq_none_iff]
  exact not_not.2 this

/-- **C109** A build without overflow checks returns the bytes of the number modulo a power of 256 which is too small
from `2^32 / 733` characters on. -/
theorem C109_b58_decode_wrapping (s : Str) (h : ∀ c ∈ s, c ∈ b58Alphabet) :
    ∃ bs, Target32.b58Decode false s = .ok bs ∧
      bs.map UInt8.toNat = List.replicate (leadingZeros (s.filterMap b58Value)) 0 ++
        numDigits 256 (numValue 58 (s.filterMap b58Value) % 256 ^ (s.length * 733 % 2 ^ 32 / 1000 + 1)) := by
  have h' := digits_isSome h
  have hasc := B58.ascii_of_b58 h'
  by_cases hs : s = []
  · subst hs
    exact ⟨[], rfl, by simp [numDigits, numValue, leadingZeros]⟩
  · have hne : s.bytes.isEmpty = false := by
      rw [Str.bytes_of_ascii hasc]
      cases s <;> simp_all
    have hu : (Target32.usize false (s.len * 733) : Outcome B58.Error Nat) = .ok (s.length * 733 % 2 ^ 32) := by
      rw [Str.len_of_ascii hasc, Target32.usize]
      split
      · rw [Nat.mod_eq_of_lt ‹_›]
      · rfl
    obtain ⟨buff, e1, e2, e3⟩ :=
      Target32.decodeLoop_mod s (List.replicate (s.length * 733 % 2 ^ 32 / 1000 + 1) 0) h'
    rw [Target32.beVal_zeros, Nat.zero_mul, Nat.zero_add, List.length_replicate] at e3
    refine ⟨List.replicate (B58.countLeading 0x31 s.bytes) 0 ++ buff.dropWhile (· == 0), ?_, ?_⟩
    · unfold Target32.b58Decode
      rw [hne]
      simp only [Bool.false_eq_true, if_false, hu, Outcome.ok_bind, Outcome.pure_def, Release.b58_decodeLoop_eq, e1]
    · rw [B58.countLeading_ones h', List.map_append, List.map_replicate, Target32.dropZeros, e3]; rfl

theorem numDigits_inj {b m n : Nat} (h : numDigits b m = numDigits b n) : m = n := by
  rw [← numValue_numDigits b m, h, numValue_numDigits]

/-- **C109** So every such text that does not begin with `1` is decoded to the wrong bytes, without an error. -/
theorem C109_b58_decode_wrong (s : Str) (h : ∀ c ∈ s, c ∈ b58Alphabet) (h1 : s.head? ≠ some '1')
    (hlo : 2 ^ 32 ≤ s.length * 733) (hhi : s.length < 2 ^ 31) :
    ∃ bs bs', Target32.b58Decode false s = .ok bs ∧ B58.b58Decode s = .ok bs' ∧ bs ≠ bs' := by
  obtain ⟨bs, e1, e2⟩ := C109_b58_decode_wrapping s h
  obtain ⟨bs', e3, e4⟩ := B58.C15_b58_decode_value s h
  refine ⟨bs, bs', e1, e3, ?_⟩
  rintro rfl
  rw [e2] at e4
  have e5 := numDigits_inj (List.append_cancel_left e4)
  have hlt := Nat.mod_lt (numValue 58 (s.filterMap b58Value))
    (show 0 < 256 ^ (s.length * 733 % 2 ^ 32 / 1000 + 1) by positivity)
  rw [e5] at hlt
  obtain ⟨c, r, rfl⟩ : ∃ c r, s = c :: r := by
    cases s with
    | nil => simp at hlo
    | cons c r => exact ⟨c, r, rfl⟩
  obtain ⟨v, hv⟩ := Option.isSome_iff_exists.1 (digits_isSome h c (List.mem_cons_self ..))
  have hr := digits_isSome (fun c hc => h c (List.mem_cons_of_mem _ hc) : ∀ c ∈ r, c ∈ b58Alphabet)
  have hfl : (r.filterMap b58Value).length = r.length := by
    have := congrArg List.length (B58.map_b58Char_values hr)
    rwa [List.length_map] at this
  have hv0 : v ≠ 0 := by
    rintro rfl
    have := B58.b58Char_of_value hv
    exact h1 (by rw [← this]; rfl)
  rw [List.filterMap_cons, hv] at hlt
  simp only [] at hlt
  rw [numValue_cons, hfl, List.length_cons] at hlt
  rw [List.length_cons] at hlo hhi
  have hge : 58 ^ r.length < 256 ^ ((r.length + 1) * 733 % 2 ^ 32 / 1000 + 1) := by
    have : 58 ^ r.length ≤ v * 58 ^ r.length := Nat.le_mul_of_pos_left _ (Nat.pos_of_ne_zero hv0)
    omega
  have hp : 256 ^ 732 ≤ 58 ^ 1000 := by decide +kernel
  have hbig : 256 ^ ((r.length + 1) * 733 % 2 ^ 32 / 1000 + 1) ≤ 58 ^ r.length := by
    have hn : ((r.length + 1) * 733 % 2 ^ 32 / 1000 + 1) ≤ 732 * (r.length / 1000) := by
      have hd := Nat.div_add_mod ((r.length + 1) * 733) (2 ^ 32)
      have hq : 1 ≤ (r.length + 1) * 733 / 2 ^ 32 := (Nat.one_le_div_iff (by norm_num)).2 hlo
      omega
    calc 256 ^ ((r.length + 1) * 733 % 2 ^ 32 / 1000 + 1) ≤ 256 ^ (732 * (r.length / 1000)) :=
          Nat.pow_le_pow_right (by norm_num) hn
      _ = (256 ^ 732) ^ (r.length / 1000) := by rw [pow_mul]
      _ ≤ (58 ^ 1000) ^ (r.length / 1000) := Nat.pow_le_pow_left hp _
      _ = 58 ^ (1000 * (r.length / 1000)) := by rw [pow_mul]
      _ ≤ 58 ^ r.length := Nat.pow_le_pow_right (by norm_num) (Nat.mul_div_le ..)
  omega

/-- **C109** Data that do not begin with a zero byte and whose text is that long do not come back. -/
theorem C109_b58_no_roundtrip (data : Bytes) (h0 : data ≠ []) (h1 : data.head? ≠ some 0) (s : Str)
    (hs : B58.b58Encode data = .ok s) (hlo : 2 ^ 32 ≤ s.length * 733) (hhi : s.length < 2 ^ 31) (checks : Bool) :
    Target32.b58Decode checks s ≠ .ok data := by
  have hnz : data = [] ∨ ∃ b ∈ data, b ≠ 0 := by
    right
    cases data with
    | nil => exact absurd rfl h0
    | cons b r => exact ⟨b, List.mem_cons_self .., fun h => h1 (by rw [h]; rfl)⟩
  have hrt : B58.b58Decode s = .ok data := by
    have := B58.b58Decode_encode hnz
    rw [hs] at this
    simpa using this
  have hss : s = (rebase 256 58 (data.map UInt8.toNat)).map b58Char := by
    have := B58.b58Encode_eq hnz
    rw [hs] at this
    simpa using this
  have hal : ∀ c ∈ s, c ∈ b58Alphabet := by
    intro c hc
    rw [hss] at hc
    have := B58.map_b58Char_isSome (fun d hd => rebase_lt (by omega) hd) c hc
    rw [b58Value, Option.isSome_iff_ne_none, ne_eq, List.idxOf?_eq_none_iff] at this
    exact not_not.1 this
  cases checks with
  | true =>
    rw [C109_b58_decode_checked s (by rw [Str.len_of_ascii (B58.ascii_of_b58 (digits_isSome hal))]; exact hlo)]
    exact nofun
  | false =>
    have hhead : s.head? ≠ some '1' := by
      have hz : leadingZeros (rebase 256 58 (data.map UInt8.toNat)) = 0 := by
        rw [leadingZeros_rebase]
        cases data with
        | nil => exact absurd rfl h0
        | cons b r =>
          have hb : b.toNat ≠ 0 := fun h => h1 (by rw [UInt8.toNat_inj.1 (h.trans rfl : b.toNat = (0 : UInt8).toNat)]; rfl)
          rw [List.map_cons, leadingZeros, List.takeWhile_cons_of_neg (by simpa using hb)]; rfl
      rw [hss]
      cases hd : rebase 256 58 (data.map UInt8.toNat) with
      | nil => exact nofun
      | cons d r =>
        have hlt : d < 58 := rebase_lt (b := 256) (by omega) (by rw [hd]; exact List.mem_cons_self ..)
        rw [hd] at hz
        intro h
        have hone : b58Char d = '1' := by simpa using h
        have hv := B58.b58Char_value hlt
        rw [hone, show b58Value '1' = some 0 by decide +kernel] at hv
        cases hv
        simp [leadingZeros] at hz
    obtain ⟨bs, bs', e1, e2, e3⟩ := C109_b58_decode_wrong s hal hhead hlo hhi
    rw [hrt] at e2
    cases e2
    rw [e1]
    intro h
    cases h
    exact e3 rfl

/-- A text of `2^32 / 733` digits or more: 5859457 times `z`. -/
example : ∃ s : Str, (∀ c ∈ s, c ∈ b58Alphabet) ∧ s.head? ≠ some '1' ∧ 2 ^ 32 ≤ s.length * 733 ∧ s.length < 2 ^ 31 := by
  refine ⟨List.replicate 5859457 'z', ?_, ?_, ?_, ?_⟩
  · intro c hc
    rw [List.eq_of_mem_replicate hc]
    decide +kernel
  · rw [List.head?_replicate]; decide
  · rw [List.length_replicate]; norm_num
  · rw [List.length_replicate]; norm_num

/-- The bytes of that number are data whose text does not come back. -/
example : ∃ data s, data ≠ [] ∧ data.head? ≠ some 0 ∧ B58.b58Encode data = .ok s ∧ 2 ^ 32 ≤ s.length * 733 ∧
    s.length < 2 ^ 31 := by
  have hal : ∀ c ∈ (List.replicate 5859457 'z' : Str), c ∈ b58Alphabet := by
    intro c hc
    rw [List.eq_of_mem_replicate hc]
    decide +kernel
  have hz := B58.b58Decode_eq (digits_isSome hal)
  have hval : (List.replicate 5859457 'z' : Str).filterMap b58Value = List.replicate 5859457 57 := by
    rw [List.filterMap_replicate_of_some (show b58Value 'z' = some 57 by decide +kernel)]
  rw [hval] at hz
  have hlead : leadingZeros (List.replicate 5859457 57) = 0 := by
    rw [show 5859457 = 5859456 + 1 from rfl, List.replicate_succ, leadingZeros,
      List.takeWhile_cons_of_neg (by decide)]; rfl
  have hlt : ∀ d ∈ List.replicate 5859457 57, d < 58 := by
    intro d hd; rw [List.eq_of_mem_replicate hd]; norm_num
  have hr : rebase 256 58 (((rebase 58 256 (List.replicate 5859457 57)).map UInt8.ofNat).map UInt8.toNat) =
      List.replicate 5859457 57 := by
    rw [C32.map_toNat_ofNat (fun d hd => rebase_lt (by omega) hd), rebase_rebase 256 (by omega) hlt]
  have hlen : rebase 58 256 (List.replicate 5859457 57) ≠ [] := by
    intro h
    rw [h] at hr
    have := congrArg List.length hr
    rw [List.length_replicate] at this
    simp [rebase, numDigits, numValue, leadingZeros] at this
  have hhead : ((rebase 58 256 (List.replicate 5859457 57)).map UInt8.ofNat).head? ≠ some 0 := by
    have hz : leadingZeros (rebase 58 256 (List.replicate 5859457 57)) = 0 := by rw [leadingZeros_rebase, hlead]
    cases hd : rebase 58 256 (List.replicate 5859457 57) with
    | nil => exact nofun
    | cons d r =>
      have hd256 : d < 256 := rebase_lt (b := 58) (by omega) (by rw [hd]; exact List.mem_cons_self ..)
      rw [hd] at hz
      intro h
      have h0 : UInt8.ofNat d = 0 := by simpa using h
      have := congrArg UInt8.toNat h0
      rw [UInt8.toNat_ofNat', Nat.mod_eq_of_lt (by simpa using hd256)] at this
      have hd0 : d = 0 := this
      subst hd0
      simp [leadingZeros] at hz
  refine ⟨(rebase 58 256 (List.replicate 5859457 57)).map UInt8.ofNat, (List.replicate 5859457 57).map b58Char,
    fun h => hlen (List.map_eq_nil_iff.1 h), hhead, ?_, ?_, ?_⟩
  · have hne : ∃ b ∈ (rebase 58 256 (List.replicate 5859457 57)).map UInt8.ofNat, b ≠ 0 := by
      cases hd : (rebase 58 256 (List.replicate 5859457 57)).map UInt8.ofNat with
      | nil => exact absurd (List.map_eq_nil_iff.1 hd) hlen
      | cons b r =>
        rw [hd] at hhead
        exact ⟨b, List.mem_cons_self .., fun h => hhead (by rw [h]; rfl)⟩
    rw [B58.b58Encode_eq (Or.inr hne), hr]
  · rw [List.length_map, List.length_replicate]; norm_num
  · rw [List.length_map, List.length_replicate]; norm_num

/-- Short texts are decoded alike. -/
example : Target32.b58Decode false "16Z8K1Z6J".toList = .ok [0, 11, 39, 46, 212, 100, 179] ∧
    B58.b58Decode "16Z8K1Z6J".toList = .ok [0, 11, 39, 46, 212, 100, 179] := by
  rw [C109_b58_decode_agrees _ _ (by decide +kernel)]
  exact ⟨by decide +kernel, by decide +kernel⟩

section
variable [Hashes]

/-- **C109** Decoding Clarity values is the same for every input that fits into the address space: a length that
overflows when the offset is added is refused in the same way as one beyond the end. -/
theorem C109_decode (checks : Bool) (bytes : Bytes) (h : bytes.length < 2 ^ 31) :
    Target32.decode checks bytes = Clarity.decode bytes ∧
    Target32.strAsciiDecode checks bytes = Clarity.strAsciiDecode bytes ∧
    Target32.strUtf8Decode checks bytes = Clarity.strUtf8Decode bytes := by
  refine ⟨Target32.decode_eq checks bytes h, ?_, Target32.stringBody_eq checks bytes h⟩
  unfold Target32.strAsciiDecode Clarity.strAsciiDecode
  rw [Target32.stringBody_eq checks bytes h]

/-- **C109** Function arguments: a count of `2^28` or more panics, whatever follows; smaller counts make no
difference. -/
theorem C109_fn_args (checks : Bool) (bytes : Bytes) (h : bytes.length < 2 ^ 31) :
    Target32.fnArgsDecode checks bytes =
      if 4 ≤ bytes.length ∧ 2 ^ 28 ≤ beVal (bytes.take 4) then .panic else Clarity.fnArgsDecode bytes := by
  unfold Target32.fnArgsDecode Clarity.fnArgsDecode Target32.withCapacity
  by_cases h4 : bytes.length < 4
  · rw [if_pos h4, if_neg (by omega), if_pos h4]
  · rw [if_neg h4, if_neg h4]
    by_cases hc : 2 ^ 28 ≤ beVal (bytes.take 4)
    · rw [if_neg (by omega), if_pos ⟨by omega, hc⟩]; rfl
    · rw [if_pos (by omega), if_neg (by omega), Outcome.ok_bind,
        Target32.fnArgsLoop_eq checks _ _ (by rw [List.length_drop]; omega)]

/-- **C109** So a list of `2^28` arguments or more can be encoded but not decoded. -/
theorem C109_fn_args_no_roundtrip (checks : Bool) (vs : List Clarity.CV) (hn : 2 ^ 28 ≤ vs.length)
    (bs rest : Bytes) (he : (Clarity.CV.fnArgs vs).encode = .ok bs) :
    Target32.fnArgsDecode checks (bs ++ rest) = .panic := by
  rw [Clarity.encode_eq_ok] at he
  obtain ⟨⟨hl, _⟩, rfl⟩ := he
  unfold Target32.fnArgsDecode Target32.withCapacity
  rw [sip005, if_neg (by simp), List.append_assoc, List.take_left' (beBytes_length ..),
    beVal_beBytes (by norm_num; omega), if_neg (by omega)]
  rfl

/-- A length field of `2^32 - 1`: the end of the string overflows, and all builds panic. -/
example : Target32.decode false [0x0d, 0xff, 0xff, 0xff, 0xff, 0x61, 0x62] = .panic ∧
    Target32.decode true [0x0d, 0xff, 0xff, 0xff, 0xff, 0x61, 0x62] = .panic ∧
    Clarity.decode [0x0d, 0xff, 0xff, 0xff, 0xff, 0x61, 0x62] = .panic := by
  rw [(C109_decode false _ (by decide)).1, (C109_decode true _ (by decide)).1]
  refine ⟨?_, ?_, ?_⟩ <;> rfl

/-- `2^28` arguments `true` have an encoding. -/
example : ∃ vs bs, 2 ^ 28 ≤ vs.length ∧ (Clarity.CV.fnArgs vs).encode = .ok bs := by
  refine ⟨List.replicate (2 ^ 28) .tru, _, (List.length_replicate ..).ge, Clarity.encode_eq_ok.2 ⟨?_, rfl⟩⟩
  refine ⟨by rw [List.length_replicate]; norm_num, ?_⟩
  generalize 2 ^ 28 = n
  induction n with
  | zero => trivial
  | succ n ih => exact ⟨trivial, ih⟩

end

end Stacks

import Verif.Proofs.CodecCost
import Verif.Proofs.C32Check
import Verif.Props.B58

/-! # C95: work of the Base58 and C32 codecs. C96: length of their results -/

namespace Stacks
open Stacks.Spec

/-! ## C95 -/

/-- **C95** The counting functions are the functions. -/
theorem C95_same_results (data : Bytes) (s : Str) :
    (B58.b58EncodeS data).2 = B58.b58Encode data ∧ (B58.b58DecodeS s).2 = B58.b58Decode s ∧
      (C32.c32EncodeS data).2 = C32.c32Encode data ∧ (C32.c32DecodeS s).2 = C32.c32Decode s :=
  ⟨B58.b58EncodeS_snd data, B58.b58DecodeS_snd s, C32.c32EncodeS_snd data, C32.c32DecodeS_snd s⟩

/-- **C95** C32 takes time linear in its input, in both directions, whether it accepts or not; and it
looks at all of what it accepts. -/
theorem C95_c32_linear (data : Bytes) (s : Str) :
    (data.length ≤ (C32.c32EncodeS data).1 ∧ (C32.c32EncodeS data).1 ≤ 6 * data.length + 2) ∧
      (C32.c32DecodeS s).1 ≤ 5 * s.length + 2 ∧
      ∀ bs, C32.c32Decode s = .ok bs → 2 * s.length ≤ (C32.c32DecodeS s).1 :=
  ⟨C32.c32EncodeS_fst data, C32.c32DecodeS_fst s, fun _ h => (C32.c32DecodeS_fst_ok h).1⟩

/-- **C95** Base58 takes at most quadratic time, in both directions, whether it accepts or not. -/
theorem C95_b58_quadratic (data : Bytes) (s : Str) :
    (B58.b58EncodeS data).1 ≤ 2 * (data.length + 1) ^ 2 ∧ (B58.b58DecodeS s).1 ≤ 2 * (s.len + 1) ^ 2 :=
  ⟨B58.b58EncodeS_le data, B58.b58DecodeS_le s⟩

/-- **C95** And no less: every byte string without a leading zero, and every accepted string, takes
time quadratic in its length. -/
theorem C95_b58_no_less :
    (∀ (b : UInt8) (rest : Bytes), b ≠ 0 → (b :: rest).length ^ 2 ≤ 2 * (B58.b58EncodeS (b :: rest)).1) ∧
      ∀ (s : Str) (bs : Bytes), B58.b58Decode s = .ok bs → 733 * s.length ^ 2 ≤ 1000 * (B58.b58DecodeS s).1 := by
  refine ⟨fun b rest hb => ?_, fun s bs h => B58.b58DecodeS_ge h⟩
  refine Nat.le_trans ?_ (B58.b58EncodeS_ge rest hb)
  rw [List.length_cons]
  nlinarith

/-- **C95** How much exactly decoding an accepted string takes: one step for each leading `1`, the
length of the buffer and one more for each character, and, for each of the `z` zeros the buffer then
begins with, the bytes moved to remove it. -/
theorem C95_b58_decode_exactly (s : Str) (hs : s ≠ []) (hall : ∀ c ∈ s, c ∈ b58Alphabet) (data : Bytes)
    (h : B58.b58Decode s = .ok data) :
    let n := s.length
    let buffer := n * 733 / 1000 + 1
    let ones := (s.takeWhile (· == '1')).length
    ∃ z, z + (data.length - ones) = buffer ∧ ones ≤ data.length ∧
      (B58.b58DecodeS s).1 = ones + n * (buffer + 1) + ∑ i ∈ Finset.range z, (buffer - i) := by
  intro n buffer ones
  have hall' : ∀ c ∈ s, (b58Value c).isSome := by
    intro c hc
    have := hall c hc
    rw [b58Value, Option.isSome_iff_ne_none, ne_eq, List.idxOf?_eq_none_iff]
    exact not_not.2 this
  obtain ⟨z, h1, h2⟩ := B58.b58DecodeS_fst_ok hs hall' h
  have ho : ones ≤ data.length := by
    have hv := B58.b58Decode_eq hall'
    rw [h] at hv
    have hl := congrArg List.length (Outcome.ok.inj hv)
    rw [List.length_map, rebase, List.length_append, List.length_replicate, B58.leadingOnes hall'] at hl
    omega
  have hzb : z ≤ buffer := by omega
  have hsum : ∀ z, z ≤ buffer → 2 * (∑ i ∈ Finset.range z, (buffer - i)) + z * z = z * (2 * buffer + 1) := by
    intro z
    induction z with
    | zero => simp
    | succ z ih =>
      intro hz
      have := ih (by omega)
      rw [Finset.sum_range_succ]
      obtain ⟨d, hd⟩ := Nat.exists_eq_add_of_lt (show z < buffer by omega)
      have e : buffer - z = d + 1 := by omega
      rw [e]
      nlinarith
  have := hsum z hzb
  refine ⟨z, by omega, ho, ?_⟩
  change 2 * (B58.b58DecodeS s).1 + z * z = 2 * ones + 2 * (n * (buffer + 1)) + z * (2 * buffer + 1) at h2
  omega

example : (B58.b58DecodeS "1111".toList).1 = 4 + 4 * 4 + (3 + 2 + 1) ∧
    (B58.b58DecodeS "1111".toList).2 = .ok [0, 0, 0, 0] := by decide +kernel

example : (B58.b58DecodeS "2VfUX".toList).1 = 25 ∧ (B58.b58DecodeS "2VfUX".toList).2 = .ok [1, 2, 3, 4] := by decide +kernel

example : (2 : UInt8) ≠ 0 ∧ [(2 : UInt8), 3, 4].length ^ 2 = 9 := by decide
example : C32.c32Decode "G40R4".toList = .ok [1, 2, 3, 4] :=
  C32.c32Decode_encode (C32.c32Encode_eq _)

/-! ## C96 -/

/-- **C96** A C32 text has at least as many characters as there are bytes and at most eight for every
five bytes begun; a Base58 text never exceeds the room reserved for it. -/
theorem C96_text_length (data : Bytes) :
    (∀ s, C32.c32Encode data = .ok s → data.length ≤ s.length ∧ s.length ≤ (8 * data.length + 4) / 5) ∧
      ∀ s, B58.b58Encode data = .ok s → data.length ≤ s.length ∧ s.length ≤ data.length * 138 / 100 + 1 :=
  ⟨fun _ h => c32Encode_length h, fun _ h => b58Encode_length h⟩

/-- **C96** Decoding never yields more bytes than there are characters. -/
theorem C96_data_length (s : Str) (data : Bytes) :
    (C32.c32Decode s = .ok data → data.length ≤ s.length) ∧ (B58.b58Decode s = .ok data → data.length ≤ s.length) := by
  refine ⟨fun h => ?_, fun h => ?_⟩
  · have := (c32Encode_length (C32.c32Encode_decode h)).1
    rwa [c32CanonStr, List.length_map] at this
  · have h' : ∀ c ∈ s, (b58Value c).isSome := by
      by_contra hall
      obtain ⟨c, hf⟩ : ∃ c, s.find? (fun c => c ∉ b58Alphabet) = some c := by
        rw [← Option.isSome_iff_exists, List.find?_isSome]
        by_contra hcon
        apply hall
        intro c hc
        rw [b58Value, Option.isSome_iff_ne_none, ne_eq, List.idxOf?_eq_none_iff, not_not]
        by_contra hcs
        exact hcon ⟨c, hc, by simpa using hcs⟩
      rw [List.find?_eq_some_iff_append] at hf
      obtain ⟨hc, l, r, rfl, hl⟩ := hf
      obtain ⟨h1, h2⟩ := B58.C15_b58_decode_bad l c r (fun x hx => by simpa using hl x hx) (by simpa using hc)
      rcases Nat.lt_or_ge c.toNat 0x100 with hlt | hge
      · rw [h1 hlt] at h; cases h
      · rw [h2 hge] at h; cases h
    rw [B58.b58Decode_eq h'] at h
    cases h
    have h1 := rebase_length_le_of_le (b := 58) (c := 256) (by omega) (by omega) (ds := s.filterMap b58Value) (by
      intro d hd
      obtain ⟨c, _, hc⟩ := List.mem_filterMap.1 hd
      exact B58.b58Value_lt hc)
    have h2 : (s.filterMap b58Value).length ≤ s.length := List.length_filterMap_le ..
    rw [List.length_map]
    omega

example : B58.b58Decode "2VfUX".toList = .ok [1, 2, 3, 4] := by decide +kernel

section
variable [Hashes]

/-- **C96** The text of a Stacks address has between 26 and 41 characters. -/
theorem C96_address_length (hash : Bytes) (hl : hash.length = 20) (version : UInt8) (s : Str)
    (h : C32.c32Address hash version = .ok s) : 26 ≤ s.length ∧ s.length ≤ 41 := by
  unfold C32.c32Address at h
  split at h
  · cases h
  · rename_i hv
    have hlt : version.toNat < 32 := by
      rw [not_not] at hv
      have key : ∀ v ∈ ([22, 26, 20, 21] : List UInt8), v.toNat < 32 := by decide
      exact key version hv
    obtain ⟨e, he, hs⟩ := C32.c32checkEncode_eq hash hlt
    rw [hs] at h
    cases h
    have hk := C32.checksum4_length (version :: hash)
    have := c32Encode_length he
    rw [List.length_append, hl, hk] at this
    simp only [List.length_cons]
    omega

/-- **C96** The text of a Bitcoin address has between 25 and 35 characters. -/
theorem C96_b58_address_length (hash : Bytes) (hl : hash.length = 20) (version : UInt8) (s : Str)
    (h : B58.base58checkEncode hash version = .ok s) : 25 ≤ s.length ∧ s.length ≤ 35 := by
  unfold B58.base58checkEncode at h
  obtain ⟨chk, h1, h2⟩ := Outcome.bind_eq_ok.1 h
  have hk : chk.length = 4 := by
    unfold slice at h1
    split at h1
    · cases h1
      rename_i hsl
      rw [List.length_drop, List.length_take]
      omega
    · cases h1
  have := b58Encode_length h2
  simp only [List.length_append, List.length_singleton, hl, hk] at this
  omega

end

section
attribute [local instance] Concrete.realHashes

example : B58.base58checkEncode (List.replicate 20 0) 0 = .ok "1111111111111111111114oLvT2".toList := by decide +kernel
example : C32.c32Address (List.replicate 20 0) 22 = .ok "SP000000000000000000002Q6VF78".toList := by decide +kernel

example := C96_address_length (List.replicate 20 0) rfl 22 "SP000000000000000000002Q6VF78".toList (by decide +kernel)
example := C96_b58_address_length (List.replicate 20 0) rfl 0 "1111111111111111111114oLvT2".toList (by decide +kernel)

end

end Stacks

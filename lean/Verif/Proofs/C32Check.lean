import Verif.Proofs.C32

/-! Helper lemmas for c32check and addresses. -/

namespace Stacks.C32
open Stacks.Spec

variable [Hashes]

theorem checksum32_eq (bs : Bytes) : (checksum32 (dsha256Hash bs)).1 = checksum4 bs := rfl

theorem checksum4_length (bs : Bytes) : (checksum4 bs).length = 4 := (checksum32 (dsha256Hash bs)).2

theorem c32checkEncode_eq (payload : Bytes) {version : UInt8} (h : version.toNat < 32) :
    ∃ e, c32Encode (payload ++ checksum4 (version :: payload)) = .ok e ∧
      c32checkEncode payload version = .ok (c32Char version.toNat :: e) := by
  have he := c32Encode_eq (payload ++ checksum4 (version :: payload))
  have hlt : ∀ d ∈ rebase 256 32 ((payload ++ checksum4 (version :: payload)).map UInt8.toNat), d < 32 :=
    fun d hd => rebase_lt (by omega) hd
  refine ⟨_, he, ?_⟩
  obtain ⟨ha, _⟩ := c32Encode_values he
  have hasc := ascii_of_c32 ha
  unfold c32checkEncode
  simp only [checksum32_eq, List.singleton_append]
  rw [he, Outcome.ok_bind, idx_alphabet h, Outcome.ok_bind]
  generalize (rebase 256 32 ((payload ++ checksum4 (version :: payload)).map UInt8.toNat)).map c32Char = e at hasc
  unfold stringFromUtf8
  rw [Str.bytes_of_ascii hasc, fromUtf8_ascii]
  · rw [List.map_cons, alph_char h, List.map_map, Outcome.ofOption_some]
    congr 2
    conv_rhs => rw [← List.map_id e]
    apply List.map_congr_left
    intro c hc
    have := hasc c hc
    show Char.ofNat (UInt8.ofNat c.toNat).toNat = c
    rw [UInt8.toNat_ofNat', Nat.mod_eq_of_lt (by omega), Char.ofNat_toNat]
  · intro b hb
    rcases List.mem_cons.1 hb with rfl | hb
    · exact alph_lt h
    · obtain ⟨c, hc, rfl⟩ := List.mem_map.1 hb
      have := hasc c hc
      rw [UInt8.toNat_ofNat', Nat.mod_eq_of_lt (by omega)]; exact this

theorem c32checkEncode_panic (payload : Bytes) {version : UInt8} (h : 32 ≤ version.toNat) :
    c32checkEncode payload version = .panic := by
  unfold c32checkEncode
  simp only [c32Encode_eq, Outcome.ok_bind, idx_alphabet_ge h]
  rfl

omit [Hashes] in
theorem c32Decode_single {c : Char} {v : Nat} (h : c32Value c = some v) :
    c32Decode [c] = .ok [UInt8.ofNat v] := by
  have hv := c32Value_lt h
  rw [c32Decode_eq (by simp [h])]
  have : ∀ v : Fin 32, rebase 32 256 [v.1] = [v.1] := by
    intro v
    have h1 := rebase_self (b := 256) (by omega) (ds := [v.1]) (by simp; omega)
    unfold rebase at h1 ⊢
    simpa [numValue] using h1
  simp [h, this ⟨v, hv⟩]

/-- What `c32check_decode` does on a non-empty ASCII string whose data part decodes. -/
theorem c32checkDecode_cons {c : Char} {data : Str} {dec : Bytes} (hc : c.toNat < 128)
    (hd : c32Decode data = .ok dec) :
    c32checkDecode (c :: data) =
      if dec.length < 4 then .err .badInput
      else match c32Value c with
        | none => .err (.badChar c)
        | some v =>
          if checksum4 (UInt8.ofNat v :: dec.take (dec.length - 4)) = dec.drop (dec.length - 4)
          then .ok (dec.take (dec.length - 4), UInt8.ofNat v)
          else .err (.badChecksum (checksum32 (dsha256Hash (UInt8.ofNat v :: dec.take (dec.length - 4))))
            (dec.drop (dec.length - 4))) := by
  have hdata := c32Decode_ok_iff.1 ⟨_, hd⟩
  have hasc : Str.isAscii (c :: data) = true := by
    rw [Str.isAscii_iff]
    intro x hx
    rcases List.mem_cons.1 hx with rfl | hx
    · exact hc
    · exact ascii_of_c32 hdata x hx
  unfold c32checkDecode
  rw [hasc]
  simp only [Bool.not_true, Bool.false_eq_true, if_false, splitAt1, Outcome.ok_bind, hd]
  split
  · rfl
  · rcases hv : c32Value c with _ | v
    · rw [c32Decode_bad (c := c) (by simpa using hc) (by simp [hv])]
      rfl
    · rw [c32Decode_single hv]
      simp only [Outcome.ok_bind]
      by_cases hk : checksum4 (UInt8.ofNat v :: dec.take (dec.length - 4)) = dec.drop (dec.length - 4)
      · rw [if_pos hk, if_neg]
        · rfl
        · exact not_not.2 hk
      · rw [if_neg hk, if_pos]
        · rfl
        · exact hk

theorem c32checkDecode_encode {payload : Bytes} {version : UInt8} {s : Str}
    (h : c32checkEncode payload version = .ok s) : c32checkDecode s = .ok (payload, version) := by
  by_cases hv : version.toNat < 32
  · obtain ⟨e, he, hs⟩ := c32checkEncode_eq payload hv
    rw [hs] at h
    cases h
    have hval := c32Char_value hv
    have hl := checksum4_length (version :: payload)
    rw [c32checkDecode_cons (c32Value_ascii hval) (c32Decode_encode he)]
    simp only [hval, UInt8.ofNat_toNat]
    have h1 : (payload ++ checksum4 (version :: payload)).length - 4 = payload.length := by
      rw [List.length_append]; omega
    rw [if_neg (by rw [List.length_append]; omega), h1, List.take_left, List.drop_left, if_pos rfl]
  · rw [c32checkEncode_panic payload (by omega)] at h; simp at h

theorem c32checkEncode_decode {payload : Bytes} {version : UInt8} {s : Str}
    (h : c32checkDecode s = .ok (payload, version)) :
    version.toNat < 32 ∧ c32checkEncode payload version = .ok (c32CanonStr s) := by
  rcases s with _ | ⟨c, data⟩
  · simp [c32checkDecode, splitAt1, Str.isAscii] at h
  · by_cases hasc : Str.isAscii (c :: data) = true
    · rcases hd : c32Decode data with dec | e | _
      · have hc := Str.isAscii_iff.1 hasc c (List.mem_cons_self ..)
        rw [c32checkDecode_cons hc hd] at h
        split at h
        · simp at h
        · rename_i hlen
          rcases hv : c32Value c with _ | v
          · simp [hv] at h
          · simp only [hv] at h
            split at h
            · rename_i hchk
              simp only [Outcome.ok.injEq, Prod.mk.injEq] at h
              obtain ⟨h1, h2⟩ := h
              have hvlt := c32Value_lt hv
              have hver : version.toNat = v := by
                rw [← h2, UInt8.toNat_ofNat', Nat.mod_eq_of_lt (by omega)]
              refine ⟨by omega, ?_⟩
              obtain ⟨e, he, hs⟩ := c32checkEncode_eq payload (version := version) (by omega)
              rw [hs]
              rw [h2, h1] at hchk
              rw [hchk, ← h1, List.take_append_drop, c32Encode_decode hd] at he
              cases he
              rw [hver, c32Char_value_canon hv]; rfl
            · simp at h
      · unfold c32checkDecode at h
        rw [hasc] at h
        simp [splitAt1, hd] at h
      · exact absurd hd (c32Decode_not_panic data)
    · unfold c32checkDecode at h
      simp [hasc] at h

theorem c32checkDecode_nonascii {s : Str} (h : ¬ ∀ c ∈ s, c.toNat < 128) :
    c32checkDecode s = .err .badInput := by
  unfold c32checkDecode
  have : s.isAscii = false := by
    rcases hs : s.isAscii with _ | _
    · rfl
    · exact absurd (Str.isAscii_iff.1 hs) h
  rw [this]; rfl

theorem c32checkDecode_dataErr {c : Char} {data : Str} {e : Error} (ha : ∀ x ∈ c :: data, x.toNat < 128)
    (hd : c32Decode data = .err e) : c32checkDecode (c :: data) = .err e := by
  unfold c32checkDecode
  rw [Str.isAscii_iff.2 ha]
  simp [splitAt1, hd]

theorem c32checkDecode_not_panic {s : Str} (h : s ≠ []) : c32checkDecode s ≠ .panic := by
  rcases s with _ | ⟨c, data⟩
  · exact absurd rfl h
  · by_cases ha : ∀ x ∈ c :: data, x.toNat < 128
    · rcases hd : c32Decode data with dec | e | _
      · rw [c32checkDecode_cons (ha c (List.mem_cons_self ..)) hd]
        split
        · simp
        · split
          · simp
          · split <;> simp
      · rw [c32checkDecode_dataErr ha hd]; simp
      · exact absurd hd (c32Decode_not_panic data)
    · rw [c32checkDecode_nonascii ha]; simp

end Stacks.C32

import Verif.Proofs.B58
import Verif.Concrete.Ripemd

/-! # Properties C13 - C17: Base58 and Base58Check -/

namespace Stacks.B58
open Stacks.Spec

/-- **C13** `b58_encode` of empty data or data with a non-zero byte: one `1` per leading zero
byte, then the base-58 digits of the big-endian number. -/
theorem C13_b58_encode_value (data : Bytes) (h : data = [] ∨ ∃ b ∈ data, b ≠ 0) :
    b58Encode data = .ok
      (List.replicate (leadingZeros (data.map UInt8.toNat)) '1' ++
        (numDigits 58 (numValue 256 (data.map UInt8.toNat))).map b58Char) := by
  rw [b58Encode_eq h]
  unfold rebase
  rw [List.map_append, List.map_replicate]; rfl

/-- **C13** For `n > 0` zero bytes and nothing else the result has one `1` too many. -/
theorem C13_b58_encode_zeros (n : Nat) (h : 0 < n) :
    b58Encode (List.replicate n 0) = .ok (List.replicate (n + 1) '1') := by
  obtain ⟨m, rfl⟩ : ∃ m, n = m + 1 := ⟨n - 1, by omega⟩
  exact b58Encode_zeros m

/-- Every byte sequence falls under one of the two cases above. -/
theorem bytes_cases (data : Bytes) :
    (data = [] ∨ ∃ b ∈ data, b ≠ 0) ∨ ∃ n, 0 < n ∧ data = List.replicate n 0 := by
  by_cases h : ∃ b ∈ data, b ≠ 0
  · exact .inl (.inr h)
  · push Not at h
    rcases data with _ | ⟨b, rest⟩
    · exact .inl (.inl rfl)
    · exact .inr ⟨(b :: rest).length, by simp, List.eq_replicate_iff.2 ⟨rfl, h⟩⟩

/-- **C13** `b58_encode` terminates normally on every input. -/
theorem C13_b58_encode_total (data : Bytes) : ∃ s, b58Encode data = .ok s := by
  rcases bytes_cases data with h | ⟨n, hn, rfl⟩
  · exact ⟨_, C13_b58_encode_value data h⟩
  · exact ⟨_, C13_b58_encode_zeros n hn⟩

example : b58Encode [0, 0, 1, 0] = .ok "115R".toList ∧ b58Encode [0, 0] = .ok "111".toList ∧
    b58Encode [] = .ok [] := by decide +kernel

/-- **C14** The round trip holds for empty data and data with a non-zero byte, and for no other:
`n > 0` zero bytes come back as `n + 1`. -/
theorem C14_b58_roundtrip (data : Bytes) :
    ((b58Encode data >>= b58Decode) = .ok data ↔ data = [] ∨ ∃ b ∈ data, b ≠ 0) ∧
    ∀ n, 0 < n → (b58Encode (List.replicate n 0) >>= b58Decode) = .ok (List.replicate (n + 1) 0) := by
  have hz : ∀ n, 0 < n → (b58Encode (List.replicate n 0) >>= b58Decode) = .ok (List.replicate (n + 1) 0) := by
    intro n hn
    rw [C13_b58_encode_zeros n hn, Outcome.ok_bind, b58Decode_ones]
  refine ⟨⟨fun h => ?_, b58Decode_encode⟩, hz⟩
  rcases bytes_cases data with h' | ⟨n, hn, rfl⟩
  · exact h'
  · rw [hz n hn] at h
    simp only [Outcome.ok.injEq] at h
    have := congrArg List.length h
    simp at this

/-- **C15** A string over the alphabet decodes to one zero byte per leading `1`, followed by the
minimal bytes of the number it denotes. -/
theorem C15_b58_decode_value (s : Str) (h : ∀ c ∈ s, c ∈ b58Alphabet) :
    ∃ bs, b58Decode s = .ok bs ∧
      bs.map UInt8.toNat = List.replicate (leadingZeros (s.filterMap b58Value)) 0 ++
        numDigits 256 (numValue 58 (s.filterMap b58Value)) := by
  have h' : ∀ c ∈ s, (b58Value c).isSome := by
    intro c hc
    have := h c hc
    rw [b58Value, Option.isSome_iff_ne_none, ne_eq, List.idxOf?_eq_none_iff]
    exact not_not.2 this
  refine ⟨_, b58Decode_eq h', ?_⟩
  rw [C32.map_toNat_ofNat (fun d hd => rebase_lt (by omega) hd)]; rfl

/-- **C15** Otherwise the first character outside the alphabet decides: `BadChar` below U+0100,
a panic from U+0100 on. -/
theorem C15_b58_decode_bad (l : Str) (c : Char) (r : Str) (hl : ∀ x ∈ l, x ∈ b58Alphabet)
    (hc : c ∉ b58Alphabet) :
    (c.toNat < 0x100 → b58Decode (l ++ c :: r) = .err (.badChar c)) ∧
    (0x100 ≤ c.toNat → b58Decode (l ++ c :: r) = .panic) := by
  have h' : ∀ c ∈ l, (b58Value c).isSome := by
    intro c hc
    have := hl c hc
    rw [b58Value, Option.isSome_iff_ne_none, ne_eq, List.idxOf?_eq_none_iff]
    exact not_not.2 this
  have hv : b58Value c = none := by rw [b58Value, List.idxOf?_eq_none_iff]; exact hc
  have hne : (Str.bytes (l ++ c :: r)).isEmpty = false := by
    rw [Str.bytes_append, Str.bytes_cons]
    have := encChar_length_pos c
    cases hb : String.utf8EncodeChar c
    · rw [hb] at this; simp at this
    · simp
  unfold b58Decode
  rw [hne]
  simp only [Bool.false_eq_true, if_false, decodeLoop_bad l _ c r h' hv]
  constructor
  · intro h; rw [if_pos (by omega)]; rfl
  · intro h; rw [if_neg (by omega)]; rfl

/-- **C15** Decoding is injective on the strings it accepts. -/
theorem C15_b58_decode_injective (s t : Str) (bs : Bytes) (hs : b58Decode s = .ok bs)
    (ht : b58Decode t = .ok bs) : s = t := by
  have key : ∀ {s : Str} {bs : Bytes}, b58Decode s = .ok bs →
      s = (rebase 256 58 (bs.map UInt8.toNat)).map b58Char := by
    intro s bs h
    by_cases hall : ∀ c ∈ s, c ∈ b58Alphabet
    · have h' : ∀ c ∈ s, (b58Value c).isSome := by
        intro c hc
        have := hall c hc
        rw [b58Value, Option.isSome_iff_ne_none, ne_eq, List.idxOf?_eq_none_iff]
        exact not_not.2 this
      rw [b58Decode_eq h'] at h
      cases h
      have hlt : ∀ d ∈ s.filterMap b58Value, d < 58 := by
        intro d hd
        obtain ⟨c, _, hc⟩ := List.mem_filterMap.1 hd
        exact b58Value_lt hc
      rw [C32.map_toNat_ofNat (fun d hd => rebase_lt (by omega) hd), rebase_rebase 256 (by omega) hlt,
        map_b58Char_values h']
    · exfalso
      rcases hf : s.find? (fun c => c ∉ b58Alphabet) with _ | c
      · rw [List.find?_eq_none] at hf
        exact hall (fun c hc => by simpa using hf c hc)
      · rw [List.find?_eq_some_iff_append] at hf
        obtain ⟨hc, l, r, rfl, hl⟩ := hf
        obtain ⟨h1, h2⟩ := C15_b58_decode_bad l c r (fun x hx => by simpa using hl x hx) (by simpa using hc)
        rcases Nat.lt_or_ge c.toNat 0x100 with hlt | hge
        · rw [h1 hlt] at h; simp at h
        · rw [h2 hge] at h; simp at h
  rw [key hs, ← key ht]

example : b58Decode "1112z".toList = .ok [0, 0, 0, 115] ∧ b58Decode "12é4".toList = .err (.badChar 'é') ∧
    b58Decode "12Ā0".toList = .panic := by decide +kernel

section
variable [Hashes]

/-- **C16** Base58Check round trip, unless version, hash and checksum are all zero bytes. -/
theorem C16_base58check_roundtrip (hash : Bytes) (version : UInt8)
    (h : ∃ b ∈ version :: (hash ++ checksum4 (version :: hash)), b ≠ 0) :
    (base58checkEncode hash version >>= base58checkDecode) = .ok (hash, version) := by
  have hk := C32.checksum4_length (version :: hash)
  have henc : base58checkEncode hash version = b58Encode (version :: (hash ++ checksum4 (version :: hash))) := by
    have e : (slice (dsha256Hash ([version] ++ hash)).1 0 4 : Outcome Error Bytes) =
        .ok (checksum4 (version :: hash)) := by
      rw [slice_eq_ok, (dsha256Hash ([version] ++ hash)).2]
      exact ⟨by omega, by omega, rfl⟩
    unfold base58checkEncode
    simp only [e, Outcome.ok_bind]
    rfl
  have hdec : ∀ s, b58Decode s = .ok (version :: (hash ++ checksum4 (version :: hash))) →
      base58checkDecode s = .ok (hash, version) := by
    intro s hs
    have hlen : (version :: (hash ++ checksum4 (version :: hash))).length - 4 = hash.length + 1 := by
      simp only [List.length_cons, List.length_append]; omega
    unfold base58checkDecode
    rw [hs, Outcome.ok_bind]
    simp only []
    rw [if_pos (by simp only [List.length_cons, List.length_append]; omega), Outcome.ok_bind, hlen]
    have e1 : (sliceFrom (version :: (hash ++ checksum4 (version :: hash))) (hash.length + 1) : Outcome Error Bytes) =
        .ok (checksum4 (version :: hash)) := by
      rw [sliceFrom_eq_ok]; simp
    have e2 : (slice (version :: (hash ++ checksum4 (version :: hash))) 1 (hash.length + 1) : Outcome Error Bytes) =
        .ok hash := by
      rw [slice_eq_ok]; simp
    have e3 : (slice (version :: (hash ++ checksum4 (version :: hash))) 0 (hash.length + 1) : Outcome Error Bytes) =
        .ok (version :: hash) := by
      rw [slice_eq_ok]; simp
    rw [e1, e2, e3]
    simp only [Outcome.ok_bind]
    have hc : checksum4 (version :: hash) = (dsha256Hash (version :: hash)).1.take 4 := rfl
    have h32 := (dsha256Hash (version :: hash)).2
    rw [hc]
    generalize (dsha256Hash (version :: hash)).1 = d at h32
    rcases d with _ | ⟨d0, _ | ⟨d1, _ | ⟨d2, _ | ⟨d3, d⟩⟩⟩⟩ <;> simp at h32
    simp [checksumLoop, idx]
  rw [henc]
  have hrt := b58Decode_encode (.inr h)
  obtain ⟨s, hs⟩ := C13_b58_encode_total (version :: (hash ++ checksum4 (version :: hash)))
  rw [hs, Outcome.ok_bind] at hrt ⊢
  exact hdec s hrt

omit [Hashes] in
theorem checksumLoop_ok {c d : Bytes} (hd : c.length = 4) (h32 : d.length = 32)
    (h5 : checksumLoop c d [0, 1, 2, 3] = .ok ()) : c = d.take 4 := by
  rcases d with _ | ⟨d0, _ | ⟨d1, _ | ⟨d2, _ | ⟨d3, d⟩⟩⟩⟩ <;> simp at h32
  rcases c with _ | ⟨c0, _ | ⟨c1, _ | ⟨c2, _ | ⟨c3, _ | ⟨_, _⟩⟩⟩⟩⟩ <;> simp at hd
  simp only [checksumLoop, idx, List.getElem?_cons_zero, List.getElem?_cons_succ,
    Outcome.orPanic_some, Outcome.ok_bind, ne_eq, ite_not] at h5
  split_ifs at h5 with a b c d
  subst a b c d
  rfl

/-- **C17** A string accepted by `base58check_decode` denotes version, data and their checksum. -/
theorem C17_base58check_decode_genuine (s : Str) (data : Bytes) (version : UInt8)
    (h : base58checkDecode s = .ok (data, version)) :
    b58Decode s = .ok (version :: (data ++ checksum4 (version :: data))) := by
  unfold base58checkDecode at h
  obtain ⟨buff, hb, h⟩ := Outcome.bind_eq_ok.1 h
  obtain ⟨m, hm, h⟩ := Outcome.bind_eq_ok.1 h
  split at hm
  · rename_i h4
    cases hm
    obtain ⟨chk, h1, h⟩ := Outcome.bind_eq_ok.1 h
    obtain ⟨dat, h2, h⟩ := Outcome.bind_eq_ok.1 h
    obtain ⟨head, h3, h⟩ := Outcome.bind_eq_ok.1 h
    obtain ⟨⟨⟩, h5, h⟩ := Outcome.bind_eq_ok.1 h
    obtain ⟨v, h6, h⟩ := Outcome.bind_eq_ok.1 h
    cases h
    rw [sliceFrom_eq_ok] at h1
    rw [slice_eq_ok] at h2 h3
    rw [idx_eq_ok] at h6
    rcases buff with _ | ⟨b, rest⟩
    · simp at h6
    · simp at h6
      subst h6
      obtain ⟨h21, h22, rfl⟩ := h2
      obtain ⟨_, _, rfl⟩ := h3
      obtain ⟨_, rfl⟩ := h1
      rw [hb]
      obtain ⟨n, hn⟩ : ∃ n, (b :: rest).length - 4 = n + 1 := ⟨(b :: rest).length - 4 - 1, by omega⟩
      have hlen : rest.length = n + 4 := by simp only [List.length_cons] at hn h21 h4; omega
      rw [hn] at h5 ⊢
      simp only [List.take_succ_cons, List.drop_succ_cons, List.drop_zero] at h5 ⊢
      have hk : rest.drop n = (dsha256Hash (b :: rest.take n)).1.take 4 := by
        have hd : (rest.drop n).length = 4 := by rw [List.length_drop]; omega
        have h32 := (dsha256Hash (b :: rest.take n)).2
        exact checksumLoop_ok hd h32 h5
      have hk' : rest.drop n = checksum4 (b :: rest.take n) := hk
      rw [← hk', List.take_append_drop]
  · cases hm

omit [Hashes] in
theorem checksumLoop_eq {c d : Bytes} (hd : c.length = 4) (h32 : d.length = 32) :
    checksumLoop c d [0, 1, 2, 3] =
      if c = d.take 4 then .ok () else .err (.badChecksum (debugBytes c) (debugBytes d)) := by
  split
  · rename_i h
    rcases d with _ | ⟨d0, _ | ⟨d1, _ | ⟨d2, _ | ⟨d3, d⟩⟩⟩⟩ <;> simp at h32
    simp at h
    subst h
    simp [checksumLoop, idx]
  · rename_i h
    cases hc : checksumLoop c d [0, 1, 2, 3] with
    | ok => exact absurd (checksumLoop_ok hd h32 hc) h
    | err e =>
      rcases d with _ | ⟨d0, _ | ⟨d1, _ | ⟨d2, _ | ⟨d3, d⟩⟩⟩⟩ <;> simp at h32
      rcases c with _ | ⟨c0, _ | ⟨c1, _ | ⟨c2, _ | ⟨c3, _ | ⟨_, _⟩⟩⟩⟩⟩ <;> simp at hd
      simp only [checksumLoop, idx, List.getElem?_cons_zero, List.getElem?_cons_succ,
        Outcome.orPanic_some, Outcome.ok_bind, ne_eq, ite_not] at hc
      split_ifs at hc <;> simpa using hc.symm
    | panic =>
      rcases d with _ | ⟨d0, _ | ⟨d1, _ | ⟨d2, _ | ⟨d3, d⟩⟩⟩⟩ <;> simp at h32
      rcases c with _ | ⟨c0, _ | ⟨c1, _ | ⟨c2, _ | ⟨c3, _ | ⟨_, _⟩⟩⟩⟩⟩ <;> simp at hd
      simp only [checksumLoop, idx, List.getElem?_cons_zero, List.getElem?_cons_succ,
        Outcome.orPanic_some, Outcome.ok_bind, ne_eq, ite_not] at hc
      split_ifs at hc

/-- **C16** When they are all zero, what comes back is not what was encoded. -/
theorem C16_base58check_roundtrip_iff (hash : Bytes) (version : UInt8) :
    (base58checkEncode hash version >>= base58checkDecode) = .ok (hash, version) ↔
      ∃ b ∈ version :: (hash ++ checksum4 (version :: hash)), b ≠ 0 := by
  refine ⟨fun h => ?_, C16_base58check_roundtrip hash version⟩
  obtain ⟨s, h1, h2⟩ := Outcome.bind_eq_ok.1 h
  have henc : base58checkEncode hash version = b58Encode (version :: (hash ++ checksum4 (version :: hash))) := by
    have e : (slice (dsha256Hash ([version] ++ hash)).1 0 4 : Outcome Error Bytes) =
        .ok (checksum4 (version :: hash)) := by
      rw [slice_eq_ok, (dsha256Hash ([version] ++ hash)).2]
      exact ⟨by omega, by omega, rfl⟩
    unfold base58checkEncode
    simp only [e, Outcome.ok_bind]
    rfl
  rw [henc] at h1
  rcases ((C14_b58_roundtrip _).1).1 (Outcome.bind_eq_ok.2 ⟨s, h1, C17_base58check_decode_genuine s _ _ h2⟩) with h | h
  · cases h
  · exact h

/-- **C17** The result on a string that spells a version byte, a payload and four more bytes: the
payload and the version if the four bytes are the checksum, and otherwise the error that names
the four bytes and the double SHA-256 of the rest. An error of `b58_decode` is passed on. -/
theorem C17_base58check_decode_exact (s : Str) :
    (∀ (version : UInt8) (data check : Bytes), check.length = 4 →
      b58Decode s = .ok (version :: (data ++ check)) →
      base58checkDecode s =
        if check = checksum4 (version :: data) then .ok (data, version)
        else .err (.badChecksum (debugBytes check) (debugBytes (dsha256Hash (version :: data)).1))) ∧
    (∀ e, b58Decode s = .err e → base58checkDecode s = .err e) := by
  constructor
  · intro version data check hc hs
    have hlen : (version :: (data ++ check)).length - 4 = data.length + 1 := by
      simp only [List.length_cons, List.length_append]; omega
    unfold base58checkDecode
    rw [hs, Outcome.ok_bind]
    simp only []
    rw [if_pos (by simp only [List.length_cons, List.length_append]; omega), Outcome.ok_bind, hlen]
    have e1 : (sliceFrom (version :: (data ++ check)) (data.length + 1) : Outcome Error Bytes) = .ok check := by
      rw [sliceFrom_eq_ok]; simp
    have e2 : (slice (version :: (data ++ check)) 1 (data.length + 1) : Outcome Error Bytes) = .ok data := by
      rw [slice_eq_ok]; simp
    have e3 : (slice (version :: (data ++ check)) 0 (data.length + 1) : Outcome Error Bytes) =
        .ok (version :: data) := by
      rw [slice_eq_ok]; simp
    rw [e1, e2, e3]
    simp only [Outcome.ok_bind]
    rw [checksumLoop_eq hc (dsha256Hash (version :: data)).2]
    have hk : checksum4 (version :: data) = (dsha256Hash (version :: data)).1.take 4 := rfl
    rw [← hk]
    split
    · rfl
    · rfl
  · intro e he
    unfold base58checkDecode
    rw [he]; rfl

/-- **C17** `base58check_decode` panics exactly when `b58_decode` panics or yields fewer than
five bytes. -/
theorem C17_base58check_decode_panics (s : Str) :
    base58checkDecode s = .panic ↔
      b58Decode s = .panic ∨ ∃ bs, b58Decode s = .ok bs ∧ bs.length < 5 := by
  unfold base58checkDecode
  rcases hb : b58Decode s with buff | e | _
  · simp only [Outcome.ok_bind, reduceCtorEq, Outcome.ok.injEq, false_or, exists_eq_left']
    by_cases h5 : buff.length < 5
    · refine iff_of_true ?_ h5
      by_cases h4 : 4 ≤ buff.length
      · rw [if_pos h4, Outcome.ok_bind]
        have : buff.length - 4 = 0 := by omega
        rw [this]
        have e1 : (sliceFrom buff 0 : Outcome Error Bytes) = .ok buff := by rw [sliceFrom_eq_ok]; simp
        rw [e1]
        rfl
      · rw [if_neg h4]; rfl
    · refine iff_of_false ?_ h5
      rw [if_pos (by omega), Outcome.ok_bind]
      have e1 : (sliceFrom buff (buff.length - 4) : Outcome Error Bytes) = .ok (buff.drop (buff.length - 4)) := by
        rw [sliceFrom_eq_ok]; simp
      have e2 : (slice buff 1 (buff.length - 4) : Outcome Error Bytes) =
          .ok ((buff.take (buff.length - 4)).drop 1) := by
        rw [slice_eq_ok]; refine ⟨by omega, by omega, rfl⟩
      have e3 : (slice buff 0 (buff.length - 4) : Outcome Error Bytes) = .ok (buff.take (buff.length - 4)) := by
        rw [slice_eq_ok]; refine ⟨by omega, by omega, by simp⟩
      rw [e1, e2, e3]
      simp only [Outcome.ok_bind]
      have hd : (buff.drop (buff.length - 4)).length = 4 := by rw [List.length_drop]; omega
      have h32 := (dsha256Hash (buff.take (buff.length - 4))).2
      generalize buff.drop (buff.length - 4) = c at hd
      generalize (dsha256Hash (buff.take (buff.length - 4))).1 = d at h32
      rcases d with _ | ⟨d0, _ | ⟨d1, _ | ⟨d2, _ | ⟨d3, d⟩⟩⟩⟩ <;> simp at h32
      rcases c with _ | ⟨c0, _ | ⟨c1, _ | ⟨c2, _ | ⟨c3, _ | ⟨_, _⟩⟩⟩⟩⟩ <;> simp at hd
      simp only [checksumLoop, idx, List.getElem?_cons_zero, List.getElem?_cons_succ,
        Outcome.orPanic_some, Outcome.ok_bind, ne_eq, ite_not]
      rcases buff with _ | ⟨b, rest⟩
      · simp at h5
      · by_cases c0 = d0 <;> by_cases c1 = d1 <;> by_cases c2 = d2 <;> by_cases c3 = d3 <;> simp [*]
  · simp
  · simp

end

section
attribute [local instance] Concrete.realHashes

/-- The genesis block's address. -/
example : base58checkDecode "1A1zP1eP5QGefi2DMPTfTL5SLmv7DivfNa".toList =
    .ok ([0x62, 0xe9, 0x07, 0xb1, 0x5c, 0xbf, 0x27, 0xd5, 0x42, 0x53, 0x99, 0xeb, 0xf6, 0xf0, 0xfb,
      0x50, 0xeb, 0xb8, 0x8f, 0x18], 0) := by decide +kernel

example : base58checkEncode (List.replicate 20 0) 0 = .ok "1111111111111111111114oLvT2".toList := by
  decide +kernel


-- the last character changed
example : base58checkDecode "1A1zP1eP5QGefi2DMPTfTL5SLmv7DivfNb".toList =
    .err (.badChecksum "[194, 155, 125, 148]".toList
      "[194, 155, 125, 147, 126, 48, 73, 226, 121, 57, 30, 98, 253, 240, 12, 18, 222, 247, 68, 64, 19, 221, 246, 33, 88, 8, 209, 14, 159, 45, 89, 150]".toList) := by
  decide +kernel

example : base58checkDecode [] = .panic ∧ base58checkDecode "1111".toList = .panic := by decide +kernel

/-! ## Concrete cases of theorems with hypotheses -/

/-- C13: zeros and other bytes; only zeros. -/
example := C13_b58_encode_value [0, 0, 1, 0] (.inr ⟨1, by decide, by decide⟩)
example := C13_b58_encode_zeros 3 (by decide)

/-- C15: a string with leading ones. -/
example := C15_b58_decode_value "1112z".toList (by decide +kernel)
example := C15_b58_decode_injective "1112z".toList "1112z".toList [0, 0, 0, 115] (by decide +kernel) (by decide +kernel)

/-- C16: a hash of zeros in version 0; its checksum is not zero. -/
example := C16_base58check_roundtrip (List.replicate 20 0) 0 ((C16_base58check_roundtrip_iff _ _).1 (by decide +kernel))

/-- C17: the genesis block's address. -/
example := C17_base58check_decode_genuine "1A1zP1eP5QGefi2DMPTfTL5SLmv7DivfNa".toList
  [0x62, 0xe9, 0x07, 0xb1, 0x5c, 0xbf, 0x27, 0xd5, 0x42, 0x53, 0x99, 0xeb, 0xf6, 0xf0, 0xfb,
    0x50, 0xeb, 0xb8, 0x8f, 0x18] 0 (by decide +kernel)

end

end Stacks.B58

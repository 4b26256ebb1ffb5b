import Verif.Proofs.C32Check
import Verif.Concrete.Ripemd

/-! # Properties C04 - C12: C32 strings and addresses -/

namespace Stacks.C32
open Stacks.Spec

/-! ### c32_encode and c32_decode -/

/-- **C04** `c32_encode` never fails: it writes one `0` per leading zero byte, then the base-32
digits of the big-endian number the bytes denote. -/
theorem C04_c32_encode_value (data : Bytes) :
    c32Encode data = .ok
      (List.replicate (leadingZeros (data.map UInt8.toNat)) '0' ++
        (numDigits 32 (numValue 256 (data.map UInt8.toNat))).map c32Char) := by
  rw [c32Encode_eq]
  unfold rebase
  rw [List.map_append, List.map_replicate]; rfl

example : c32Encode [0, 0, 1, 0, 31] = .ok "00200Z".toList ∧
    "00200Z".toList = List.replicate 2 '0' ++ [2, 0, 0, 31].map c32Char := by decide +kernel

/-- **C05** Decoding what was encoded gives the bytes back. -/
theorem C05_c32_roundtrip (data : Bytes) : (c32Encode data >>= c32Decode) = .ok data := by
  rw [c32Encode_eq, Outcome.ok_bind]
  exact c32Decode_encode (c32Encode_eq data)

/-- **C05** Different byte sequences have different encodings. -/
theorem C05_c32_encode_injective (a b : Bytes) (h : c32Encode a = c32Encode b) : a = b := by
  have ha := C05_c32_roundtrip a
  rw [h, C05_c32_roundtrip b] at ha
  cases ha; rfl

example : (c32Encode [0, 1, 2, 3, 4, 6, 1, 2, 6, 2, 3, 6, 9, 4, 0, 0] >>= c32Decode) =
    .ok [0, 1, 2, 3, 4, 6, 1, 2, 6, 2, 3, 6, 9, 4, 0, 0] := by decide +kernel

/-- **C06** Which strings `c32_decode` accepts and which error it gives for the others: exactly
the strings over the digits and their aliases are accepted; a non-ASCII character anywhere gives
`BadInput`; otherwise the offending character furthest to the right is reported. No panic. -/
theorem C06_c32_decode_exact (s : Str) :
    ((∃ bs, c32Decode s = .ok bs) ↔ ∀ c ∈ s, (c32Value c).isSome) ∧
    ((∃ c ∈ s, 128 ≤ c.toNat) → c32Decode s = .err .badInput) ∧
    (∀ l c r, s = l ++ c :: r → (∀ x ∈ s, x.toNat < 128) → c32Value c = none →
      (∀ x ∈ r, (c32Value x).isSome) → c32Decode s = .err (.badChar c)) ∧
    c32Decode s ≠ .panic := by
  refine ⟨c32Decode_ok_iff, ?_, ?_, c32Decode_not_panic s⟩
  · rintro ⟨c, hc, h⟩
    apply c32Decode_nonascii
    intro hall
    have := hall c hc
    omega
  · rintro l c r rfl ha hv hr
    apply c32Decode_bad ha
    rw [List.reverse_append, List.reverse_cons, List.append_assoc, List.find?_append]
    rw [List.find?_eq_none.2, Option.none_or, List.singleton_append, List.find?_cons_of_pos (by simp [hv])]
    intro x hx
    have := hr x (List.mem_reverse.1 hx)
    simpa [Option.isSome_iff_ne_none] using this

/-- The accepted characters, spelled out. -/
theorem C06_c32_accepted_characters (c : Char) :
    (c32Value c).isSome ↔ c ∈ "0123456789ABCDEFGHJKMNPQRSTVWXYZabcdefghjkmnpqrstvwxyzOoIiLl".toList := by
  by_cases hc : c.toNat < 128
  · have : ∀ n : Fin 128, (c32Value (Char.ofNat n.1)).isSome ↔
        Char.ofNat n.1 ∈ "0123456789ABCDEFGHJKMNPQRSTVWXYZabcdefghjkmnpqrstvwxyzOoIiLl".toList := by decide +kernel
    have := this ⟨c.toNat, hc⟩
    rwa [Char.ofNat_toNat] at this
  · constructor
    · intro h
      obtain ⟨v, hv⟩ := Option.isSome_iff_exists.1 h
      exact absurd (c32Value_ascii hv) hc
    · intro h
      have : ∀ c ∈ "0123456789ABCDEFGHJKMNPQRSTVWXYZabcdefghjkmnpqrstvwxyzOoIiLl".toList, c.toNat < 128 := by
        decide +kernel
      exact absurd (this c h) hc

example : c32Decode "2Uu0".toList = .err (.badChar 'u') ∧ c32Decode "2é".toList = .err .badInput ∧
    c32Decode "2oL".toList = .ok [8, 1] := by decide +kernel

/-- **C07** The value of an accepted string: one zero byte per leading zero digit, then the
minimal big-endian bytes of the base-32 number. -/
theorem C07_c32_decode_value (s : Str) (h : ∀ c ∈ s, (c32Value c).isSome) :
    ∃ bs, c32Decode s = .ok bs ∧
      bs.map UInt8.toNat = List.replicate (leadingZeros (s.filterMap c32Value)) 0 ++
        numDigits 256 (numValue 32 (s.filterMap c32Value)) := by
  refine ⟨_, c32Decode_eq h, ?_⟩
  rw [map_toNat_ofNat (fun d hd => rebase_lt (by omega) hd)]; rfl

/-- **C07** Re-encoding a decoded string gives its canonical spelling. -/
theorem C07_c32_reencode (s : Str) (bs : Bytes) (h : c32Decode s = .ok bs) :
    c32Encode bs = .ok (c32CanonStr s) := c32Encode_decode h

/-- **C07** Two accepted strings decode to the same bytes exactly when they have the same
canonical spelling. -/
theorem C07_c32_same_bytes (s t : Str) (bs bt : Bytes) (hs : c32Decode s = .ok bs)
    (ht : c32Decode t = .ok bt) : bs = bt ↔ c32CanonStr s = c32CanonStr t := by
  have h1 := c32Encode_decode hs
  have h2 := c32Encode_decode ht
  constructor
  · rintro rfl
    rw [h1] at h2
    simpa using h2
  · intro h
    apply C05_c32_encode_injective
    rw [h1, h2, h]

example : c32Decode "0oIl".toList = .ok [0, 0, 33] ∧ c32CanonStr "0oIl".toList = "0011".toList := by
  decide +kernel

/-! ### c32check -/

section
variable [Hashes]

/-- **C08** c32check round trip for the versions that have a digit. -/
theorem C08_c32check_roundtrip (payload : Bytes) (version : UInt8) (h : version < 32) :
    (c32checkEncode payload version >>= c32checkDecode) = .ok (payload, version) := by
  obtain ⟨e, _, hs⟩ := c32checkEncode_eq payload (UInt8.lt_iff_toNat_lt.1 h)
  rw [hs, Outcome.ok_bind, c32checkDecode_encode hs]

/-- **C08** For any other version `c32check_encode` panics (index out of bounds). -/
theorem C08_c32check_encode_panics (payload : Bytes) (version : UInt8) (h : 32 ≤ version) :
    c32checkEncode payload version = .panic :=
  c32checkEncode_panic payload (UInt8.le_iff_toNat_le.1 h)

/-- **C08** What the encoding consists of: the version's digit, then `c32_encode` of the payload
and its checksum. -/
theorem C08_c32check_shape (payload : Bytes) (version : UInt8) (h : version < 32) :
    c32checkEncode payload version =
      (c32Encode (payload ++ checksum4 (version :: payload)) >>= fun e =>
        .ok (c32Char version.toNat :: e)) := by
  obtain ⟨e, he, hs⟩ := c32checkEncode_eq payload (UInt8.lt_iff_toNat_lt.1 h)
  rw [hs, he, Outcome.ok_bind]

/-- **C09** A string accepted by `c32check_decode` is, up to spelling, the encoding of what it
decodes to. -/
theorem C09_c32check_decode_genuine (s : Str) (payload : Bytes) (version : UInt8)
    (h : c32checkDecode s = .ok (payload, version)) :
    version < 32 ∧ c32checkEncode payload version = .ok (c32CanonStr s) := by
  obtain ⟨h1, h2⟩ := c32checkEncode_decode h
  exact ⟨UInt8.lt_iff_toNat_lt.2 h1, h2⟩

/-- **C09** The checksum is what decides: for a version digit followed by data decoding to a
payload and four bytes `chk`, the answer is `Ok` when `chk` is the checksum of version and
payload, and otherwise `BadChecksum` with the computed and the embedded checksum. -/
theorem C09_c32check_checksum_decides (c : Char) (v : Nat) (data : Str) (payload chk : Bytes)
    (hc : c32Value c = some v) (hd : c32Decode data = .ok (payload ++ chk)) (hk : chk.length = 4) :
    (chk = checksum4 (UInt8.ofNat v :: payload) → c32checkDecode (c :: data) = .ok (payload, UInt8.ofNat v)) ∧
    (chk ≠ checksum4 (UInt8.ofNat v :: payload) →
      ∃ computed, computed.1 = checksum4 (UInt8.ofNat v :: payload) ∧
        c32checkDecode (c :: data) = .err (.badChecksum computed chk)) := by
  have hl : (payload ++ chk).length - 4 = payload.length := by rw [List.length_append]; omega
  rw [c32checkDecode_cons (c32Value_ascii hc) hd, if_neg (by rw [List.length_append]; omega), hc]
  simp only [hl, List.take_left, List.drop_left]
  constructor
  · intro h; rw [if_pos h.symm]
  · intro h
    rw [if_neg (Ne.symm h)]
    exact ⟨_, checksum32_eq _, rfl⟩

/-! ### addresses -/

/-- **C10** `c32_address` succeeds exactly for the four known versions. -/
theorem C10_c32_address_versions (hash : Bytes) (version : UInt8) :
    (version = 20 ∨ version = 21 ∨ version = 22 ∨ version = 26 → ∃ s, c32Address hash version = .ok s) ∧
    (¬ (version = 20 ∨ version = 21 ∨ version = 22 ∨ version = 26) →
      c32Address hash version = .err (.unknownAddressVersion version)) := by
  have hmem : version ∉ ([22, 26, 20, 21] : List UInt8) ↔
      ¬ (version = 20 ∨ version = 21 ∨ version = 22 ∨ version = 26) := by
    simp only [List.mem_cons, List.not_mem_nil, or_false]; tauto
  constructor
  · intro h
    have hlt : version.toNat < 32 := by rcases h with rfl | rfl | rfl | rfl <;> decide
    obtain ⟨e, _, hs⟩ := c32checkEncode_eq hash hlt
    refine ⟨'S' :: c32Char version.toNat :: e, ?_⟩
    unfold c32Address
    rw [if_neg (by rw [hmem]; tauto), hs]; rfl
  · intro h
    unfold c32Address
    rw [if_pos (hmem.2 h)]

/-- **C10** The shape of an address: `S`, the letter of the version, and C32 digits encoding the
hash and its checksum. -/
theorem C10_c32_address_shape (hash : Bytes) (version : UInt8) (s : Str)
    (h : c32Address hash version = .ok s) :
    ∃ letter e, s = 'S' :: letter :: e ∧
      (version, letter) ∈ [((22 : UInt8), 'P'), (20, 'M'), (26, 'T'), (21, 'N')] ∧
      c32Decode e = .ok (hash ++ checksum4 (version :: hash)) := by
  unfold c32Address at h
  split at h
  · simp at h
  · rename_i hm
    simp only [List.mem_cons, List.not_mem_nil, or_false, not_not] at hm
    have hlt : version.toNat < 32 := by rcases hm with rfl | rfl | rfl | rfl <;> decide
    obtain ⟨e, he, hs⟩ := c32checkEncode_eq hash hlt
    rw [hs] at h
    cases h
    refine ⟨_, e, rfl, ?_, c32Decode_encode he⟩
    rcases hm with rfl | rfl | rfl | rfl <;> decide +kernel

/-- **C10** An address decodes to exactly what it was built from. -/
theorem C10_c32_address_roundtrip (hash : Bytes) (version : UInt8) (s : Str)
    (h : c32Address hash version = .ok s) : c32AddressDecode s = .ok (hash, version) := by
  obtain ⟨letter, e, rfl, hmem, he⟩ := C10_c32_address_shape hash version s h
  have hs : c32checkDecode (letter :: e) = .ok (hash, version) := by
    unfold c32Address at h
    split at h
    · simp at h
    · rcases hc : c32checkEncode hash version with t | _ | _
      · rw [hc] at h
        simp only [Outcome.ok_bind, Outcome.pure_def, Outcome.ok.injEq, List.cons.injEq, true_and] at h
        subst h
        exact c32checkDecode_encode hc
      · simp [hc] at h
      · simp [hc] at h
  -- four checksum bytes need at least four digits
  have hasc := c32Decode_ok_iff.1 ⟨_, he⟩
  have hlen : 4 ≤ e.length := by
    by_contra hlt
    have hval := C07_c32_decode_value e hasc
    obtain ⟨bs, hbs, hv⟩ := hval
    rw [he] at hbs
    cases hbs
    have h1 := c32Encode_decode he
    have h2 := congrArg List.length hv
    have h4 := checksum4_length (version :: hash)
    have hd : ∀ d ∈ e.filterMap c32Value, d < 32 := by
      intro v hv
      obtain ⟨c, _, hc⟩ := List.mem_filterMap.1 hv
      exact c32Value_lt hc
    have hfl : (e.filterMap c32Value).length ≤ e.length := List.length_filterMap_le ..
    rw [List.length_map, List.length_append] at h2
    have := rebase_length_le_of_le (b := 32) (c := 256) (by omega) (by omega) (ds := e.filterMap c32Value) hd
    unfold rebase at this
    omega
  have hall : ∀ c ∈ ('S' :: letter :: e), c.toNat < 128 := by
    intro c hc
    rcases List.mem_cons.1 hc with rfl | hc
    · decide
    · rcases List.mem_cons.1 hc with rfl | hc
      · simp only [List.mem_cons, Prod.mk.injEq, List.not_mem_nil, or_false] at hmem
        rcases hmem with ⟨_, rfl⟩ | ⟨_, rfl⟩ | ⟨_, rfl⟩ | ⟨_, rfl⟩ <;> decide
      · exact ascii_of_c32 hasc c hc
  show (if _ then _ else _) = _
  rw [if_neg, hs]
  rw [Str.len_of_ascii hall]
  simp only [List.length_cons]
  omega

/-- **C10** Distinct hashes or versions have distinct addresses. -/
theorem C10_c32_address_injective (h1 h2 : Bytes) (v1 v2 : UInt8) (s : Str)
    (e1 : c32Address h1 v1 = .ok s) (e2 : c32Address h2 v2 = .ok s) : h1 = h2 ∧ v1 = v2 := by
  have := C10_c32_address_roundtrip h1 v1 s e1
  rw [C10_c32_address_roundtrip h2 v2 s e2] at this
  simp only [Outcome.ok.injEq, Prod.mk.injEq] at this
  exact ⟨this.1.symm, this.2.symm⟩

/-- **C11** `c32_address_decode` never panics, on any string. -/
theorem C11_c32_address_decode_no_panic (s : Str) : c32AddressDecode s ≠ .panic := by
  unfold c32AddressDecode
  split
  · rename_i rest
    split
    · simp
    · rename_i hl
      apply c32checkDecode_not_panic
      rintro rfl
      exact hl (by decide)
  · simp

/-- **C11** Strings that do not start with `S`, or of at most five bytes, are `BadAddress`. -/
theorem C11_c32_address_decode_badAddress (s : Str)
    (h : s.head? ≠ some 'S' ∨ (String.ofList s).utf8ByteSize ≤ 5) :
    c32AddressDecode s = .err (.badAddress s) := by
  rw [← Str.len_eq_utf8ByteSize] at h
  unfold c32AddressDecode
  split
  · rename_i rest
    rw [if_pos]
    rcases h with h | h
    · simp at h
    · exact h
  · rfl

/-- **C11** The answer for every other string `S ver data` (more than five bytes): a non-ASCII
character gives `BadInput`; else a bad character in `data`, the rightmost first, gives `BadChar`;
else fewer than four decoded bytes give `BadInput`; else a bad version character gives `BadChar`;
else the checksum decides. -/
theorem C11_c32_address_decode_cases (ver : Char) (data : Str)
    (hlen : 5 < (String.ofList ('S' :: ver :: data)).utf8ByteSize) :
    ((∃ c ∈ ver :: data, 128 ≤ c.toNat) →
      c32AddressDecode ('S' :: ver :: data) = .err .badInput) ∧
    ((∀ c ∈ ver :: data, c.toNat < 128) →
      (∀ l c r, data = l ++ c :: r → c32Value c = none → (∀ x ∈ r, (c32Value x).isSome) →
        c32AddressDecode ('S' :: ver :: data) = .err (.badChar c)) ∧
      (∀ bs, c32Decode data = .ok bs →
        (bs.length < 4 → c32AddressDecode ('S' :: ver :: data) = .err .badInput) ∧
        (4 ≤ bs.length → c32Value ver = none →
          c32AddressDecode ('S' :: ver :: data) = .err (.badChar ver)) ∧
        (∀ payload chk v, bs = payload ++ chk → chk.length = 4 → c32Value ver = some v →
          (chk = checksum4 (UInt8.ofNat v :: payload) →
            c32AddressDecode ('S' :: ver :: data) = .ok (payload, UInt8.ofNat v)) ∧
          (chk ≠ checksum4 (UInt8.ofNat v :: payload) →
            ∃ computed, computed.1 = checksum4 (UInt8.ofNat v :: payload) ∧
              c32AddressDecode ('S' :: ver :: data) = .err (.badChecksum computed chk))))) := by
  rw [← Str.len_eq_utf8ByteSize] at hlen
  have h0 : c32AddressDecode ('S' :: ver :: data) = c32checkDecode (ver :: data) := by
    show (if _ then _ else _) = _
    rw [if_neg (by omega)]
  rw [h0]
  refine ⟨?_, fun ha => ⟨?_, ?_⟩⟩
  · rintro ⟨c, hc, h⟩
    apply c32checkDecode_nonascii
    intro hall
    have := hall c hc
    omega
  · intro l c r hd hv hr
    apply c32checkDecode_dataErr ha
    exact (C06_c32_decode_exact data).2.2.1 l c r hd (fun x hx => ha x (List.mem_cons_of_mem _ hx)) hv hr
  · intro bs hbs
    have hv := ha ver (List.mem_cons_self ..)
    refine ⟨fun h => ?_, fun h1 h2 => ?_, ?_⟩
    · rw [c32checkDecode_cons hv hbs, if_pos h]
    · rw [c32checkDecode_cons hv hbs, if_neg (by omega), h2]
    · rintro payload chk v rfl hk hval
      exact C09_c32check_checksum_decides ver v data payload chk hval hbs hk

/-- **C12** `Address::from_str` in terms of `c32_address_decode`: its errors are passed on, a
20-byte payload gives the address, and any other payload makes it panic. -/
theorem C12_address_from_str (s : Str) :
    (∀ e, c32AddressDecode s = .err e → addressFromStr s = .err e) ∧
    (∀ bytes version (h : bytes.length = 20), c32AddressDecode s = .ok (bytes, version) →
      addressFromStr s = .ok ⟨⟨bytes, h⟩, version⟩) ∧
    (addressFromStr s = .panic ↔
      ∃ bytes version, c32AddressDecode s = .ok (bytes, version) ∧ bytes.length ≠ 20) := by
  unfold addressFromStr hash160New copyFromSlice
  refine ⟨?_, ?_, ?_⟩
  · intro e h; rw [h]; rfl
  · intro bytes version h hd; rw [hd]; simp [h]
  · rcases hd : c32AddressDecode s with ⟨b, v⟩ | e | _
    · simp only [Outcome.ok_bind, Outcome.ok.injEq, Prod.mk.injEq]
      constructor
      · intro h
        refine ⟨b, v, ⟨rfl, rfl⟩, fun hl => ?_⟩
        rw [dif_pos hl] at h
        simp at h
      · rintro ⟨b', v', ⟨rfl, rfl⟩, hl⟩
        rw [dif_neg hl]; rfl
    · simp
    · exact absurd hd (C11_c32_address_decode_no_panic s)

/-- **C12** Every address built by `c32_address` from 20 bytes parses back. -/
theorem C12_address_from_str_roundtrip (hash : Arr 20) (version : UInt8) (s : Str)
    (h : c32Address hash.1 version = .ok s) : addressFromStr s = .ok ⟨hash, version⟩ :=
  (C12_address_from_str s).2.1 hash.1 version hash.2 (C10_c32_address_roundtrip hash.1 version s h)

end

/-! ### concrete cases, with the real SHA-256 -/

section
attribute [local instance] Concrete.realHashes

/-- A mainnet address. -/
example : c32Address [0xa4, 0x6f, 0xf8, 0x88, 0x86, 0xc2, 0xef, 0x97, 0x62, 0xd9, 0x70, 0xb4, 0xd2,
      0xc6, 0x36, 0x78, 0x83, 0x5b, 0xd3, 0x9d] 22 =
    .ok "SP2J6ZY48GV1EZ5V2V5RB9MP66SW86PYKKNRV9EJ7".toList := by decide +kernel

example : addressFromStr "SP2J6ZY48GV1EZ5V2V5RB9MP66SW86PYKKNRV9EJ7".toList =
    .ok ⟨⟨[0xa4, 0x6f, 0xf8, 0x88, 0x86, 0xc2, 0xef, 0x97, 0x62, 0xd9, 0x70, 0xb4, 0xd2,
      0xc6, 0x36, 0x78, 0x83, 0x5b, 0xd3, 0x9d], rfl⟩, 22⟩ := by decide +kernel

/-- The same address in an alternative spelling. -/
example : c32AddressDecode "Sp2j6zy48gviez5v2v5rb9mp66sw86pykknrv9ej7".toList =
    c32AddressDecode "SP2J6ZY48GV1EZ5V2V5RB9MP66SW86PYKKNRV9EJ7".toList := by decide +kernel

example : (c32checkEncode [0, 7] 31 >>= c32checkDecode) = .ok ([0, 7], 31) := by decide +kernel
example : c32checkEncode [0, 7] 32 = .panic := by decide +kernel
example : c32checkDecode [] = .panic := by decide +kernel

/-- A wrong checksum. -/
example : (c32AddressDecode "SP2J6ZY48GV1EZ5V2V5RB9MP66SW86PYKKNRV9EJ8".toList).isOk = false := by
  decide +kernel

/-- A checksum-valid address of three bytes: accepted by `c32_address_decode`, while
`Address::from_str` panics on it. -/
example : ∃ s, c32Address [1, 2, 3] 22 = .ok s ∧ c32AddressDecode s = .ok ([1, 2, 3], 22) ∧
    addressFromStr s = .panic := ⟨"SP820DJMP8B0".toList, by decide +kernel⟩

/-- `c32_address_decode` has no version whitelist. -/
example : ∃ s, c32checkEncode [9, 9] 1 = .ok s ∧ c32AddressDecode ('S' :: s) = .ok ([9, 9], 1) ∧
    (c32Address [9, 9] 1).isOk = false := ⟨"19178V8KSQ".toList, by decide +kernel⟩

/-! ### instances of the theorems with hypotheses -/

example := C05_c32_encode_injective [0, 7] [0, 7] rfl
example := C07_c32_decode_value "0oIz".toList (by decide +kernel)
example := C07_c32_reencode "g4oR4".toList [1, 2, 3, 4] (by decide +kernel)
example := C07_c32_same_bytes "g4oR4".toList "G40R4".toList [1, 2, 3, 4] [1, 2, 3, 4] (by decide +kernel)
  (by decide +kernel)
example := C08_c32check_roundtrip [0, 7] 31 (by decide)
example := C08_c32check_encode_panics [0, 7] 32 (by decide)
example := C08_c32check_shape [0, 7] 31 (by decide)
example := C09_c32check_decode_genuine "i9i78V8KSQ".toList [9, 9] 1 (by decide +kernel)
-- the right checksum and another
example := (C09_c32check_checksum_decides '1' 1 "9178V8KSQ".toList [9, 9] (checksum4 [1, 9, 9]) (by decide +kernel)
  (by decide +kernel) (by decide +kernel)).1 rfl
example := (C09_c32check_checksum_decides '2' 2 "9178V8KSQ".toList [9, 9] (checksum4 [1, 9, 9]) (by decide +kernel)
  (by decide +kernel) (by decide +kernel)).2 (by decide +kernel)
example := C10_c32_address_shape [1, 2, 3] 22 "SP820DJMP8B0".toList (by decide +kernel)
example := C10_c32_address_roundtrip [1, 2, 3] 22 "SP820DJMP8B0".toList (by decide +kernel)
example := C11_c32_address_decode_badAddress "TP820DJMP8B0".toList (.inl (by decide))
example := C11_c32_address_decode_badAddress "SP820".toList (.inr (by decide +kernel))
-- the five outcomes
example := (C11_c32_address_decode_cases 'P' "820Dé".toList (by decide +kernel)).1 ⟨'é', by decide, by decide⟩
example := ((C11_c32_address_decode_cases 'P' "82U0D".toList (by decide +kernel)).2 (by decide)).1
  "82".toList 'U' "0D".toList rfl (by decide +kernel) (by decide +kernel)
example := (((C11_c32_address_decode_cases 'P' "8200".toList (by decide +kernel)).2 (by decide)).2 [4, 8, 0]
  (by decide +kernel)).1 (by decide)
example := (((C11_c32_address_decode_cases 'U' "820DJMP8B0".toList (by decide +kernel)).2 (by decide)).2
  [1, 2, 3, 101, 75, 33, 96] (by decide +kernel)).2.1 (by decide) (by decide +kernel)
example := ((((C11_c32_address_decode_cases 'P' "820DJMP8B0".toList (by decide +kernel)).2 (by decide)).2
  [1, 2, 3, 101, 75, 33, 96] (by decide +kernel)).2.2 [1, 2, 3] [101, 75, 33, 96] 22 rfl rfl (by decide +kernel)).1
  (by decide +kernel)
example := ((((C11_c32_address_decode_cases 'M' "820DJMP8B0".toList (by decide +kernel)).2 (by decide)).2
  [1, 2, 3, 101, 75, 33, 96] (by decide +kernel)).2.2 [1, 2, 3] [101, 75, 33, 96] 20 rfl rfl (by decide +kernel)).2
  (by decide +kernel)

end
end Stacks.C32

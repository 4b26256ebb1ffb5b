import Verif.Proofs.Hex

/-! # Properties C01 - C03: hexadecimal conversion -/

namespace Stacks.Hex
open Stacks.Spec

/-- **C01** Hex round trip: decoding the hexadecimal form of any byte sequence gives it back,
and that form consists of two lower-case digits per byte. -/
theorem C01_hex_roundtrip (bs : Bytes) :
    hexToBytes (bytesToHex bs) = .ok bs ∧
    (bytesToHex bs).length = 2 * bs.length ∧
    ∀ c ∈ bytesToHex bs, c ∈ "0123456789abcdef".toList := by
  refine ⟨(hexToBytes_ok_iff _ _).2 (hexBytes?_bytesToHex bs), ?_, ?_⟩
  · induction bs with
    | nil => rfl
    | cons b bs ih =>
      show (digitChar (b.toNat / 16) :: digitChar (b.toNat % 16) :: bytesToHex bs).length = _
      simp only [List.length_cons, ih]; omega
  · intro c hc
    obtain ⟨b, _, hc⟩ := List.mem_flatMap.1 hc
    obtain ⟨_, _, _, h4, h5⟩ := nibble_hi_lo b
    simp only [List.mem_cons, List.not_mem_nil, or_false] at hc
    rcases hc with rfl | rfl
    · exact h4
    · exact h5

/-- **C01** That form is the high digit and the low digit of each byte. -/
theorem C01_hex_text (bs : Bytes) : bytesToHex bs = hexText bs := bytesToHex_eq bs

example : bytesToHex [0x2a, 0x00, 0xff] = "2a00ff".toList := by decide +kernel

/-- **C02** Which strings `hex_to_bytes` accepts, and what it returns, for every string `s`
(`utf8ByteSize` is Rust's `str::len`). It returns `Ok(bs)` exactly when `s` is a sequence of
digit pairs denoting `bs`; it reports unpadded hex exactly when the byte length is odd, and
otherwise a bad character; it never panics. -/
theorem C02_hex_decode_exact (s : Str) :
    (∀ bs, hexToBytes s = .ok bs ↔ hexBytes? s = some (bs.map UInt8.toNat)) ∧
    ((String.ofList s).utf8ByteSize % 2 = 1 →
      hexToBytes s = .err (.unpaddedHex s (String.ofList s).utf8ByteSize)) ∧
    ((String.ofList s).utf8ByteSize % 2 = 0 → hexBytes? s = none → hexToBytes s = .err .badChar) ∧
    hexToBytes s ≠ .panic := by
  obtain ⟨h1, h2⟩ := hexToBytes_spec s
  rw [← Str.len_eq_utf8ByteSize]
  refine ⟨hexToBytes_ok_iff s, fun h => (h1 h).1, fun h => (h2 h).2, ?_⟩
  rcases Nat.mod_two_eq_zero_or_one s.len with he | he
  · rcases hb : hexBytes? s with _ | ns
    · rw [(h2 he).2 hb]; simp
    · obtain ⟨bs, h3, _⟩ := (h2 he).1 ns hb
      rw [h3]; simp
  · rw [(h1 he).1]; simp

example : hexToBytes "2A6b".toList = .ok [0x2a, 0x6b] := by decide +kernel
example : hexToBytes "2A6".toList = .err (.unpaddedHex "2A6".toList 3) := by decide +kernel
example : hexToBytes "zé1".toList = .err .badChar ∧ ("zé1" : String).utf8ByteSize = 4 := by
  decide +kernel

/-- **C03** Re-encoding what was decoded lower-cases the string. -/
theorem C03_hex_reencode (s : Str) (bs : Bytes) (h : hexToBytes s = .ok bs) :
    bytesToHex bs = s.map Char.toLower :=
  bytesToHex_of_hexBytes? ((hexToBytes_ok_iff s bs).1 h)

/-- **C03** Two strings decode to the same bytes exactly when the first decodes and they
differ in letter case only. -/
theorem C03_hex_same_bytes (s t : Str) (bs : Bytes) (h : hexToBytes s = .ok bs) :
    hexToBytes t = .ok bs ↔ s.map Char.toLower = t.map Char.toLower := by
  constructor
  · intro ht
    rw [← C03_hex_reencode s bs h, ← C03_hex_reencode t bs ht]
  · intro ht
    have key : ∀ {s t : Str}, s.map Char.toLower = t.map Char.toLower → hexBytes? s = hexBytes? t := by
      intro s
      induction s using hexBytes?.induct with
      | case1 => intro t h; cases t <;> simp at h ⊢
      | case2 a =>
        intro t h
        rcases t with _ | ⟨x, _ | ⟨y, t⟩⟩ <;> simp [hexBytes?] at h ⊢
      | case3 a b rest ih =>
        intro t h
        rcases t with _ | ⟨x, _ | ⟨y, t⟩⟩
        · simp at h
        · simp at h
        · simp only [List.map_cons, List.cons.injEq] at h
          obtain ⟨h1, h2, h3⟩ := h
          simp only [hexBytes?, hexValue, h1, h2, ih h3]
    rw [hexToBytes_ok_iff] at h ⊢
    rw [← key ht, h]

example : hexToBytes "AbCd".toList = .ok [0xab, 0xcd] ∧
    bytesToHex [0xab, 0xcd] = "abcd".toList := by decide +kernel

/-! ## Concrete cases of theorems with hypotheses -/

/-- C03: upper and lower case digits. -/
example := C03_hex_reencode "AbCd".toList [0xab, 0xcd] (by decide +kernel)
example := C03_hex_same_bytes "AbCd".toList "aBcD".toList [0xab, 0xcd] (by decide +kernel)

end Stacks.Hex

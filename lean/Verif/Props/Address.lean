import Verif.Proofs.Address

/-! # Property C126: which strings are addresses -/

namespace Stacks.C32
open Stacks.Spec

section
variable [Hashes]

/-- **C126** `c32_address_decode` reads exactly the addresses, of any version and any number of bytes, and gives the
version and the bytes. -/
theorem C126_read (s : Str) (payload : Bytes) (version : UInt8) :
    c32AddressDecode s = .ok (payload, version) ↔ IsAddress s version payload := decode_iff_isAddress

/-- **C126** `c32_address` writes the one spelling with upper-case digits, for the four versions. -/
theorem C126_written (payload : Bytes) (version : UInt8) (s : Str) :
    c32Address payload version = .ok s ↔ KnownVersion version ∧ s = addressString version payload := address_iff

/-- **C126** `Address::from_str` gives a version and 20 bytes exactly for their addresses. -/
theorem C126_parsed (s : Str) (hash : Arr 20) (version : UInt8) :
    addressFromStr s = .ok ⟨hash, version⟩ ↔ IsAddress s version hash.1 := fromStr_iff

/-- **C126** The addresses of a version and some bytes are the spellings of the one that is written: a first `S`, and
then the same digits, in either case, with `O` for `0` and `I` or `L` for `1`. There is none if the version is not a
digit. -/
theorem C126_spellings (s : Str) (payload : Bytes) (version : UInt8) :
    IsAddress s version payload ↔
      version < 32 ∧ s.head? = some 'S' ∧ c32CanonStr s = addressString version payload := by
  constructor
  · rintro ⟨c, data, rfl, hc, hs⟩
    have h1 := C07_c32_reencode _ _ (decode_spells.2 hs)
    rw [C04_c32_encode_value] at h1
    refine ⟨UInt8.lt_iff_toNat_lt.2 (c32Value_lt hc), rfl, ?_⟩
    show c32Canon 'S' :: c32Canon c :: c32CanonStr data = _
    rw [addressString, c32Char_value_canon hc, show c32Canon 'S' = 'S' from by decide]
    congr 2
    exact (Outcome.ok.inj h1).symm
  · rintro ⟨hv, h0, h⟩
    have hv' : version.toNat < 32 := UInt8.lt_iff_toNat_lt.1 hv
    rcases s with _ | ⟨c0, _ | ⟨c, data⟩⟩
    · cases h0
    · cases h0; cases h
    cases h0
    have h : c32Canon 'S' :: c32Canon c :: c32CanonStr data = _ := h
    rw [addressString] at h
    obtain ⟨-, h⟩ := List.cons.inj h
    obtain ⟨h1, h2⟩ := List.cons.inj h
    have hd : ∀ d, d < 32 → ∀ x, c32Canon x = c32Char d → c32Value x = some d := by
      intro d hd x hx
      have := c32Char_value hd
      have hidem : ∀ d : Fin 32, c32Canon (c32Char d.1) = c32Char d.1 := by decide
      unfold c32Value at this ⊢
      rw [hx]
      rwa [hidem ⟨d, hd⟩] at this
    have hall : ∀ x ∈ data, (c32Value x).isSome := by
      intro x hx
      have hm : c32Canon x ∈ c32CanonStr data := List.mem_map_of_mem hx
      rw [h2] at hm
      rcases List.mem_append.1 hm with hm | hm
      · rw [hd 0 (by omega) x (List.eq_of_mem_replicate hm)]; rfl
      · obtain ⟨d, hd1, hd2⟩ := List.mem_map.1 hm
        rw [hd d (numDigits_lt (by omega) hd1) x hd2.symm]; rfl
    obtain ⟨bs, hbs⟩ := c32Decode_ok_iff.2 hall
    have h3 := C07_c32_reencode _ _ hbs
    have h4 : c32Encode (payload ++ checksum4 (version :: payload)) = .ok (c32CanonStr data) := by
      rw [C04_c32_encode_value, h2]; rfl
    refine ⟨c, data, rfl, hd _ hv' c h1, ?_⟩
    rw [C05_c32_encode_injective _ _ (h4.trans h3.symm)]
    exact decode_spells.1 hbs

/-- **C126** A string is an address of at most one version and sequence of bytes. -/
theorem C126_one_meaning (s : Str) (p q : Bytes) (v w : UInt8) (h : IsAddress s v p) (h' : IsAddress s w q) :
    v = w ∧ p = q := by
  have h1 := decode_iff_isAddress.2 h
  rw [decode_iff_isAddress.2 h'] at h1
  cases h1
  exact ⟨rfl, rfl⟩

end

section
attribute [local instance] Concrete.realHashes

/-- An address. -/
def exText : Str := "SP2J6ZY48GV1EZ5V2V5RB9MP66SW86PYKKNRV9EJ7".toList
/-- Its bytes. -/
def exPayload : Arr 20 := ⟨[0xa4, 0x6f, 0xf8, 0x88, 0x86, 0xc2, 0xef, 0x97, 0x62, 0xd9, 0x70, 0xb4, 0xd2, 0xc6, 0x36,
  0x78, 0x83, 0x5b, 0xd3, 0x9d], rfl⟩

example : IsAddress exText 22 exPayload.1 :=
  (C126_spellings _ _ _).2 ⟨by decide, by decide +kernel, by decide +kernel⟩
-- another spelling of it
example : addressFromStr "Sp2j6zy48gvLez5v2v5rb9mp66sw86pykknrv9ej7".toList = .ok ⟨exPayload, 22⟩ :=
  (C126_parsed _ _ _).2 ((C126_spellings _ _ _).2 ⟨by decide, by decide +kernel, by decide +kernel⟩)
-- the first letter is not a digit: it is upper-case
example (v : UInt8) (p : Bytes) : ¬ IsAddress ('s' :: exText.tail) v p := by
  rw [C126_spellings]; rintro ⟨-, h, -⟩; cases h
-- three bytes, of a version that is not in use, are an address nevertheless, but not one that is written
example : IsAddress (addressString 1 [1, 2, 3]) 1 [1, 2, 3] ∧ ∀ s, c32Address [1, 2, 3] 1 ≠ .ok s :=
  ⟨(C126_spellings _ _ _).2 ⟨by decide, rfl, by decide +kernel⟩, fun s h => by
    rw [C126_written] at h; revert h; simp [KnownVersion]⟩
example : c32Address exPayload.1 22 = .ok exText := (C126_written _ _ _).2 ⟨by decide, by decide +kernel⟩

example := C126_one_meaning exText exPayload.1 exPayload.1 22 22
  ((C126_spellings _ _ _).2 ⟨by decide, by decide +kernel, by decide +kernel⟩)
  ((C126_spellings _ _ _).2 ⟨by decide, by decide +kernel, by decide +kernel⟩)

end

end Stacks.C32

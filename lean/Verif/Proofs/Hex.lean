import Verif.Model.Hex
import Verif.Spec.Hex
import Verif.Proofs.Basic

/-! Helper lemmas for `Verif.Props.Hex`. -/

namespace Stacks.Hex
open Stacks.Spec

/-- All bytes, as a complete finite table. -/
theorem forall_u8 {P : UInt8 → Prop} (h : ∀ n : Fin 256, P (UInt8.ofNat n.1)) (b : UInt8) : P b := by
  have := h ⟨b.toNat, b.toNat_lt⟩
  simpa using this

theorem nibble_hi_lo (b : UInt8) :
    nibble (UInt8.ofNat (digitChar (b.toNat / 16)).toNat) = some (b >>> 4) ∧
    nibble (UInt8.ofNat (digitChar (b.toNat % 16)).toNat) = some (b &&& 15) ∧
    ((b >>> 4) <<< 4 ||| (b &&& 15)) = b ∧
    digitChar (b.toNat / 16) ∈ hexDigits ∧ digitChar (b.toNat % 16) ∈ hexDigits := by
  revert b
  apply forall_u8
  decide +kernel

theorem hexDigits_ascii {c : Char} (h : c ∈ hexDigits) : c.toNat < 128 := by
  revert c; decide +kernel

/-- The nibble of an ASCII character is its hexadecimal value; complete table. -/
theorem nibble_table : ∀ n : Fin 128,
    (nibble (UInt8.ofNat n.1)).map UInt8.toNat = hexValue (Char.ofNat n.1) := by
  decide +kernel

theorem charOfNat_self (c : Char) : Char.ofNat c.toNat = c := Char.ofNat_toNat c

theorem nibble_eq_hexValue {c : Char} (h : c.toNat < 128) :
    (nibble (UInt8.ofNat c.toNat)).map UInt8.toNat = hexValue c := by
  have := nibble_table ⟨c.toNat, h⟩
  simpa [charOfNat_self] using this

theorem nibble_lt {b v : UInt8} (h : nibble b = some v) : v.toNat < 16 := by
  revert v; revert b
  apply forall_u8
  decide +kernel

theorem nibble_nonascii {b : UInt8} (h : 128 ≤ b.toNat) : nibble b = none := by
  revert h; revert b
  apply forall_u8
  decide +kernel

theorem toLower_nonascii {c : Char} (h : 128 ≤ c.toNat) : c.toLower = c := by
  unfold Char.toLower
  rw [dif_neg]
  rintro ⟨_, h2⟩
  have h3 := UInt32.le_iff_toNat_le.1 h2
  have h4 : ('Z'.val).toNat = 90 := rfl
  have h5 : c.toNat = c.val.toNat := rfl
  omega

theorem hexValue_nonascii {c : Char} (h : 128 ≤ c.toNat) : hexValue c = none := by
  unfold hexValue
  rw [toLower_nonascii h, List.idxOf?_eq_none_iff]
  intro hm
  have := hexDigits_ascii hm
  omega

theorem hexValue_ascii {c : Char} {v : Nat} (h : hexValue c = some v) : c.toNat < 128 := by
  by_contra hn
  rw [hexValue_nonascii (by omega)] at h
  cases h

/-- The lower-case digit of a digit's value is the digit itself, lower-cased; complete table. -/
theorem digitChar_table : ∀ n : Fin 128, ∀ v : Fin 16,
    hexValue (Char.ofNat n.1) = some v.1 → digitChar v.1 = (Char.ofNat n.1).toLower := by
  decide +kernel

theorem hexValue_lt {c : Char} {v : Nat} (h : hexValue c = some v) : v < 16 := by
  have h1 := nibble_eq_hexValue (hexValue_ascii h)
  rw [h, Option.map_eq_some_iff] at h1
  obtain ⟨w, hw, rfl⟩ := h1
  exact nibble_lt hw

theorem digitChar_hexValue {c : Char} {v : Nat} (h : hexValue c = some v) :
    digitChar v = c.toLower := by
  have := digitChar_table ⟨c.toNat, hexValue_ascii h⟩ ⟨v, hexValue_lt h⟩
  simpa [charOfNat_self, h] using this

theorem combine_nibbles {hi lo : UInt8} (h1 : hi.toNat < 16) (h2 : lo.toNat < 16) :
    ((hi <<< 4) ||| lo).toNat = 16 * hi.toNat + lo.toNat := by
  have key : ∀ a b : Fin 16, ((UInt8.ofNat a.1 <<< 4) ||| UInt8.ofNat b.1).toNat = 16 * a.1 + b.1 := by
    decide +kernel
  have := key ⟨hi.toNat, h1⟩ ⟨lo.toNat, h2⟩
  simpa using this

theorem hexBytes?_ascii : ∀ {s : Str} {ns : List Nat}, hexBytes? s = some ns →
    ∀ c ∈ s, c.toNat < 128
  | [], _, _, _, hc => by simp at hc
  | [_], _, h, _, _ => by simp [hexBytes?] at h
  | h :: l :: rest, ns, hs, c, hc => by
    simp only [hexBytes?, Option.bind_eq_bind, Option.bind_eq_some_iff] at hs
    obtain ⟨hv, h1, lv, h2, ms, h3, _⟩ := hs
    simp only [List.mem_cons] at hc
    rcases hc with rfl | rfl | hc
    · exact hexValue_ascii h1
    · exact hexValue_ascii h2
    · exact hexBytes?_ascii h3 c hc

/-- The decoding loop on an ASCII string of even length agrees with the specification. -/
theorem decodeLoop_ascii : ∀ {s : Str}, (∀ c ∈ s, c.toNat < 128) → s.length % 2 = 0 →
    (match hexBytes? s with
     | some ns => ∃ bs, decodeLoop (s.map fun c => UInt8.ofNat c.toNat) = .ok bs ∧ bs.map UInt8.toNat = ns
     | none => decodeLoop (s.map fun c => UInt8.ofNat c.toNat) = .err .badChar)
  | [], _, _ => ⟨[], rfl, rfl⟩
  | [_], _, h => by simp at h
  | h :: l :: rest, ha, he => by
    have ih := decodeLoop_ascii (s := rest) (fun c hc => ha c (by simp [hc])) (by simp only [List.length_cons] at he; omega)
    have hh := nibble_eq_hexValue (ha h (by simp))
    have hl := nibble_eq_hexValue (ha l (by simp))
    simp only [List.map_cons, decodeLoop, hexBytes?]
    rcases hn : nibble (UInt8.ofNat h.toNat) with _ | hv
    · rw [hn] at hh; simp at hh; simp [← hh]
    · rw [hn] at hh; simp only [Option.map_some] at hh
      rcases ln : nibble (UInt8.ofNat l.toNat) with _ | lv
      · rw [ln] at hl; simp at hl; simp [← hl]
      · rw [ln] at hl; simp only [Option.map_some] at hl
        simp only [← hh, ← hl, Option.bind_eq_bind, Option.bind_some]
        rcases hb : hexBytes? rest with _ | ns
        · rw [hb] at ih
          simp only at ih
          simp [ih]
        · rw [hb] at ih
          obtain ⟨bs, h1, h2⟩ := ih
          refine ⟨(hv <<< 4 ||| lv) :: bs, by simp [h1], ?_⟩
          simp [h2, combine_nibbles (nibble_lt hn) (nibble_lt ln)]

theorem decodeLoop_bad : ∀ {bs : Bytes}, bs.length % 2 = 0 → (∃ b ∈ bs, nibble b = none) →
    decodeLoop bs = .err .badChar
  | [], _, h => by simp at h
  | [_], h, _ => by simp at h
  | a :: b :: rest, he, ⟨x, hx, hn⟩ => by
    simp only [decodeLoop]
    rcases ha : nibble a with _ | hi
    · rfl
    · rcases hb : nibble b with _ | lo
      · rfl
      · simp only [List.mem_cons] at hx
        rcases hx with rfl | rfl | hx
        · rw [ha] at hn; cases hn
        · rw [hb] at hn; cases hn
        · have := decodeLoop_bad (bs := rest) (by simp only [List.length_cons] at he; omega) ⟨x, hx, hn⟩
          simp [this]

theorem nonascii_bad {s : Str} (h : ¬ ∀ c ∈ s, c.toNat < 128) : ∃ b ∈ s.bytes, nibble b = none := by
  push Not at h
  obtain ⟨c, hc, hn⟩ := h
  obtain ⟨b, hb⟩ := List.exists_mem_of_length_pos (encChar_length_pos c)
  exact ⟨b, List.mem_flatMap.2 ⟨c, hc, hb⟩, nibble_nonascii (encChar_nonascii hn b hb)⟩

theorem hexBytes?_even : ∀ {s : Str} {ns : List Nat}, hexBytes? s = some ns → s.length % 2 = 0
  | [], _, _ => rfl
  | [_], _, h => by simp [hexBytes?] at h
  | h :: l :: rest, ns, hs => by
    simp only [hexBytes?, Option.bind_eq_bind, Option.bind_eq_some_iff] at hs
    obtain ⟨hv, h1, lv, h2, ms, h3, _⟩ := hs
    have := hexBytes?_even h3
    simp only [List.length_cons]; omega

/-- Complete characterisation of `hexToBytes`. -/
theorem hexToBytes_spec (s : Str) :
    (s.len % 2 = 1 → hexToBytes s = .err (.unpaddedHex s s.len) ∧ hexBytes? s = none) ∧
    (s.len % 2 = 0 →
      (∀ ns, hexBytes? s = some ns → ∃ bs, hexToBytes s = .ok bs ∧ bs.map UInt8.toNat = ns) ∧
      (hexBytes? s = none → hexToBytes s = .err .badChar)) := by
  constructor
  · intro h
    refine ⟨by unfold hexToBytes; rw [if_pos (by omega)], ?_⟩
    rcases hb : hexBytes? s with _ | ns
    · rfl
    · have h1 := hexBytes?_even hb
      rw [Str.len_of_ascii (hexBytes?_ascii hb)] at h
      omega
  · intro h
    unfold hexToBytes
    rw [if_neg (by omega)]
    by_cases ha : ∀ c ∈ s, c.toNat < 128
    · have h1 := decodeLoop_ascii ha (by rwa [← Str.len_of_ascii ha])
      rw [Str.bytes_of_ascii ha]
      constructor
      · intro ns hns
        rw [hns] at h1; exact h1
      · intro hns
        rw [hns] at h1; exact h1
    · constructor
      · intro ns hns
        exact absurd (hexBytes?_ascii hns) ha
      · intro _
        exact decodeLoop_bad h (nonascii_bad ha)

theorem map_toNat_injective {as bs : Bytes} (h : as.map UInt8.toNat = bs.map UInt8.toNat) : as = bs :=
  List.map_injective_iff.2 (fun _ _ => UInt8.toNat_inj.1) h

theorem hexToBytes_ok_iff (s : Str) (bs : Bytes) :
    hexToBytes s = .ok bs ↔ hexBytes? s = some (bs.map UInt8.toNat) := by
  obtain ⟨h1, h2⟩ := hexToBytes_spec s
  rcases Nat.mod_two_eq_zero_or_one s.len with he | he
  · obtain ⟨h3, h4⟩ := h2 he
    rcases hb : hexBytes? s with _ | ns
    · rw [h4 hb]; simp
    · obtain ⟨cs, h5, h6⟩ := h3 ns hb
      rw [h5]
      subst h6
      simp only [Outcome.ok.injEq, Option.some.injEq]
      exact ⟨fun h => by rw [h], fun h => map_toNat_injective h⟩
  · obtain ⟨h3, h4⟩ := h1 he
    rw [h3, h4]; simp

/-- `bytes_to_hex` writes the hexadecimal text. -/
theorem bytesToHex_eq (bs : Bytes) : bytesToHex bs = hexText bs := by
  have h : ∀ n : Fin 16, digitChar n.1 = hexDigits.getD n.1 '0' := by decide
  unfold bytesToHex hexText
  congr 1
  funext b
  have := b.toNat_lt
  rw [h ⟨b.toNat / 16, by omega⟩, h ⟨b.toNat % 16, by omega⟩]

theorem hexBytes?_bytesToHex (bs : Bytes) : hexBytes? (bytesToHex bs) = some (bs.map UInt8.toNat) := by
  induction bs with
  | nil => rfl
  | cons b bs ih =>
    obtain ⟨h1, h2, h3, h4, h5⟩ := nibble_hi_lo b
    have e1 := nibble_eq_hexValue (hexDigits_ascii h4)
    have e2 := nibble_eq_hexValue (hexDigits_ascii h5)
    rw [h1] at e1; rw [h2] at e2
    simp only [Option.map_some] at e1 e2
    show hexBytes? (digitChar (b.toNat / 16) :: digitChar (b.toNat % 16) :: bytesToHex bs) = _
    simp only [hexBytes?, ← e1, ← e2, ih, Option.bind_eq_bind, Option.bind_some, List.map_cons]
    rw [← combine_nibbles (nibble_lt h1) (nibble_lt h2), h3]
    rfl

theorem bytesToHex_of_hexBytes? : ∀ {s : Str} {bs : Bytes},
    hexBytes? s = some (bs.map UInt8.toNat) → bytesToHex bs = s.map Char.toLower
  | [], bs, h => by
    simp [hexBytes?] at h; subst h; rfl
  | [_], _, h => by simp [hexBytes?] at h
  | h :: l :: rest, bs, hs => by
    simp only [hexBytes?, Option.bind_eq_bind, Option.bind_eq_some_iff] at hs
    obtain ⟨hv, h1, lv, h2, ms, h3, h4⟩ := hs
    rcases bs with _ | ⟨b, bs⟩
    · simp at h4
    · simp only [List.map_cons, Option.pure_def, Option.some.injEq, List.cons.injEq] at h4
      obtain ⟨h5, h6⟩ := h4
      subst h6
      have ih := bytesToHex_of_hexBytes? h3
      have hlt := hexValue_lt h2
      show digitChar (b.toNat / 16) :: digitChar (b.toNat % 16) :: bytesToHex bs = _
      rw [ih, ← h5, show (16 * hv + lv) / 16 = hv by omega, show (16 * hv + lv) % 16 = lv by omega,
        digitChar_hexValue h1, digitChar_hexValue h2]
      rfl

end Stacks.Hex

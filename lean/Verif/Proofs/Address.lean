import Verif.Spec.Address
import Verif.Spec.Clarity
import Verif.Props.C32

/-! # Addresses: the model and the specification agree -/

namespace Stacks

section
variable {ε α : Type}

/-- A relation that gives the errors of an outcome, and holds of none otherwise, characterises them. -/
theorem fails_iff_of {x : Outcome ε α} {P : ε → Prop} (h1 : ∀ e, P e → x = .err e)
    (h2 : (∃ a, x = .ok a) ∨ x = .panic ∨ ∃ e, P e) (e : ε) : x = .err e ↔ P e := by
  refine ⟨fun h => ?_, h1 e⟩
  rcases h2 with ⟨a, ha⟩ | hp | ⟨e', he⟩
  · rw [h] at ha; cases ha
  · rw [h] at hp; cases hp
  · have := h1 e' he
    rw [h] at this; cases this; exact he

end

end Stacks

namespace Stacks.C32
open Stacks.Spec

theorem decode_spells {s : Str} {bs : Bytes} : c32Decode s = .ok bs ↔ SpellsC32 s bs := by
  constructor
  · intro h
    have ha := c32Decode_ok_iff.1 ⟨bs, h⟩
    obtain ⟨bs', h', hv⟩ := C07_c32_decode_value s ha
    rw [h] at h'; cases h'
    exact ⟨ha, hv⟩
  · rintro ⟨ha, hv⟩
    obtain ⟨bs', h', hv'⟩ := C07_c32_decode_value s ha
    rw [h']
    congr 1
    have hinj : Function.Injective (List.map UInt8.toNat) :=
      List.map_injective_iff.2 (fun a b h => UInt8.toNat_inj.1 h)
    exact hinj (hv'.trans hv.symm)

/-- A string spells no more bytes than it has characters. -/
theorem spells_length {s : Str} {bs : Bytes} (h : SpellsC32 s bs) : bs.length ≤ s.length := by
  have h1 : (rebase 32 256 (s.filterMap c32Value)).length ≤ (s.filterMap c32Value).length :=
    rebase_length_le_of_le (by omega) (by omega) (fun d hd => by
      obtain ⟨c, _, hc⟩ := List.mem_filterMap.1 hd
      exact c32Value_lt hc)
  rw [← h.2, List.length_map] at h1
  exact h1.trans (List.length_filterMap_le _ _)

/-- Every character is a digit, or there is a last one that is not. -/
theorem last_bad (s : Str) : (∀ c ∈ s, (c32Value c).isSome) ∨ ∃ c, LastBad s c := by
  induction s with
  | nil => exact .inl (by simp)
  | cons c s ih =>
    rcases ih with ih | ⟨d, l, r, rfl, h1, h2⟩
    · cases hc : c32Value c with
      | none => exact .inr ⟨c, [], s, rfl, hc, ih⟩
      | some v => exact .inl (by simpa [hc] using ih)
    · exact .inr ⟨d, c :: l, r, rfl, h1, h2⟩

theorem not_ascii {s : Str} (h : ¬ ∃ c ∈ s, 128 ≤ c.toNat) : ∀ x ∈ s, x.toNat < 128 := by
  intro x hx
  by_contra hn
  exact h ⟨x, hx, by omega⟩

theorem decode_err_iff (s : Str) (e : Error) : c32Decode s = .err e ↔ C32Fails s e := by
  obtain ⟨_, h2, h3, _⟩ := C06_c32_decode_exact s
  refine fails_iff_of ?_ ?_ e
  · intro e h
    cases h with
    | notAscii h => exact h2 h
    | badChar ha hb =>
      obtain ⟨l, r, hs, hc, hr⟩ := hb
      exact h3 l _ r hs ha hc hr
  · by_cases ha : ∃ c ∈ s, 128 ≤ c.toNat
    · exact .inr (.inr ⟨_, .notAscii ha⟩)
    · rcases last_bad s with h | ⟨c, h⟩
      · exact .inl (c32Decode_ok_iff.2 h)
      · exact .inr (.inr ⟨_, .badChar (not_ascii ha) h⟩)

variable [Hashes]

theorem isAddress_of_decode {s : Str} {p : Bytes} {v : UInt8} (h : c32AddressDecode s = .ok (p, v)) :
    IsAddress s v p := by
  rcases s with _ | ⟨c0, rest⟩
  · cases h
  by_cases h0 : c0 = 'S'
  swap
  · unfold c32AddressDecode at h
    split at h
    · next heq => cases heq; exact absurd rfl h0
    · cases h
  subst h0
  unfold c32AddressDecode at h
  simp only [] at h
  split at h
  · cases h
  rename_i hlen
  rcases rest with _ | ⟨c, data⟩
  · cases h
  by_cases ha : ∀ x ∈ c :: data, x.toNat < 128
  swap
  · rw [c32checkDecode_nonascii ha] at h; cases h
  rcases hd : c32Decode data with dec | e | _
  · rw [c32checkDecode_cons (ha c (List.mem_cons_self ..)) hd] at h
    split at h
    · cases h
    rename_i h4
    rcases hc : c32Value c with _ | w
    · rw [hc] at h; cases h
    rw [hc] at h
    simp only [] at h
    split at h
    · rename_i hk
      cases h
      have hw : (UInt8.ofNat w).toNat = w := by
        have := c32Value_lt hc
        rw [UInt8.toNat_ofNat']; omega
      refine ⟨c, data, rfl, by rw [hw]; exact hc, decode_spells.1 ?_⟩
      rw [hd, hk, List.take_append_drop]
    · cases h
  · rw [c32checkDecode_dataErr ha hd] at h; cases h
  · exact absurd hd (c32Decode_not_panic data)

theorem decode_of_isAddress {s : Str} {p : Bytes} {v : UInt8} (h : IsAddress s v p) :
    c32AddressDecode s = .ok (p, v) := by
  obtain ⟨c, data, rfl, hc, hs⟩ := h
  have hlen := spells_length hs
  rw [List.length_append, checksum4_length] at hlen
  have hall : ∀ x ∈ 'S' :: c :: data, x.toNat < 128 := by
    intro x hx
    rcases List.mem_cons.1 hx with rfl | hx
    · decide
    · rcases List.mem_cons.1 hx with rfl | hx
      · exact c32Value_ascii hc
      · exact ascii_of_c32 hs.1 x hx
  show (if _ then _ else _) = _
  rw [Str.len_of_ascii hall, if_neg (by simp only [List.length_cons]; omega)]
  have := (C09_c32check_checksum_decides c v.toNat data p _ hc
    (decode_spells.2 (by rw [UInt8.ofNat_toNat]; exact hs)) (checksum4_length _)).1 rfl
  rwa [UInt8.ofNat_toNat] at this

/-- The addresses that are read. -/
theorem decode_iff_isAddress {s : Str} {p : Bytes} {v : UInt8} :
    c32AddressDecode s = .ok (p, v) ↔ IsAddress s v p := ⟨isAddress_of_decode, decode_of_isAddress⟩

theorem spells_of_address {s : Str} {p : Bytes} {v : UInt8} (h : c32AddressDecode s = .ok (p, v)) :
    SpellsAddress s p := ⟨v, isAddress_of_decode h⟩

theorem address_of_spells {s : Str} {p : Bytes} (h : SpellsAddress s p) : ∃ v, c32AddressDecode s = .ok (p, v) :=
  h.imp fun _ => decode_of_isAddress

/-- The addresses that are written. -/
theorem address_iff {s : Str} {p : Bytes} {v : UInt8} :
    c32Address p v = .ok s ↔ KnownVersion v ∧ s = addressString v p := by
  by_cases hv : KnownVersion v
  · have h32 : v < 32 := by rcases hv with rfl | rfl | rfl | rfl <;> decide
    have hm : ¬ v ∉ ([22, 26, 20, 21] : List UInt8) := by
      rcases hv with rfl | rfl | rfl | rfl <;> decide
    unfold c32Address
    rw [if_neg hm, C08_c32check_shape p v h32, C04_c32_encode_value]
    simp only [Outcome.ok_bind, Outcome.pure_def, Outcome.ok.injEq, hv, true_and]
    exact eq_comm
  · rw [(C10_c32_address_versions p v).2 hv]
    simp [hv]

theorem fromStr_iff {s : Str} {h : Arr 20} {v : UInt8} :
    addressFromStr s = .ok ⟨h, v⟩ ↔ IsAddress s v h.1 := by
  rw [← decode_iff_isAddress]
  obtain ⟨h1, h2, h3⟩ := C12_address_from_str s
  constructor
  · intro he
    rcases hd : c32AddressDecode s with ⟨p, w⟩ | e | _
    · by_cases hl : p.length = 20
      · rw [h2 p w hl hd] at he; cases he; rfl
      · rw [h3.2 ⟨p, w, hd, hl⟩] at he; cases he
    · rw [h1 e hd] at he; cases he
    · exact absurd hd (C11_c32_address_decode_no_panic s)
  · intro hd
    rw [h2 h.1 v h.2 hd]

theorem denotes_iff {a : Str} : DenotesAddress a ↔ ∃ r, c32AddressDecode a = .ok r := by
  constructor
  · rintro ⟨v, p, h⟩; exact ⟨_, decode_of_isAddress h⟩
  · rintro ⟨⟨p, v⟩, h⟩; exact ⟨v, p, isAddress_of_decode h⟩

theorem canonical_iff {a : Str} : CanonicalAddress a ↔ ∃ (hash : Arr 20) (v : UInt8), c32Address hash.1 v = .ok a := by
  simp only [CanonicalAddress, address_iff]

theorem addrBytes_of_isAddress {a : Str} {p : Bytes} {v : UInt8} (h : IsAddress a v p) : addrBytes a = v :: p := by
  obtain ⟨c, data, rfl, hc, _, hs⟩ := h
  have h4 : (checksum4 (v :: p)).length = 4 := checksum4_length _
  rw [addrBytes, hc, ← hs]
  simp only [List.length_map, List.length_append, h4, Nat.add_sub_cancel, Option.toList, List.map_append,
    List.map_cons, List.map_nil, UInt8.ofNat_toNat]
  rw [List.take_append_of_le_length (by simp), List.take_of_length_le (by simp)]
  simp [Function.comp_def]

theorem fromStr_panic_iff (s : Str) : addressFromStr s = .panic ↔ ∃ p, SpellsAddress s p ∧ p.length ≠ 20 := by
  rw [(C12_address_from_str s).2.2]
  constructor
  · rintro ⟨p, v, h, hl⟩; exact ⟨p, spells_of_address h, hl⟩
  · rintro ⟨p, h, hl⟩
    obtain ⟨v, hv⟩ := address_of_spells h
    exact ⟨p, v, hv, hl⟩

theorem fromStr_ok_iff (s : Str) : (∃ a, addressFromStr s = .ok a) ↔ ∃ p, SpellsAddress s p ∧ p.length = 20 := by
  constructor
  · rintro ⟨a, h⟩
    rcases hd : c32AddressDecode s with ⟨p, v⟩ | e | _
    · refine ⟨p, spells_of_address hd, ?_⟩
      by_contra hl
      rw [(C12_address_from_str s).2.2.2 ⟨p, v, hd, hl⟩] at h; cases h
    · rw [(C12_address_from_str s).1 e hd] at h; cases h
    · exact absurd hd (C11_c32_address_decode_no_panic s)
  · rintro ⟨p, h, hl⟩
    obtain ⟨v, hv⟩ := address_of_spells h
    exact ⟨_, (C12_address_from_str s).2.1 p v hl hv⟩

theorem checkDecode_err_iff (s : Str) (e : Error) : c32checkDecode s = .err e ↔ C32CheckFails s e := by
  refine fails_iff_of ?_ ?_ e
  · intro e h
    cases h with
    | notAscii h =>
      obtain ⟨c, hc, hn⟩ := h
      exact c32checkDecode_nonascii (fun h => by have := h c hc; omega)
    | badChar ha hb =>
      exact c32checkDecode_dataErr ha
        ((decode_err_iff _ _).2 (.badChar (fun x hx => ha x (List.mem_cons_of_mem _ hx)) hb))
    | short hv hs hl => rw [c32checkDecode_cons hv (decode_spells.2 hs), if_pos hl]
    | version hv hs hl hn => rw [c32checkDecode_cons hv (decode_spells.2 hs), if_neg (by omega), hn]
    | checksum hv hs hl hc hne =>
      obtain ⟨k, hk, h⟩ := (C09_c32check_checksum_decides _ _ _ _ _ hv (decode_spells.2 hs) hl).2 (hc ▸ hne)
      rw [h]
      congr 2
      exact Subtype.ext (hk.trans hc.symm)
  · rcases s with _ | ⟨v, data⟩
    · exact .inr (.inl rfl)
    by_cases ha : ∃ c ∈ v :: data, 128 ≤ c.toNat
    · exact .inr (.inr ⟨_, .notAscii ha⟩)
    replace ha := not_ascii ha
    have hv := ha v (List.mem_cons_self ..)
    rcases last_bad data with h | ⟨c, h⟩
    swap
    · exact .inr (.inr ⟨_, .badChar ha h⟩)
    obtain ⟨bs, hb⟩ := c32Decode_ok_iff.2 h
    by_cases hl : bs.length < 4
    · exact .inr (.inr ⟨_, .short hv (decode_spells.1 hb) hl⟩)
    cases hc : c32Value v with
    | none => exact .inr (.inr ⟨_, .version hv (decode_spells.1 hb) (by omega) hc⟩)
    | some n =>
      have hcut : bs = bs.take (bs.length - 4) ++ bs.drop (bs.length - 4) := (List.take_append_drop _ _).symm
      have h4 : (bs.drop (bs.length - 4)).length = 4 := by rw [List.length_drop]; omega
      have hd : c32Decode data = .ok (bs.take (bs.length - 4) ++ bs.drop (bs.length - 4)) := by rw [← hcut]; exact hb
      by_cases hk : bs.drop (bs.length - 4) = checksum4 (UInt8.ofNat n :: bs.take (bs.length - 4))
      · exact .inl ⟨_, (C09_c32check_checksum_decides v n data _ _ hc hd h4).1 hk⟩
      · exact .inr (.inr ⟨_, .checksum (computed := ⟨checksum4 _, checksum4_length _⟩) hc
          (decode_spells.1 hd) h4 rfl hk⟩)

theorem address_err_iff (s : Str) (e : Error) : c32AddressDecode s = .err e ↔ AddressFails s e := by
  by_cases hs : s.head? ≠ some 'S' ∨ (String.ofList s).utf8ByteSize ≤ 5
  · rw [C11_c32_address_decode_badAddress s hs]
    constructor
    · intro h; cases h; exact .shape hs
    · intro h
      cases h with
      | shape _ => rfl
      | check h _ =>
        rcases hs with hs | hs
        · exact absurd rfl hs
        · omega
  · have h0 : s.head? = some 'S' := not_not.1 (fun h => hs (.inl h))
    obtain ⟨r, rfl⟩ : ∃ r, s = 'S' :: r := by
      cases s with
      | nil => cases h0
      | cons c r => cases h0; exact ⟨r, rfl⟩
    have hl : 5 < (String.ofList ('S' :: r)).utf8ByteSize := by
      by_contra h; exact hs (.inr (by omega))
    have heq : c32AddressDecode ('S' :: r) = c32checkDecode r := by
      unfold c32AddressDecode
      simp only []
      rw [if_neg]
      rw [Str.len_eq_utf8ByteSize]
      omega
    rw [heq, checkDecode_err_iff]
    constructor
    · exact fun h => .check hl h
    · intro h
      cases h with
      | shape h => exact absurd h hs
      | check _ h => exact h

theorem fromStr_err_iff (s : Str) (e : Error) : addressFromStr s = .err e ↔ AddressFails s e := by
  rw [← address_err_iff]
  obtain ⟨h1, h2, h3⟩ := C12_address_from_str s
  refine ⟨fun h => ?_, h1 e⟩
  rcases hd : c32AddressDecode s with ⟨p, v⟩ | e' | _
  · by_cases hl : p.length = 20
    · rw [h2 p v hl hd] at h; cases h
    · rw [h3.2 ⟨p, v, hd, hl⟩] at h; cases h
  · rw [h1 e' hd] at h; cases h; rfl
  · exact absurd hd (C11_c32_address_decode_no_panic s)

theorem c32Address_err_iff (b : Bytes) (v : UInt8) (e : Error) :
    c32Address b v = .err e ↔ ¬ KnownVersion v ∧ e = .unknownAddressVersion v := by
  by_cases h : KnownVersion v
  · obtain ⟨s, hs⟩ := (C10_c32_address_versions b v).1 h
    rw [hs]; simp [h]
  · rw [(C10_c32_address_versions b v).2 h]
    simp [h, eq_comm]

end Stacks.C32

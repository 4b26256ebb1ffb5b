import Verif.Spec.Failures
import Verif.Proofs.Panics
import Verif.Props.Hex
import Verif.Props.ClarityErrors
import Verif.Props.Payload

/-! # When the calls report errors -/

namespace Stacks
open Stacks.Spec

section
variable {ε ε' α β : Type}

theorem ok_err_iff (x : Outcome ε α) (f : α → β) (e : ε) : (x >>= fun a => .ok (f a)) = .err e ↔ x = .err e := by
  cases x <;> simp

theorem mapErr_err_iff (x : Outcome ε α) (f : ε → ε') (e : ε') : x.mapErr f = .err e ↔ ∃ e', x = .err e' ∧ e = f e' := by
  cases x <;> simp [eq_comm]

theorem ofExcept_err_iff (f : ε → ε') (x : Except ε α) (e : ε') :
    ofExcept f x = .err e ↔ ∃ e', x = .error e' ∧ e = f e' := by
  cases x <;> simp [ofExcept, eq_comm]

end

end Stacks

namespace Stacks.C32
open Stacks.Spec

variable [Hashes]

theorem checkEncode_no_err (b : Bytes) (v : UInt8) (e : Error) : c32checkEncode b v ≠ .err e := by
  by_cases h : 32 ≤ v
  · rw [C08_c32check_encode_panics b v h]; simp
  · obtain ⟨s, _, hs⟩ := c32checkEncode_eq b (version := v) (by rw [UInt8.le_iff_toNat_le] at h; exact Nat.lt_of_not_le h)
    rw [hs]; simp

theorem hash_no_err [Secp] {ε : Type} (m : UInt8) (ks : List Secp.PK) (e : ε) :
    (hashP2sh m ks : Outcome ε (Arr 20)) ≠ .err e ∧ (hashP2wsh m ks : Outcome ε (Arr 20)) ≠ .err e := by
  have h : (multisigScript m ks : Outcome ε Bytes) ≠ .err e := by
    unfold multisigScript addU8
    split
    · rw [Outcome.ok_bind]
      split
      · rw [Outcome.ok_bind]; simp
      · simp
    · simp
  unfold hashP2sh hashP2wsh
  constructor <;> (cases hm : (multisigScript m ks : Outcome ε Bytes) with
    | ok b => rw [Outcome.ok_bind]; simp
    | err e' => rw [Outcome.err_bind]; intro h'; cases h'; exact h hm
    | panic => simp)

end Stacks.C32

namespace Stacks.B58
open Stacks.Spec

theorem decode_err_iff (s : Str) (e : Error) : b58Decode s = .err e ↔ B58Fails s e := by
  refine fails_iff_of ?_ ?_ e
  · intro e h
    cases h with
    | badChar hl hc hn => exact (C15_b58_decode_bad _ _ _ hl hc).1 hn
  · rcases first_bad s with h | ⟨l, c, r, rfl, hl, hc⟩
    · obtain ⟨bs, hb, _⟩ := C15_b58_decode_value s h
      exact .inl ⟨bs, hb⟩
    · by_cases hn : c.toNat < 0x100
      · exact .inr (.inr ⟨_, .badChar hl hc hn⟩)
      · exact .inr (.inl ((C15_b58_decode_bad _ _ _ hl hc).2 (by omega)))

variable [Hashes]

theorem check_err_iff (s : Str) (e : Error) : base58checkDecode s = .err e ↔
    B58Fails s e ∨ ∃ v data given, SpellsB58 s (v :: (data ++ given)) ∧ given.length = 4 ∧
      given ≠ checksum4 (v :: data) ∧
      e = .badChecksum (debugBytes given) (debugBytes (Hashes.sha256 (Hashes.sha256 (v :: data)).1).1) := by
  obtain ⟨h1, h2⟩ := C17_base58check_decode_exact s
  refine fails_iff_of (P := fun e => B58Fails s e ∨ ∃ v data given, SpellsB58 s (v :: (data ++ given)) ∧
    given.length = 4 ∧ given ≠ checksum4 (v :: data) ∧
      e = .badChecksum (debugBytes given) (debugBytes (Hashes.sha256 (Hashes.sha256 (v :: data)).1).1)) ?_ ?_ e
  · rintro e (h | ⟨v, data, given, hs, hl, hne, rfl⟩)
    · exact h2 e ((decode_err_iff s e).2 h)
    · rw [h1 v data given hl (decode_spells.2 hs), if_neg hne]; rfl
  · by_cases hp : base58checkDecode s = .panic
    · exact .inr (.inl hp)
    rw [C17_base58check_decode_panics] at hp
    rcases hd : b58Decode s with bs | e' | _
    · have hl : 5 ≤ bs.length := by
        by_contra hl; exact hp (.inr ⟨bs, hd, by omega⟩)
      rcases bs with _ | ⟨v, rest⟩
      · simp at hl
      have hr : 4 ≤ rest.length := by simpa using hl
      have hcut : rest = rest.take (rest.length - 4) ++ rest.drop (rest.length - 4) := (List.take_append_drop _ _).symm
      have h4 : (rest.drop (rest.length - 4)).length = 4 := by rw [List.length_drop]; omega
      have hd' : b58Decode s = .ok (v :: (rest.take (rest.length - 4) ++ rest.drop (rest.length - 4))) := by
        rw [← hcut]; exact hd
      by_cases hk : rest.drop (rest.length - 4) = checksum4 (v :: rest.take (rest.length - 4))
      · exact .inl ⟨_, (h1 v _ _ h4 hd').trans (if_pos hk)⟩
      · exact .inr (.inr ⟨_, .inr ⟨v, _, _, decode_spells.1 hd', h4, hk, rfl⟩⟩)
    · exact .inr (.inr ⟨e', .inl ((decode_err_iff s e').1 hd)⟩)
    · exact absurd (.inl hd) hp

theorem checkEncode_no_err (b : Bytes) (v : UInt8) (e : Error) : base58checkEncode b v ≠ .err e := by
  unfold base58checkEncode
  simp only []
  have : ∃ c, (slice (dsha256Hash ([v] ++ b)).1 0 4 : Outcome Error Bytes) = .ok c := by
    unfold slice
    rw [if_pos ⟨by omega, by rw [(dsha256Hash ([v] ++ b)).2]; omega⟩]
    exact ⟨_, rfl⟩
  obtain ⟨c, hc⟩ := this
  rw [hc, Outcome.ok_bind]
  obtain ⟨s, hs⟩ := C13_b58_encode_total ([v] ++ b ++ c)
  rw [hs]; simp

end Stacks.B58

namespace Stacks
open Stacks.Spec Stacks.Clarity

theorem hexValue_lt {c : Char} {v : Nat} (h : hexValue c = some v) : v < 16 := by
  have h := List.idxOf?_eq_some_iff.1 h
  exact h.1

theorem hexBytes_lt : ∀ {s : Str} {ns : List Nat}, hexBytes? s = some ns → ∀ n ∈ ns, n < 256
  | [], ns, h => by cases h; simp
  | [_], _, h => by simp [hexBytes?] at h
  | a :: b :: rest, ns, h => by
    simp only [hexBytes?, Option.bind_eq_bind, Option.bind_eq_some_iff] at h
    obtain ⟨x, hx, y, hy, ms, hm, h⟩ := h
    cases h
    intro n hn
    rcases List.mem_cons.1 hn with rfl | hn
    · have := hexValue_lt hx
      have := hexValue_lt hy
      omega
    · exact hexBytes_lt hm n hn

theorem hexToBytes_err_iff (s : Str) (e : Hex.Error) : Hex.hexToBytes s = .err e ↔
    ((String.ofList s).utf8ByteSize % 2 = 1 ∧ e = .unpaddedHex s (String.ofList s).utf8ByteSize) ∨
    ((String.ofList s).utf8ByteSize % 2 = 0 ∧ hexBytes? s = none ∧ e = .badChar) := by
  obtain ⟨h1, h2, h3, h4⟩ := Hex.C02_hex_decode_exact s
  refine fails_iff_of (P := fun e =>
    ((String.ofList s).utf8ByteSize % 2 = 1 ∧ e = .unpaddedHex s (String.ofList s).utf8ByteSize) ∨
    ((String.ofList s).utf8ByteSize % 2 = 0 ∧ hexBytes? s = none ∧ e = .badChar)) ?_ ?_ e
  · rintro e (⟨h, rfl⟩ | ⟨h, hn, rfl⟩)
    · exact h2 h
    · exact h3 h hn
  · rcases hx : Hex.hexToBytes s with bs | e' | _
    · exact .inl ⟨bs, rfl⟩
    · refine .inr (.inr ⟨e', ?_⟩)
      by_cases hp : (String.ofList s).utf8ByteSize % 2 = 1
      · rw [h2 hp] at hx; cases hx; exact .inl ⟨hp, rfl⟩
      · have hp' : (String.ofList s).utf8ByteSize % 2 = 0 := by omega
        cases hb : hexBytes? s with
        | none => rw [h3 hp' hb] at hx; cases hx; exact .inr ⟨hp', rfl, rfl⟩
        | some ns =>
          exfalso
          have hlt := hexBytes_lt hb
          have : (ns.map UInt8.ofNat).map UInt8.toNat = ns := by
            rw [List.map_map]
            conv => rhs; rw [← List.map_id ns]
            apply List.map_congr_left
            intro n hn
            simp [Nat.mod_eq_of_lt (hlt n hn)]
          have := (h1 (ns.map UInt8.ofNat)).2 (by rw [hb, this])
          rw [hx] at this; cases this
    · exact .inr (.inl rfl)

theorem copy_no_err {ε : Type} (n : Nat) (b : Bytes) (e : ε) : (copyFromSlice n b : Outcome ε (Arr n)) ≠ .err e := by
  unfold copyFromSlice
  split <;> simp

theorem cast_err_iff (k : Kind) (v : CV) (e : Clarity.Error) : v.cast k = .err e ↔ v.kind ≠ k ∧ e = .badDowncast := by
  rcases C32_cast_cases k v with ⟨hk, x, hx, _⟩ | ⟨hk, hx⟩
  · rw [hx]; simp [hk]
  · rw [hx]; simp [hk, eq_comm]

theorem checksum_no_err {ε : Type} (h : Arr 32) (e : ε) : (HashValue.checksum h : Outcome ε (Arr 4)) ≠ .err e := by
  unfold HashValue.checksum slice copyFromSlice
  rw [if_pos ⟨by omega, by rw [h.2]; omega⟩, Outcome.ok_bind, dif_pos (by simp [h.2])]
  simp

end Stacks

namespace Stacks.Clarity
open Stacks.Spec

variable [Hashes]

theorem kind_own_err {k : Kind} {t : UInt8} (r : Bytes) (h : identifierOf k = some t) (e : Error) :
    decodeKind k (t :: r) = .err e ↔ DecodeFails (t :: r) e := by
  obtain ⟨a0, a1, a2, a3, a4, a5, a6, a7, a8, a9, aa, ab, ac, ad, ae⟩ := C27_typed_decoders_agree r
  rw [← decode_err_iff]
  cases k <;> cases h <;> unfold decodeKind <;> simp only [ok_err_iff, *]

theorem kind_other_err {k : Kind} {i t : UInt8} (r : Bytes) (h : identifierOf k = some i) (hne : t ≠ i)
    (hu : k ≠ .strUtf8) : decodeKind k (t :: r) = .err (.badIdentifier i t) := by
  obtain ⟨a0, a1, a2, a3, a4, a5, a6, a7, a8, a9, aa, ab, ac, ad⟩ := C27_typed_decoders_check_identifier t r
  cases k <;> cases h <;> unfold decodeKind <;>
    first | exact absurd rfl hu | (simp only [hne, ne_eq, not_false_iff, true_imp_iff] at *; simp only [*, Outcome.err_bind])

omit [Hashes] in
theorem lps_err_iff (b : Bytes) (e : Error) : lpsDecode b = .err e ↔
    ∃ n r, b = [UInt8.ofNat n.length] ++ n ++ r ∧ n.length < 256 ∧ NotUtf8 n ∧ e = .tryFromUtf8 := by
  constructor
  · intro h
    rcases Tx.lps_cases b with h' | ⟨n, r, h1, h2, h3, h'⟩ | ⟨s, r, h1, h2, h'⟩ <;> rw [h'] at h <;> cases h
    exact ⟨n, r, h3, h1, h2, rfl⟩
  · rintro ⟨n, r, rfl, h1, h2, rfl⟩
    exact Tx.lpsDecode_notUtf8 h1 h2

theorem len_err_iff (v : CV) (e : Error) : v.len = .err e ↔ EncodeFails v e :=
  (ok_err_iff _ _ _).trans (C70_encode_error_exact v e)

theorem hex_err_iff (v : CV) (e : Error) : v.hex = .err e ↔ EncodeFails v e :=
  (ok_err_iff _ _ _).trans (C70_encode_error_exact v e)

theorem hexPrefixed_err_iff (v : CV) (e : Error) : v.hexPrefixed = .err e ↔ EncodeFails v e :=
  (ok_err_iff _ _ _).trans (hex_err_iff v e)

end Stacks.Clarity

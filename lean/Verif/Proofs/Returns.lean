import Verif.Proofs.FailuresRpc
import Verif.Props.Failures
import Verif.Spec.Returns

/-! # What calls return: lemmas -/

namespace Stacks
open Stacks.Spec

section
variable [Secp] [Bip] [Rpc.Http] {ε α : Type}

theorem shown_ok_iff (o : Outcome ε α) (f : ε → ApiError) (g : α → ApiValue) (y : ApiValue) :
    o.shown f g = .ok y ↔ ∃ a, o = .ok a ∧ y = g a := by
  cases o <;> simp [Outcome.shown, eq_comm]

theorem shown_err_iff (o : Outcome ε α) (f : ε → ApiError) (g : α → ApiValue) (x : ApiError) :
    o.shown f g = .err x ↔ o.Fails f x := by
  cases o <;> simp [Outcome.shown, Outcome.Fails, eq_comm]

theorem shown_id_err_iff (o : Outcome ApiError α) (g : α → ApiValue) (x : ApiError) :
    o.shown id g = .err x ↔ o = .err x := by
  cases o <;> simp [Outcome.shown]

theorem shown_panic_iff (o : Outcome ε α) (f : ε → ApiError) (g : α → ApiValue) :
    o.shown f g = .panic ↔ o = .panic := by
  cases o <;> simp [Outcome.shown]

end

/-- What is returned, from what is returned for sure and what covers all cases. -/
theorem ok_iff_of {ε α : Type} {o : Outcome ε α} {P : α → Prop} (h1 : ∀ a, P a → o = .ok a)
    (h2 : ∀ a, o = .ok a → ∃ b, P b) (a : α) : o = .ok a ↔ P a := by
  refine ⟨fun h => ?_, h1 a⟩
  obtain ⟨b, hb⟩ := h2 a h
  have := h1 b hb
  rw [h] at this; cases this; exact hb

theorem copy_ok_iff {ε : Type} (n : Nat) (b : Bytes) (a : Arr n) :
    (copyFromSlice n b : Outcome ε (Arr n)) = .ok a ↔ a.1 = b := by
  unfold copyFromSlice
  split
  · constructor
    · intro h; cases h; rfl
    · intro h; congr 1; exact Subtype.ext h.symm
  · rename_i h
    exact iff_of_false (by simp) (fun h' => h (by rw [← h', a.2]))

theorem ofExcept_ok_iff {ε ε' α : Type} (f : ε → ε') (x : Except ε α) (a : α) :
    ofExcept f x = .ok a ↔ x = .ok a := by
  cases x <;> simp [ofExcept]

theorem checksum_ok_iff {ε : Type} (h : Arr 32) (c : Arr 4) :
    (HashValue.checksum h : Outcome ε (Arr 4)) = .ok c ↔ c.1 = h.1.take 4 := by
  unfold HashValue.checksum slice
  rw [if_pos ⟨by omega, by rw [h.2]; omega⟩, Outcome.ok_bind]
  exact copy_ok_iff 4 _ c

theorem checksum_ne_panic {ε : Type} (h : Arr 32) : (HashValue.checksum h : Outcome ε (Arr 4)) ≠ .panic := by
  have : (HashValue.checksum h : Outcome ε (Arr 4)) = .ok ⟨h.1.take 4, by simp [h.2]⟩ := (checksum_ok_iff h _).2 rfl
  rw [this]; simp

section
variable [Secp]

theorem fromSlice_ok_iff (b : Bytes) (s : Arr 65) : messageSigFromSlice b = .ok s ↔ s.1 = b := by
  by_cases h : b.length = 65
  · rw [(C19_message_signature_from_slice b).1 h]
    constructor
    · intro h; cases h; rfl
    · intro h; congr 1; exact Subtype.ext h.symm
  · rw [(C19_message_signature_from_slice b).2 h]
    exact iff_of_false (by simp) (fun h' => h (by rw [← h', s.2]))

end

end Stacks

namespace Stacks.C32
open Stacks.Spec

section
variable [Hashes]

omit [Hashes] in
theorem c32Text_eq (b : Bytes) : c32Encode b = .ok (c32Text b) := C04_c32_encode_value b

theorem checkEncode_ok_iff (b : Bytes) (v : UInt8) (s : Str) : c32checkEncode b v = .ok s ↔
    v < 32 ∧ s = c32Char v.toNat :: c32Text (b ++ checksum4 (v :: b)) := by
  by_cases h : v < 32
  · rw [C08_c32check_shape b v h, c32Text_eq, Outcome.ok_bind]
    simp [h, eq_comm]
  · rw [(checkEncode_panic_iff b v).2 (UInt8.not_lt.1 h)]
    simp [h]

theorem checkDecode_ok_iff (s : Str) (b : Bytes) (v : UInt8) : c32checkDecode s = .ok (b, v) ↔
    ∃ c data, s = c :: data ∧ c32Value c = some v.toNat ∧ SpellsC32 data (b ++ checksum4 (v :: b)) := by
  constructor
  · intro h
    rcases s with _ | ⟨c, data⟩
    · cases h
    by_cases ha : ∀ x ∈ c :: data, x.toNat < 128
    swap
    · rw [c32checkDecode_nonascii ha] at h; cases h
    rcases hd : c32Decode data with dec | e | _
    · rw [c32checkDecode_cons (ha c (List.mem_cons_self ..)) hd] at h
      split at h
      · cases h
      rcases hc : c32Value c with _ | w
      · rw [hc] at h; cases h
      rw [hc] at h
      simp only [] at h
      split at h
      · rename_i hk
        cases h
        have hw : (UInt8.ofNat w).toNat = w := by
          have := c32Value_lt hc
          rw [UInt8.toNat_ofNat']; omega
        refine ⟨c, data, rfl, by rw [hw]; exact hc, decode_spells.1 ?_⟩
        rw [hd, hk, List.take_append_drop]
      · cases h
    · rw [c32checkDecode_dataErr ha hd] at h; cases h
    · exact absurd hd (c32Decode_not_panic data)
  · rintro ⟨c, data, rfl, hc, hs⟩
    have := (C09_c32check_checksum_decides c v.toNat data b _ hc
      (decode_spells.2 (by rw [UInt8.ofNat_toNat]; exact hs)) (checksum4_length _)).1 rfl
    rwa [UInt8.ofNat_toNat] at this

theorem hash_ok_iff [Secp] {ε : Type} (m : UInt8) (ks : List Secp.PK) (h : Arr 20) :
    ((hashP2sh m ks : Outcome ε (Arr 20)) = .ok h ↔
      m.toNat ≤ 175 ∧ ks.length % 256 ≤ 175 ∧ scriptSigner .p2sh m.toNat ks = some h) ∧
    ((hashP2wsh m ks : Outcome ε (Arr 20)) = .ok h ↔
      m.toNat ≤ 175 ∧ ks.length % 256 ≤ 175 ∧ scriptSigner .p2wsh m.toNat ks = some h) := by
  have e1 := Tx.C75_multi_new_exact (ε := ε) ks 0 0 m .p2sh
  have e2 := Tx.C75_multi_new_exact (ε := ε) ks 0 0 m .p2wsh
  unfold Tx.MultiSig.new at e1 e2
  simp only [scriptSigner] at e1 e2 ⊢
  constructor
  · by_cases hb : m.toNat ≤ 175 ∧ ks.length % 256 ≤ 175
    · rw [if_pos hb] at e1
      cases hh : (hashP2sh m ks : Outcome ε (Arr 20)) with
      | ok x => rw [hh] at e1; simp at e1; simp [hb, e1]
      | err x => rw [hh] at e1; simp at e1
      | panic => rw [hh] at e1; simp at e1
    · rw [(hash_panic_iff m ks).1.2 (by omega)]
      exact iff_of_false (by simp) (fun h => hb ⟨h.1, h.2.1⟩)
  · by_cases hb : m.toNat ≤ 175 ∧ ks.length % 256 ≤ 175
    · rw [if_pos hb] at e2
      cases hh : (hashP2wsh m ks : Outcome ε (Arr 20)) with
      | ok x => rw [hh] at e2; simp at e2; simp [hb, e2]
      | err x => rw [hh] at e2; simp at e2
      | panic => rw [hh] at e2; simp at e2
    · rw [(hash_panic_iff m ks).2.2 (by omega)]
      exact iff_of_false (by simp) (fun h => hb ⟨h.1, h.2.1⟩)

end

end Stacks.C32

namespace Stacks.B58
open Stacks.Spec

theorem b58Text_eq (b : Bytes) : b58Encode b = .ok (b58Text b) := by
  unfold b58Text
  split
  · rename_i h
    obtain ⟨hne, h0⟩ := h
    have hr : b = List.replicate b.length 0 := List.eq_replicate_iff.2 ⟨rfl, h0⟩
    have := C13_b58_encode_zeros b.length (List.length_pos_iff.2 hne)
    rw [← hr] at this; exact this
  · rename_i h
    refine C13_b58_encode_value b ?_
    by_cases hb : b = []
    · exact .inl hb
    · refine .inr ?_
      by_contra hn
      push Not at hn
      exact h ⟨hb, hn⟩

section
variable [Hashes]

theorem checkEncode_eq (b : Bytes) (v : UInt8) :
    base58checkEncode b v = .ok (b58Text (v :: (b ++ checksum4 (v :: b)))) := by
  unfold base58checkEncode slice
  simp only []
  rw [if_pos ⟨by omega, by rw [(dsha256Hash ([v] ++ b)).2]; omega⟩, Outcome.ok_bind, b58Text_eq]
  rfl

theorem checkDecode_ok_iff (s : Str) (b : Bytes) (v : UInt8) : base58checkDecode s = .ok (b, v) ↔
    SpellsB58 s (v :: (b ++ checksum4 (v :: b))) := by
  obtain ⟨h1, h2⟩ := C17_base58check_decode_exact s
  refine ok_iff_of (P := fun r : Bytes × UInt8 => SpellsB58 s (r.2 :: (r.1 ++ checksum4 (r.2 :: r.1)))) ?_ ?_ (b, v)
  · rintro ⟨b, v⟩ h
    rw [h1 v b _ (C32.checksum4_length _) (decode_spells.2 h), if_pos rfl]
  · intro r hr
    have hp : base58checkDecode s ≠ .panic := by rw [hr]; simp
    rw [Ne, C17_base58check_decode_panics] at hp
    rcases hd : b58Decode s with bs | e' | _
    · have hl : 5 ≤ bs.length := by
        by_contra hl; exact hp (.inr ⟨bs, hd, by omega⟩)
      rcases bs with _ | ⟨v, rest⟩
      · simp at hl
      have hr4 : 4 ≤ rest.length := by simpa using hl
      have hcut : rest = rest.take (rest.length - 4) ++ rest.drop (rest.length - 4) := (List.take_append_drop _ _).symm
      have h4 : (rest.drop (rest.length - 4)).length = 4 := by rw [List.length_drop]; omega
      have hd' : b58Decode s = .ok (v :: (rest.take (rest.length - 4) ++ rest.drop (rest.length - 4))) := by
        rw [← hcut]; exact hd
      have h1' := h1 v _ _ h4 hd'
      by_cases hk : rest.drop (rest.length - 4) = checksum4 (v :: rest.take (rest.length - 4))
      · exact ⟨(rest.take (rest.length - 4), v), by rw [← hk]; exact decode_spells.1 hd'⟩
      · rw [h1', if_neg hk] at hr; cases hr
    · rw [h2 e' hd] at hr; cases hr
    · exact absurd (.inl hd) hp

end

end Stacks.B58

namespace Stacks.Clarity
open Stacks.Spec

variable [Hashes]

theorem decodeKind_eq (k : Kind) (b : Bytes) : decodeKind k b = decodeKindVal k b >>= fun _ => .ok () := by
  cases k <;> first
    | rfl
    | (unfold decodeKind decodeKindVal; simp only []; generalize trueDecode b = o; cases o <;> rfl)
    | (unfold decodeKind decodeKindVal; simp only []; generalize falseDecode b = o; cases o <;> rfl)
    | (unfold decodeKind decodeKindVal; simp only []; generalize noneDecode b = o; cases o <;> rfl)

theorem encode_ok_iff (v : CV) (b : Bytes) : v.encode = .ok b ↔ Spec.Encodable v ∧ b = sip005 v := by
  constructor
  · intro h
    exact ⟨(C22_encode_succeeds_iff v).1 ⟨b, h⟩, C22_encode_format v b h⟩
  · rintro ⟨h, rfl⟩; exact encode_ok v h

theorem len_ok_iff (v : CV) (n : Nat) : v.len = .ok n ↔ Spec.Encodable v ∧ n = (sip005 v).length := by
  unfold CV.len
  simp only [Outcome.bind_eq_ok, encode_ok_iff]
  constructor
  · rintro ⟨b, ⟨h, rfl⟩, h'⟩
    cases h'; exact ⟨h, rfl⟩
  · rintro ⟨h, rfl⟩; exact ⟨_, ⟨h, rfl⟩, rfl⟩

theorem hex_ok_iff (v : CV) (s : Str) : v.hex = .ok s ↔ Spec.Encodable v ∧ s = hexText (sip005 v) := by
  refine ok_iff_of (P := fun s => Spec.Encodable v ∧ s = hexText (sip005 v)) ?_ ?_ s
  · rintro s ⟨h, rfl⟩
    rw [(C36_hex_form v _ (encode_ok v h)).1, Hex.bytesToHex_eq]
  · intro s h
    by_cases hv : Spec.Encodable v
    · exact ⟨_, hv, rfl⟩
    · exfalso
      rcases he : v.encode with b | e | _
      · exact hv ((C22_encode_succeeds_iff v).1 ⟨b, he⟩)
      · have := (hex_err_iff v e).2 ((C70_encode_error_exact v e).1 he)
        rw [h] at this; cases this
      · exact encode_not_panic v he

theorem hexPrefixed_ok_iff (v : CV) (s : Str) :
    v.hexPrefixed = .ok s ↔ Spec.Encodable v ∧ s = '0' :: 'x' :: hexText (sip005 v) := by
  refine ok_iff_of (P := fun s => Spec.Encodable v ∧ s = '0' :: 'x' :: hexText (sip005 v)) ?_ ?_ s
  · rintro s ⟨h, rfl⟩
    rw [(C36_hex_form v _ (encode_ok v h)).2.1, Hex.bytesToHex_eq]
  · intro s h
    by_cases hv : Spec.Encodable v
    · exact ⟨_, hv, rfl⟩
    · exfalso
      rcases he : v.encode with b | e | _
      · exact hv ((C22_encode_succeeds_iff v).1 ⟨b, he⟩)
      · have := (hexPrefixed_err_iff v e).2 ((C70_encode_error_exact v e).1 he)
        rw [h] at this; cases this
      · exact encode_not_panic v he

theorem decode_prefix_iff (b : Bytes) (v : CV) : decode b = .ok v ↔ ∃ r, Accepted v ∧ b = sip005 v ++ r := by
  rw [C24_decode_exact]
  constructor
  · rintro ⟨h, r, rfl⟩; exact ⟨r, h, rfl⟩
  · rintro ⟨r, h, rfl⟩; exact ⟨h, r, rfl⟩

/-- A typed decoder on its own identifier. -/
theorem kind_own_ok {k : Kind} {t : UInt8} (r : Bytes) (h : identifierOf k = some t) (x : k.Val) :
    decodeKindVal k (t :: r) = .ok x ↔ decode (t :: r) = .ok (k.box x) := by
  obtain ⟨a0, a1, a2, a3, a4, a5, a6, a7, a8, a9, aa, ab, ac, ad, ae⟩ := C27_typed_decoders_agree r
  cases k <;> cases h <;> unfold decodeKindVal Kind.box <;>
    simp only [*, Outcome.bind_eq_ok, Outcome.ok.injEq, CV.int.injEq, CV.uint.injEq, CV.buffer.injEq,
      CV.principalStd.injEq, CV.principalCon.injEq, CV.respOk.injEq, CV.respErr.injEq, CV.optSome.injEq, CV.list.injEq,
      CV.tuple.injEq, CV.strAscii.injEq, CV.strUtf8.injEq, exists_eq_right, and_true] <;> first
    | rfl
    | (obtain ⟨x1, x2⟩ := x
       exact ⟨fun h => ⟨_, h, rfl, rfl⟩, fun ⟨⟨_, _⟩, h, h1, h2⟩ => by cases h1; cases h2; exact h⟩)
    | (cases x; exact ⟨fun h => ⟨_, h⟩, fun ⟨_, h⟩ => h⟩)

end Stacks.Clarity

namespace Stacks
open Stacks.Spec Stacks.Clarity

theorem decodeAs_ok_iff [Secp] [Hashes] [Bip] [Rpc.Http] (k : Kind) (b : Bytes) (x : k.Val) :
    decodeKindVal k b = .ok x ↔ GivesBack (.decodeAs k b) (.content k x) := by
  constructor
  · intro h
    cases hi : identifierOf k with
    | none =>
      cases k <;> try cases hi
      · obtain ⟨n, r, hn, rfl⟩ := (C34_lps_decode b x).1 h
        have hlt := n.toNat_lt
        have : n :: (Str.bytes x ++ r) = sized8 x ++ r := by
          unfold sized8
          rw [← hn, UInt8.ofNat_toNat]; rfl
        rw [this]
        exact .name (by rw [← hn]; exact hlt)
      · obtain ⟨h1, h2, bs, hbs, r, rfl⟩ := (C35_fn_arguments_exact b x).1 h
        rw [C22_encode_format _ _ hbs]
        exact .arguments h1 h2
    | some i =>
      rcases b with _ | ⟨t, r⟩
      · have := kind_nil hi
        rw [decodeKind_eq, h] at this; cases this
      · by_cases hk : k = .strUtf8
        · subst hk
          cases hi
          have h' : strUtf8Decode (t :: r) = .ok x := h
          rw [strUtf8_any] at h'
          have h2 := (kind_own_ok (k := .strUtf8) r rfl x).1 h'
          obtain ⟨q, ha, hq⟩ := (decode_prefix_iff _ _).1 h2
          have hr : r = sized32 (Str.bytes x) ++ q := by
            have hq' : 0x0e :: r = 0x0e :: (sized32 (Str.bytes x) ++ q) := hq
            exact (List.cons.inj hq').2
          rw [hr]
          exact .anyType ha
        · by_cases ht : t = i
          · subst ht
            obtain ⟨q, ha, hq⟩ := (decode_prefix_iff _ _).1 ((kind_own_ok r hi x).1 h)
            rw [hq]
            exact .typed hi ha
          · have := kind_other_err r hi ht hk
            rw [decodeKind_eq, h] at this; cases this
  · intro h
    generalize hc : Api.decodeAs k b = c at h
    generalize hv : ApiValue.content k x = y at h
    cases h with
    | typed hi ha =>
      rename_i i x' r
      cases hc
      cases hv
      have hd := (decode_prefix_iff _ _).2 ⟨r, ha, rfl⟩
      have hs : ∃ q, sip005 (k.box x) ++ r = i :: q := by
        cases k <;> cases hi <;> exact ⟨_, rfl⟩
      obtain ⟨q, hq⟩ := hs
      rw [hq] at hd ⊢
      exact (kind_own_ok q hi x).2 hd
    | anyType hl =>
      rename_i t s r
      cases hc
      cases hv
      show strUtf8Decode _ = _
      rw [strUtf8_any]
      exact (kind_own_ok (k := .strUtf8) _ rfl s).2 ((decode_prefix_iff _ (.strUtf8 s)).2 ⟨r, hl, rfl⟩)
    | name hl =>
      rename_i s r
      cases hc
      cases hv
      refine (C34_lps_decode _ _).2 ⟨UInt8.ofNat s.bytes.length, r, ?_, rfl⟩
      rw [UInt8.toNat_ofNat']; exact Nat.mod_eq_of_lt hl
    | arguments h1 h2 =>
      rename_i vs r
      cases hc
      cases hv
      refine (C35_fn_arguments_exact _ _).2 ⟨h1, h2, _,
        encode_ok _ ⟨h1, wf_encodableAll vs (wellFormedAll_iff.2 h2)⟩, r, rfl⟩
    | _ => cases hc

end Stacks

import Verif.Spec.Clarity
import Verif.Proofs.Basic
import Verif.Proofs.Address

/-! Helper lemmas about the Clarity codec. -/

namespace Stacks.Clarity

open Stacks.Spec

/-! ## Encoding -/

theorem lenBytes_ok {n : Nat} (h : n < 2 ^ 32) : lenBytes n = .ok (beBytes 4 n) := by
  unfold lenBytes u32Bytes; rw [if_pos h]; rfl

theorem lenBytes_err {n : Nat} (h : ¬ n < 2 ^ 32) : lenBytes n = .err .tryFromInt := by
  unfold lenBytes u32Bytes; rw [if_neg h]; rfl

theorem lpsEncode_ok {s : Str} (h : s.bytes.length ≤ 128) : lpsEncode s = .ok (sized8 s) := by
  unfold lpsEncode sized8
  simp only []
  rw [if_neg (by omega), if_pos (by omega)]

theorem lpsEncode_err {s : Str} (h : ¬ s.bytes.length ≤ 128) :
    lpsEncode s = .err (.badStringLength s.bytes.length 128) := by
  unfold lpsEncode
  simp only []
  rw [if_pos (by omega)]

theorem toInt_emod (x : BitVec 128) : (x.toInt % 2 ^ 128).toNat = x.toNat := by
  rw [BitVec.toInt_eq_toNat_bmod, Int.bmod_def]
  have := x.isLt
  have h1 : ((x.toNat : Int) % ((2 ^ 128 : Nat) : Int)) = (x.toNat : Int) := by omega
  rw [h1]
  split <;> omega

theorem isAscii_false {s : Str} : (!s.isAscii) = true ↔ ¬ ∀ c ∈ s, c.toNat < 128 := by
  rw [← Str.isAscii_iff]; simp

variable [Hashes]

theorem addrBytes_eq {a : Str} {h : Bytes} {v : UInt8} (e : C32.c32AddressDecode a = .ok (h, v)) :
    addrBytes a = v :: h := C32.addrBytes_of_isAddress (C32.isAddress_of_decode e)

mutual
theorem encode_ok : (v : CV) → Encodable v → v.encode = .ok (sip005 v)
  | .int x, _ => by rw [CV.encode, sip005, toInt_emod]; rfl
  | .uint x, _ => rfl
  | .tru, _ | .fls, _ | .optNone, _ => rfl
  | .buffer bs, h => by
    simp only [CV.encode, sip005, sized32, lenBytes_ok (show bs.length < 2 ^ 32 from h), Outcome.ok_bind]; rfl
  | .principalStd a, h => by
    obtain ⟨⟨x, v⟩, hr⟩ := C32.denotes_iff.1 h
    simp only [CV.encode, sip005, hr, addrBytes_eq hr, Outcome.mapErr_ok, Outcome.ok_bind]; rfl
  | .principalCon a n, h => by
    obtain ⟨hd, hn⟩ := h
    obtain ⟨⟨x, v⟩, hr⟩ := C32.denotes_iff.1 hd
    simp only [CV.encode, sip005, hr, addrBytes_eq hr, lpsEncode_ok hn, Outcome.mapErr_ok, Outcome.ok_bind]; rfl
  | .respOk v, h => by
    simp only [CV.encode, sip005, encode_ok v h, Outcome.ok_bind]; rfl
  | .respErr v, h => by
    simp only [CV.encode, sip005, encode_ok v h, Outcome.ok_bind]; rfl
  | .optSome v, h => by
    simp only [CV.encode, sip005, encode_ok v h, Outcome.ok_bind]; rfl
  | .list vs, h => by
    simp only [CV.encode, sip005, lenBytes_ok h.1, encodeAll_ok vs h.2, Outcome.ok_bind]; rfl
  | .fnArgs vs, h => by
    simp only [CV.encode, sip005, lenBytes_ok h.1, encodeAll_ok vs h.2, Outcome.ok_bind]; rfl
  | .tuple es, h => by
    simp only [CV.encode, sip005, lenBytes_ok h.1, encodeEntries_ok es h.2, Outcome.ok_bind]; rfl
  | .strAscii s, h => by
    obtain ⟨ha, hl⟩ := h
    rw [CV.encode, if_neg (fun hn => isAscii_false.1 hn ha), lenBytes_ok hl]; rfl
  | .strUtf8 s, h => by
    simp only [CV.encode, sip005, sized32, lenBytes_ok (show s.bytes.length < 2 ^ 32 from h), Outcome.ok_bind]; rfl
  | .lps s, h => by rw [CV.encode, sip005, lpsEncode_ok h]
theorem encodeAll_ok : (vs : List CV) → EncodableAll vs → CV.encodeAll vs = .ok (sip005All vs)
  | [], _ => rfl
  | v :: vs, h => by
    simp only [CV.encodeAll, sip005All, encode_ok v h.1, encodeAll_ok vs h.2, Outcome.ok_bind]; rfl
theorem encodeEntries_ok : (es : List (Str × CV)) → EncodableEntries es →
    CV.encodeEntries es = .ok (sip005Entries es)
  | [], _ => rfl
  | (k, v) :: es, h => by
    simp only [CV.encodeEntries, sip005Entries, lpsEncode_ok h.1, encode_ok v h.2.1,
      encodeEntries_ok es h.2.2, Outcome.ok_bind]; rfl
end

theorem addr_err {a : Str} (h : ¬ DenotesAddress a) : ∃ e, C32.c32AddressDecode a = .err e := by
  cases hc : C32.c32AddressDecode a with
  | ok r => exact absurd (C32.denotes_iff.2 ⟨r, hc⟩) h
  | err e => exact ⟨e, rfl⟩
  | panic => exact absurd hc (C32.C11_c32_address_decode_no_panic a)

open Classical in
mutual
theorem encode_err : (v : CV) → ¬ Encodable v → ∃ e, v.encode = .err e
  | .int _, h | .uint _, h | .tru, h | .fls, h | .optNone, h => absurd trivial h
  | .buffer bs, h => ⟨.tryFromInt, by
      simp only [CV.encode, lenBytes_err (show ¬ bs.length < 2 ^ 32 from h), Outcome.err_bind]⟩
  | .principalStd a, h => by
    obtain ⟨e, he⟩ := addr_err h
    exact ⟨.c32 e, by simp only [CV.encode, he, Outcome.mapErr_err, Outcome.err_bind]⟩
  | .principalCon a n, h => by
    by_cases ha : DenotesAddress a
    · have hn : ¬ n.bytes.length ≤ 128 := fun hn => h ⟨ha, hn⟩
      obtain ⟨r, hr⟩ := C32.denotes_iff.1 ha
      exact ⟨_, by simp only [CV.encode, hr, Outcome.mapErr_ok, Outcome.ok_bind, lpsEncode_err hn, Outcome.err_bind]; rfl⟩
    · obtain ⟨e, he⟩ := addr_err ha
      exact ⟨.c32 e, by simp only [CV.encode, he, Outcome.mapErr_err, Outcome.err_bind]⟩
  | .respOk v, h => by
    obtain ⟨e, he⟩ := encode_err v h
    exact ⟨e, by simp only [CV.encode, he, Outcome.err_bind]⟩
  | .respErr v, h => by
    obtain ⟨e, he⟩ := encode_err v h
    exact ⟨e, by simp only [CV.encode, he, Outcome.err_bind]⟩
  | .optSome v, h => by
    obtain ⟨e, he⟩ := encode_err v h
    exact ⟨e, by simp only [CV.encode, he, Outcome.err_bind]⟩
  | .list vs, h => by
    by_cases hl : vs.length < 2 ^ 32
    · obtain ⟨e, he⟩ := encodeAll_err vs (fun hv => h ⟨hl, hv⟩)
      exact ⟨e, by simp only [CV.encode, he, lenBytes_ok hl, Outcome.ok_bind, Outcome.err_bind]⟩
    · exact ⟨_, by simp only [CV.encode, lenBytes_err hl, Outcome.err_bind]; rfl⟩
  | .fnArgs vs, h => by
    by_cases hl : vs.length < 2 ^ 32
    · obtain ⟨e, he⟩ := encodeAll_err vs (fun hv => h ⟨hl, hv⟩)
      exact ⟨e, by simp only [CV.encode, he, lenBytes_ok hl, Outcome.ok_bind, Outcome.err_bind]⟩
    · exact ⟨_, by simp only [CV.encode, lenBytes_err hl, Outcome.err_bind]; rfl⟩
  | .tuple es, h => by
    by_cases hl : es.length < 2 ^ 32
    · obtain ⟨e, he⟩ := encodeEntries_err es (fun hv => h ⟨hl, hv⟩)
      exact ⟨e, by simp only [CV.encode, he, lenBytes_ok hl, Outcome.ok_bind, Outcome.err_bind]⟩
    · exact ⟨_, by simp only [CV.encode, lenBytes_err hl, Outcome.err_bind]; rfl⟩
  | .strAscii s, h => by
    by_cases ha : ∀ c ∈ s, c.toNat < 128
    · have hl : ¬ s.bytes.length < 2 ^ 32 := fun hl => h ⟨ha, hl⟩
      exact ⟨.tryFromInt, by rw [CV.encode, if_neg (fun hn => isAscii_false.1 hn ha), lenBytes_err hl]; rfl⟩
    · exact ⟨_, by rw [CV.encode, if_pos (isAscii_false.2 ha)]⟩
  | .strUtf8 s, h => ⟨.tryFromInt, by
      simp only [CV.encode, lenBytes_err (show ¬ s.bytes.length < 2 ^ 32 from h), Outcome.err_bind]⟩
  | .lps s, h => ⟨_, by rw [CV.encode, lpsEncode_err h]⟩
theorem encodeAll_err : (vs : List CV) → ¬ EncodableAll vs → ∃ e, CV.encodeAll vs = .err e
  | [], h => absurd trivial h
  | v :: vs, h => by
    by_cases hv : Encodable v
    · obtain ⟨e, he⟩ := encodeAll_err vs (fun hvs => h ⟨hv, hvs⟩)
      exact ⟨e, by simp only [CV.encodeAll, he, encode_ok v hv, Outcome.ok_bind, Outcome.err_bind]⟩
    · obtain ⟨e, he⟩ := encode_err v hv
      exact ⟨e, by simp only [CV.encodeAll, he, Outcome.err_bind]⟩
theorem encodeEntries_err : (es : List (Str × CV)) → ¬ EncodableEntries es →
    ∃ e, CV.encodeEntries es = .err e
  | [], h => absurd trivial h
  | (k, v) :: es, h => by
    by_cases hk : k.bytes.length ≤ 128
    · by_cases hv : Encodable v
      · obtain ⟨e, he⟩ := encodeEntries_err es (fun hvs => h ⟨hk, hv, hvs⟩)
        exact ⟨e, by simp only [CV.encodeEntries, he, lpsEncode_ok hk, encode_ok v hv, Outcome.ok_bind, Outcome.err_bind]⟩
      · obtain ⟨e, he⟩ := encode_err v hv
        exact ⟨e, by simp only [CV.encodeEntries, he, lpsEncode_ok hk, Outcome.ok_bind, Outcome.err_bind]⟩
    · exact ⟨_, by simp only [CV.encodeEntries, lpsEncode_err hk, Outcome.err_bind]; rfl⟩
end

theorem encode_eq_ok {v : CV} {bs : Bytes} : v.encode = .ok bs ↔ Encodable v ∧ bs = sip005 v := by
  constructor
  · intro h
    by_cases hv : Encodable v
    · rw [encode_ok v hv] at h; cases h; exact ⟨hv, rfl⟩
    · obtain ⟨e, he⟩ := encode_err v hv
      rw [he] at h; cases h
  · rintro ⟨h, rfl⟩; exact encode_ok v h

theorem encode_not_panic (v : CV) : v.encode ≠ .panic := by
  by_cases hv : Encodable v
  · rw [encode_ok v hv]; simp
  · obtain ⟨e, he⟩ := encode_err v hv
    rw [he]; simp

theorem encodeAll_eq_ok {vs : List CV} {bs : Bytes} :
    CV.encodeAll vs = .ok bs ↔ EncodableAll vs ∧ bs = sip005All vs := by
  constructor
  · intro h
    by_cases hv : EncodableAll vs
    · rw [encodeAll_ok vs hv] at h; cases h; exact ⟨hv, rfl⟩
    · obtain ⟨e, he⟩ := encodeAll_err vs hv
      rw [he] at h; cases h
  · rintro ⟨h, rfl⟩; exact encodeAll_ok vs h

/-! ## The predicates -/

theorem wellFormedAll_iff {vs : List CV} : WellFormedAll vs ↔ ∀ v ∈ vs, WellFormed v := by
  induction vs with
  | nil => simp [WellFormedAll]
  | cons v vs ih => simp [WellFormedAll, ih]

theorem wellFormedEntries_iff {es : List (Str × CV)} :
    WellFormedEntries es ↔ ∀ e ∈ es, e.1.bytes.length ≤ 128 ∧ WellFormed e.2 := by
  induction es with
  | nil => simp [WellFormedEntries]
  | cons e es ih =>
    obtain ⟨k, v⟩ := e
    simp [WellFormedEntries, ih, and_assoc]

theorem encodableAll_iff {vs : List CV} : EncodableAll vs ↔ ∀ v ∈ vs, Encodable v := by
  induction vs with
  | nil => simp [EncodableAll]
  | cons v vs ih => simp [EncodableAll, ih]

theorem encodableEntries_iff {es : List (Str × CV)} :
    EncodableEntries es ↔ ∀ e ∈ es, e.1.bytes.length ≤ 128 ∧ Encodable e.2 := by
  induction es with
  | nil => simp [EncodableEntries]
  | cons e es ih =>
    obtain ⟨k, v⟩ := e
    simp [EncodableEntries, ih, and_assoc]

theorem canonical_denotes {a : Str} (h : CanonicalAddress a) : DenotesAddress a := by
  obtain ⟨x, v, e⟩ := C32.canonical_iff.1 h
  exact C32.denotes_iff.2 ⟨_, C32.C10_c32_address_roundtrip _ _ _ e⟩

mutual
theorem wf_encodable : (v : CV) → WellFormed v → Encodable v
  | .int _, _ | .uint _, _ | .tru, _ | .fls, _ | .optNone, _ => trivial
  | .buffer _, h | .strUtf8 _, h | .strAscii _, h => h
  | .principalStd _, h => canonical_denotes h
  | .principalCon _ _, h => ⟨canonical_denotes h.1, h.2⟩
  | .respOk v, h | .respErr v, h | .optSome v, h => wf_encodable v h
  | .list vs, h => ⟨h.1, wf_encodableAll vs h.2⟩
  | .tuple es, h => ⟨h.1, wf_encodableEntries es h.2⟩
theorem wf_encodableAll : (vs : List CV) → WellFormedAll vs → EncodableAll vs
  | [], _ => trivial
  | v :: vs, h => ⟨wf_encodable v h.1, wf_encodableAll vs h.2⟩
theorem wf_encodableEntries : (es : List (Str × CV)) → WellFormedEntries es → EncodableEntries es
  | [], _ => trivial
  | (_, v) :: es, h => ⟨h.1, wf_encodable v h.2.1, wf_encodableEntries es h.2.2⟩
end

theorem wf_accepted : (v : CV) → WellFormed v → Accepted v
  | .int _, _ | .uint _, _ | .tru, _ | .fls, _ | .optNone, _ => trivial
  | .buffer _, h | .strUtf8 _, h => h
  | .strAscii _, h => h.2
  | .principalStd _, h => h
  | .principalCon _ _, h => ⟨h.1, by have := h.2; omega⟩
  | .respOk v, h | .respErr v, h | .optSome v, h => wf_accepted v h
  | .list _, h => ⟨h.1, wellFormedAll_iff.1 h.2⟩
  | .tuple _, h => ⟨h.1, fun e he => by
      have := wellFormedEntries_iff.1 h.2 e he
      exact ⟨by omega, this.2⟩⟩

theorem accepted_encodable_wf : (v : CV) → Accepted v → Encodable v → WellFormed v
  | .int _, _, _ | .uint _, _, _ | .tru, _, _ | .fls, _, _ | .optNone, _, _ => trivial
  | .buffer _, _, h | .strUtf8 _, _, h => h
  | .strAscii _, _, h => h
  | .principalStd _, h, _ => h
  | .principalCon _ _, h, h' => ⟨h.1, h'.2⟩
  | .respOk v, h, h' | .respErr v, h, h' | .optSome v, h, h' => accepted_encodable_wf v h h'
  | .list _, h, _ => ⟨h.1, wellFormedAll_iff.2 h.2⟩
  | .tuple _, h, h' => ⟨h.1, wellFormedEntries_iff.2 fun e he =>
      ⟨(encodableEntries_iff.1 h'.2 e he).1, (h.2 e he).2⟩⟩

theorem addrBytes_canonical {a : Str} {x : Bytes} {v : UInt8} (e : C32.c32Address x v = .ok a) :
    addrBytes a = v :: x := addrBytes_eq (C32.C10_c32_address_roundtrip _ _ _ e)

end Stacks.Clarity

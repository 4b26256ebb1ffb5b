import Verif.Proofs.ClarityDecode

/-! Soundness, completeness, truncation and fuel-independence of the Clarity decoder. -/

namespace Stacks.Clarity

open Stacks.Spec

variable [Hashes]

omit [Hashes] in
theorem sip005_pos : (v : CV) → 0 < (sip005 v).length
  | .int _ | .uint _ | .buffer _ | .tru | .fls | .principalStd _ | .principalCon _ _ | .respOk _
  | .respErr _ | .optNone | .optSome _ | .list _ | .tuple _ | .strAscii _ | .strUtf8 _ => by
    simp [sip005]
  | .lps s => by simp [sip005, sized8]
  | .fnArgs vs => by simp [sip005]

omit [Hashes] in
theorem ofNat_beVal_int (x : BitVec 128) (r : Bytes) :
    BitVec.ofNat 128 (beVal ((beBytes 16 x.toNat ++ r).take 16)) = x := by
  rw [List.take_left' (beBytes_length 16 _), beVal_beBytes (by have := x.isLt; norm_num; omega)]
  simp

omit [Hashes] in
theorem beBytes_int {r : Bytes} (h : ¬ r.length < 16) :
    r = beBytes 16 (BitVec.ofNat 128 (beVal (r.take 16))).toNat ++ r.drop 16 := by
  have hl : (r.take 16).length = 16 := by rw [List.length_take]; omega
  have := beVal_lt (r.take 16)
  rw [hl] at this
  rw [BitVec.toNat_ofNat, Nat.mod_eq_of_lt (by norm_num at this ⊢; omega), beBytes_beVal' hl,
    List.take_append_drop]

/-! ## Completeness -/

mutual
theorem complete (stop : Outcome Error CV) : (v : CV) → Accepted v → (f : Nat) → (rest : Bytes) →
    (sip005 v).length ≤ f → decodeAt stop f (sip005 v ++ rest) = .ok v
  | v, _, 0, _, hf => by have := sip005_pos v; omega
  | .int x, _, f + 1, rest, _ => by
    rw [sip005, toInt_emod, List.cons_append, step_int, if_neg (by simp), ofNat_beVal_int]
  | .uint x, _, f + 1, rest, _ => by
    rw [sip005, List.cons_append, step_uint, if_neg (by simp), ofNat_beVal_int]
  | .buffer bs, h, f + 1, rest, _ => by
    rw [sip005, sized32, List.cons_append, List.append_assoc, step_buffer, ← bind_assoc,
      bufferBody_eq _ _ _ h, if_pos (by simp), Outcome.ok_bind, List.take_left]
  | .tru, _, f + 1, rest, _ => rfl
  | .fls, _, f + 1, rest, _ => rfl
  | .optNone, _, f + 1, rest, _ => rfl
  | .principalStd a, h, f + 1, rest, _ => by
    obtain ⟨x, v, e⟩ := C32.canonical_iff.1 h
    rw [sip005, addrBytes_canonical e, List.cons_append, List.cons_append, step_std, readAddr_append, e]; rfl
  | .principalCon a n, h, f + 1, rest, _ => by
    obtain ⟨hd, hn⟩ := h
    obtain ⟨x, v, e⟩ := C32.canonical_iff.1 hd
    rw [sip005, addrBytes_canonical e]
    simp only [List.cons_append, List.append_assoc]
    rw [step_con, readAddr_append, e]
    simp only [Outcome.mapErr_ok, Outcome.ok_bind]
    have hi : (idx (0x06 :: v :: (x.1 ++ (sized8 n ++ rest))) 22 : Outcome Error UInt8) =
        .ok (UInt8.ofNat n.bytes.length) := by
      rw [idx_eq_ok]
      simp only [List.getElem?_cons_succ]
      rw [List.getElem?_append_right (by rw [x.2])]
      simp [x.2, sized8]
    rw [hi, Outcome.ok_bind, UInt8.toNat_ofNat', Nat.mod_eq_of_lt (by omega)]
    have hs : (slice (0x06 :: v :: (x.1 ++ (sized8 n ++ rest))) 23 (23 + n.bytes.length) : Outcome Error Bytes) =
        .ok n.bytes := by
      have := slice_append (ε := Error) (xs := 0x06 :: v :: (x.1 ++ [UInt8.ofNat n.bytes.length])) (ys := n.bytes)
        (zs := rest) (a := 23) (b := 23 + n.bytes.length) (by simp [x.2]) rfl
      simpa [sized8] using this
    rw [hs, Outcome.ok_bind, stringFromUtf8_bytes]; rfl
  | .respOk v, h, f + 1, rest, hf => by
    rw [sip005, List.cons_append, step_respOk, complete stop v h f rest (by simp [sip005] at hf; omega)]; rfl
  | .respErr v, h, f + 1, rest, hf => by
    rw [sip005, List.cons_append, step_respErr, complete stop v h f rest (by simp [sip005] at hf; omega)]; rfl
  | .optSome v, h, f + 1, rest, hf => by
    rw [sip005, List.cons_append, step_some, complete stop v h f rest (by simp [sip005] at hf; omega)]; rfl
  | .list vs, h, f + 1, rest, hf => by
    have := completeAll stop vs (wellFormedAll_iff.2 h.2) f (0x0b :: beBytes 4 vs.length) rest
      (by simp [sip005] at hf; omega)
    rw [sip005, List.cons_append, List.append_assoc, step_list, readLen_len _ _ h.1, Outcome.ok_bind]
    simp only [List.length_cons, beBytes_length, List.cons_append] at this
    rw [this]; rfl
  | .tuple es, h, f + 1, rest, hf => by
    have := completeEntries stop es h.2 f (0x0c :: beBytes 4 es.length) rest
      (by simp [sip005] at hf; omega)
    rw [sip005, List.cons_append, List.append_assoc, step_tuple, readLen_len _ _ h.1, Outcome.ok_bind]
    simp only [List.length_cons, beBytes_length, List.cons_append] at this
    rw [this]; rfl
  | .strAscii s, h, f + 1, rest, _ => by
    rw [sip005, sized32, List.cons_append, List.append_assoc, step_strAscii,
      stringBody_eq _ _ _ h, if_pos (by simp), List.take_left, stringFromUtf8_bytes]; rfl
  | .strUtf8 s, h, f + 1, rest, _ => by
    rw [sip005, sized32, List.cons_append, List.append_assoc, step_strUtf8,
      stringBody_eq _ _ _ h, if_pos (by simp), List.take_left, stringFromUtf8_bytes]; rfl
theorem completeAll (stop : Outcome Error CV) : (vs : List CV) → WellFormedAll vs → (f : Nat) →
    (pre rest : Bytes) → (sip005All vs).length ≤ f →
    listLoop (decodeAt stop f) (pre ++ (sip005All vs ++ rest)) vs.length pre.length = .ok vs
  | [], _, _, _, _, _ => rfl
  | v :: vs, h, f, pre, rest, hf => by
    rw [sip005All, List.length_append] at hf
    rw [List.length_cons, listLoop, sliceFrom_append _ _ rfl, Outcome.ok_bind, sip005All,
      List.append_assoc, complete stop v (wf_accepted v h.1) f _ (by omega), Outcome.ok_bind,
      encode_ok v (wf_encodable v h.1), Outcome.ok_bind]
    have := completeAll stop vs h.2 f (pre ++ sip005 v) rest (by omega)
    rw [List.length_append, List.append_assoc] at this
    rw [this]; rfl
theorem completeEntries (stop : Outcome Error CV) : (es : List (Str × CV)) →
    (∀ e ∈ es, e.1.bytes.length < 256 ∧ WellFormed e.2) → (f : Nat) →
    (pre rest : Bytes) → (sip005Entries es).length ≤ f →
    tupleLoop (decodeAt stop f) (pre ++ (sip005Entries es ++ rest)) es.length pre.length = .ok es
  | [], _, _, _, _, _ => rfl
  | (k, v) :: es, h, f, pre, rest, hf => by
    have hk := (h (k, v) (by simp)).1
    have hv := (h (k, v) (by simp)).2
    simp only at hk hv
    rw [sip005Entries, List.length_append, List.length_append] at hf
    rw [List.length_cons, tupleLoop, sip005Entries]
    simp only [List.append_assoc]
    have hi : (idx (pre ++ (sized8 k ++ (sip005 v ++ (sip005Entries es ++ rest)))) pre.length : Outcome Error UInt8) =
        .ok (UInt8.ofNat k.bytes.length) := by
      rw [idx_eq_ok, List.getElem?_append_right (le_refl _)]
      simp [sized8]
    have hs : (slice (pre ++ (sized8 k ++ (sip005 v ++ (sip005Entries es ++ rest)))) (pre.length + 1)
        (pre.length + 1 + k.bytes.length) : Outcome Error Bytes) = .ok k.bytes := by
      have := slice_append (ε := Error) (xs := pre ++ [UInt8.ofNat k.bytes.length]) (ys := k.bytes)
        (zs := sip005 v ++ (sip005Entries es ++ rest)) (a := pre.length + 1)
        (b := pre.length + 1 + k.bytes.length) (by simp) rfl
      simpa [sized8] using this
    have hm : (UInt8.ofNat k.bytes.length).toNat = k.bytes.length := by
      rw [UInt8.toNat_ofNat', Nat.mod_eq_of_lt (by omega)]
    have hf' : (sliceFrom (pre ++ (sized8 k ++ (sip005 v ++ (sip005Entries es ++ rest))))
        (pre.length + (1 + k.bytes.length)) : Outcome Error Bytes) =
        .ok (sip005 v ++ (sip005Entries es ++ rest)) := by
      rw [← List.append_assoc]
      exact sliceFrom_append _ _ (by simp [sized8]; omega)
    rw [hi, Outcome.ok_bind, hm, hs, Outcome.ok_bind, stringFromUtf8_bytes, Outcome.ok_bind]
    rw [hf', Outcome.ok_bind, complete stop v (wf_accepted v hv) f _ (by omega), Outcome.ok_bind,
      encode_ok v (wf_encodable v hv), Outcome.ok_bind]
    have := completeEntries stop es (fun e he => h e (by simp [he])) f (pre ++ sized8 k ++ sip005 v) rest (by omega)
    simp only [List.length_append, List.append_assoc] at this
    rw [show pre.length + (1 + k.bytes.length) + (sip005 v).length =
      pre.length + ((sized8 k).length + (sip005 v).length) by simp [sized8]; omega, this]
    rfl
end

/-! ## Soundness -/

/-- What a decoder must satisfy at a depth. -/
def Sound (rec : Bytes → Outcome Error CV) : Prop :=
  ∀ bytes v, rec bytes = .ok v → Accepted v ∧ ∃ rest, bytes = sip005 v ++ rest

theorem listLoop_sound {rec : Bytes → Outcome Error CV} (hr : Sound rec) (bytes : Bytes) :
    ∀ (n off : Nat) (vs : List CV), off ≤ bytes.length → listLoop rec bytes n off = .ok vs →
      vs.length = n ∧ WellFormedAll vs ∧ ∃ rest, bytes.drop off = sip005All vs ++ rest := by
  intro n
  induction n with
  | zero =>
    intro off vs _ h
    rw [listLoop] at h; cases h
    exact ⟨rfl, trivial, _, rfl⟩
  | succ n ih =>
    intro off vs hoff h
    rw [listLoop] at h
    simp only [Outcome.bind_eq_ok, sliceFrom_eq_ok, encode_eq_ok, Outcome.pure_def, Outcome.ok.injEq] at h
    obtain ⟨r, ⟨_, rfl⟩, v, hv, _, ⟨hve, rfl⟩, vs', hvs, rfl⟩ := h
    obtain ⟨ha, rest, hrest⟩ := hr _ _ hv
    have hl : off + (sip005 v).length ≤ bytes.length := by
      have := congrArg List.length hrest
      rw [List.length_drop, List.length_append] at this; omega
    obtain ⟨h1, h2, rest', h3⟩ := ih _ _ hl hvs
    refine ⟨by simp [h1], ⟨accepted_encodable_wf v ha hve, h2⟩, rest', ?_⟩
    rw [sip005All, List.append_assoc, ← h3, ← List.drop_drop, hrest, List.drop_left]

theorem tupleLoop_sound {rec : Bytes → Outcome Error CV} (hr : Sound rec) (bytes : Bytes) :
    ∀ (n off : Nat) (es : List (Str × CV)), off ≤ bytes.length → tupleLoop rec bytes n off = .ok es →
      es.length = n ∧ (∀ e ∈ es, e.1.bytes.length < 256 ∧ WellFormed e.2) ∧
        ∃ rest, bytes.drop off = sip005Entries es ++ rest := by
  intro n
  induction n with
  | zero =>
    intro off vs _ h
    rw [tupleLoop] at h; cases h
    exact ⟨rfl, by simp, _, rfl⟩
  | succ n ih =>
    intro off es hoff h
    rw [tupleLoop] at h
    simp only [slice_eq, Outcome.bind_eq_ok, sliceFrom_eq_ok, encode_eq_ok, Outcome.pure_def, Outcome.ok.injEq,
      idx_eq_ok, stringFromUtf8_eq_ok] at h
    obtain ⟨kl, hkl, s, hs, k, rfl, r, ⟨hle, rfl⟩, v, hv, _, ⟨hve, rfl⟩, es', hes, rfl⟩ := h
    split at hs
    · rename_i hkle
      simp only [Outcome.ok.injEq] at hs
      have hoff' : off < bytes.length := by
        rcases List.getElem?_eq_some_iff.1 hkl with ⟨h, _⟩; exact h
      have hklen : k.bytes.length = kl.toNat := by
        rw [← hs, List.length_take, List.length_drop]; omega
      obtain ⟨ha, rest, hrest⟩ := hr _ _ hv
      have hl : off + (1 + kl.toNat) + (sip005 v).length ≤ bytes.length := by
        have := congrArg List.length hrest
        rw [List.length_drop, List.length_append] at this; omega
      obtain ⟨h1, h2, rest', h3⟩ := ih _ _ hl hes
      refine ⟨by simp [h1], ?_, rest', ?_⟩
      · intro e he
        rcases List.mem_cons.1 he with rfl | he
        · exact ⟨by have := kl.toNat_lt; simp only; omega, accepted_encodable_wf v ha hve⟩
        · exact h2 e he
      · rw [← List.drop_drop, hrest, List.drop_left] at h3
        have hd : bytes.drop off = kl :: bytes.drop (off + 1) := by
          rw [List.drop_eq_getElem_cons hoff']
          congr 1
          rcases List.getElem?_eq_some_iff.1 hkl with ⟨_, h⟩; exact h
        have hd2 : bytes.drop (off + 1) = k.bytes ++ bytes.drop (off + (1 + kl.toNat)) := by
          rw [← hs, show off + (1 + kl.toNat) = (off + 1) + kl.toNat by omega,
            ← List.drop_drop (i := kl.toNat), List.take_append_drop]
        rw [hd, hd2, hrest, h3, sip005Entries, sized8, hklen]
        simp
    · cases hs

theorem sound (f : Nat) : Sound (decodeAt .panic f) := by
  induction f with
  | zero => intro bytes v h; cases h
  | succ f ih =>
    intro bytes v h
    match bytes with
    | [] => cases h
    | t :: r =>
      rcases tag_cases t with rfl | rfl | rfl | rfl | rfl | rfl | rfl | rfl | rfl | rfl | rfl | rfl | rfl | rfl | rfl | ht
      · rw [step_int] at h
        split at h
        · cases h
        · cases h
          refine ⟨trivial, r.drop 16, ?_⟩
          rw [sip005, toInt_emod, List.cons_append, ← beBytes_int ‹_›]
      · rw [step_uint] at h
        split at h
        · cases h
        · cases h
          refine ⟨trivial, r.drop 16, ?_⟩
          rw [sip005, List.cons_append, ← beBytes_int ‹_›]
      · rw [step_buffer, Outcome.bind_eq_ok] at h
        obtain ⟨n, hn, h⟩ := h
        obtain ⟨hlt, r', rfl⟩ := readLen_ok hn
        have hb := bufferBody_eq 0x02 n r' hlt
        rw [hn, Outcome.ok_bind] at hb
        rw [hb] at h
        split at h
        · cases h
          have hl : (r'.take n).length = n := by rw [List.length_take]; omega
          refine ⟨by rw [Accepted, hl]; exact hlt, r'.drop n, ?_⟩
          rw [sip005, sized32, hl]; simp
        · cases h
      · cases h; exact ⟨trivial, r, rfl⟩
      · cases h; exact ⟨trivial, r, rfl⟩
      · rw [step_std, Outcome.bind_eq_ok] at h
        obtain ⟨a, ha, h⟩ := h
        cases h
        rw [readAddr_eq] at ha
        split at ha
        · cases ha
        · rename_i hl
          rw [Outcome.mapErr_eq_ok] at ha
          have hl20 : ((r.drop 1).take 20).length = 20 := by simp; omega
          refine ⟨C32.canonical_iff.2 ⟨⟨_, hl20⟩, _, ha⟩, r.drop 21, ?_⟩
          rw [sip005, addrBytes_canonical ha]
          match r with
          | [] => simp at hl
          | v :: r =>
            simp only [List.cons_append, List.drop_succ_cons, List.drop_zero, List.getElem_cons_zero]
            rw [List.take_append_drop]
      · rw [step_con] at h
        simp only [Outcome.bind_eq_ok, slice_eq, Outcome.ok.injEq, idx_eq_ok, stringFromUtf8_eq_ok] at h
        obtain ⟨a, ha, n, hn, s, hs, m, rfl, rfl⟩ := h
        rw [readAddr_eq] at ha
        split at ha
        · cases ha
        · rename_i hl
          rw [Outcome.mapErr_eq_ok] at ha
          have hl20 : ((r.drop 1).take 20).length = 20 := by simp; omega
          split at hs
          · rename_i hle
            simp only [Outcome.ok.injEq] at hs
            have hmlen : m.bytes.length = n.toNat := by
              rw [← hs, List.length_take, List.length_drop]; omega
            refine ⟨⟨C32.canonical_iff.2 ⟨⟨_, hl20⟩, _, ha⟩, by have := n.toNat_lt; omega⟩, (6 :: r).drop (23 + n.toNat), ?_⟩
            rw [sip005, addrBytes_canonical ha, sized8, hmlen]
            match r with
            | [] => simp at hl
            | v :: r =>
              simp only [List.getElem?_cons_succ, List.drop_succ_cons, List.drop_zero, List.getElem_cons_zero] at hn hs ⊢
              obtain ⟨h20, hn⟩ := List.getElem?_eq_some_iff.1 hn
              have e1 : r.drop 20 = n :: r.drop 21 := by
                rw [List.drop_eq_getElem_cons h20, hn]
              have e2 : r.drop 21 = m.bytes ++ (6 :: v :: r).drop (23 + n.toNat) := by
                rw [← hs, show 23 + n.toNat = (21 + n.toNat) + 1 + 1 by omega, List.drop_succ_cons,
                  List.drop_succ_cons, ← List.drop_drop, List.take_append_drop]
              conv_lhs => rw [← List.take_append_drop 20 r, e1, e2]
              simp
          · cases hs
      · rw [step_respOk, Outcome.bind_eq_ok] at h
        obtain ⟨w, hw, h⟩ := h; cases h
        obtain ⟨h1, rest, h2⟩ := ih _ _ hw
        exact ⟨h1, rest, by rw [sip005, h2]; rfl⟩
      · rw [step_respErr, Outcome.bind_eq_ok] at h
        obtain ⟨w, hw, h⟩ := h; cases h
        obtain ⟨h1, rest, h2⟩ := ih _ _ hw
        exact ⟨h1, rest, by rw [sip005, h2]; rfl⟩
      · cases h; exact ⟨trivial, r, rfl⟩
      · rw [step_some, Outcome.bind_eq_ok] at h
        obtain ⟨w, hw, h⟩ := h; cases h
        obtain ⟨h1, rest, h2⟩ := ih _ _ hw
        exact ⟨h1, rest, by rw [sip005, h2]; rfl⟩
      · rw [step_list, Outcome.bind_eq_ok] at h
        obtain ⟨n, hn, h⟩ := h
        obtain ⟨hlt, r', rfl⟩ := readLen_ok hn
        rw [Outcome.bind_eq_ok] at h
        obtain ⟨vs, hvs, h⟩ := h; cases h
        obtain ⟨h1, h2, rest, h3⟩ := listLoop_sound ih _ _ _ _ (by simp) hvs
        refine ⟨⟨by rw [h1]; exact hlt, wellFormedAll_iff.1 h2⟩, rest, ?_⟩
        rw [List.drop_succ_cons, List.drop_left' (beBytes_length 4 n)] at h3
        rw [sip005, h1, h3]; simp
      · rw [step_tuple, Outcome.bind_eq_ok] at h
        obtain ⟨n, hn, h⟩ := h
        obtain ⟨hlt, r', rfl⟩ := readLen_ok hn
        rw [Outcome.bind_eq_ok] at h
        obtain ⟨vs, hvs, h⟩ := h; cases h
        obtain ⟨h1, h2, rest, h3⟩ := tupleLoop_sound ih _ _ _ _ (by simp) hvs
        refine ⟨⟨by rw [h1]; exact hlt, h2⟩, rest, ?_⟩
        rw [List.drop_succ_cons, List.drop_left' (beBytes_length 4 n)] at h3
        rw [sip005, h1, h3]; simp
      · rw [step_strAscii, Outcome.bind_eq_ok] at h
        obtain ⟨s, hs, h⟩ := h; cases h
        have hs' := hs
        unfold stringBody at hs'
        rw [Outcome.bind_eq_ok] at hs'
        obtain ⟨n, hn, _⟩ := hs'
        obtain ⟨hlt, r', rfl⟩ := readLen_ok hn
        rw [stringBody_eq _ _ _ hlt] at hs
        split at hs
        · rw [stringFromUtf8_eq_ok] at hs
          have hl : s.bytes.length = n := by rw [← hs, List.length_take]; omega
          refine ⟨by rw [Accepted, hl]; exact hlt, r'.drop n, ?_⟩
          rw [sip005, sized32, hl, ← hs]; simp
        · cases hs
      · rw [step_strUtf8, Outcome.bind_eq_ok] at h
        obtain ⟨s, hs, h⟩ := h; cases h
        have hs' := hs
        unfold stringBody at hs'
        rw [Outcome.bind_eq_ok] at hs'
        obtain ⟨n, hn, _⟩ := hs'
        obtain ⟨hlt, r', rfl⟩ := readLen_ok hn
        rw [stringBody_eq _ _ _ hlt] at hs
        split at hs
        · rw [stringFromUtf8_eq_ok] at hs
          have hl : s.bytes.length = n := by rw [← hs, List.length_take]; omega
          refine ⟨by rw [Accepted, hl]; exact hlt, r'.drop n, ?_⟩
          rw [sip005, sized32, hl, ← hs]; simp
        · cases hs
      · rw [step_unknown _ _ _ ht] at h; cases h

/-! ## The recursion bound -/

theorem listLoop_congr {rec rec' : Bytes → Outcome Error CV} {bytes : Bytes}
    (h : ∀ b : Bytes, b.length < bytes.length → rec b = rec' b) :
    ∀ n off, 0 < off → listLoop rec bytes n off = listLoop rec' bytes n off := by
  intro n
  induction n with
  | zero => intros; rfl
  | succ n ih =>
    intro off hoff
    rw [listLoop, listLoop]
    by_cases hl : off ≤ bytes.length
    · have : (sliceFrom bytes off : Outcome Error Bytes) = .ok (bytes.drop off) := sliceFrom_eq_ok.2 ⟨hl, rfl⟩
      rw [this, Outcome.ok_bind, Outcome.ok_bind, h _ (by rw [List.length_drop]; omega)]
      congr 1; funext v; congr 1; funext e
      rw [ih _ (by omega)]
    · have : (sliceFrom bytes off : Outcome Error Bytes) = .panic := by unfold sliceFrom; rw [if_neg hl]
      rw [this]; rfl

theorem tupleLoop_congr {rec rec' : Bytes → Outcome Error CV} {bytes : Bytes}
    (h : ∀ b : Bytes, b.length < bytes.length → rec b = rec' b) :
    ∀ n off, tupleLoop rec bytes n off = tupleLoop rec' bytes n off := by
  intro n
  induction n with
  | zero => intros; rfl
  | succ n ih =>
    intro off
    rw [tupleLoop, tupleLoop]
    congr 1; funext kl; congr 1; funext s; congr 1; funext k
    by_cases hl : off + (1 + kl.toNat) ≤ bytes.length
    · have : (sliceFrom bytes (off + (1 + kl.toNat)) : Outcome Error Bytes) = .ok (bytes.drop (off + (1 + kl.toNat))) :=
        sliceFrom_eq_ok.2 ⟨hl, rfl⟩
      simp only []
      rw [this, Outcome.ok_bind, Outcome.ok_bind, h _ (by rw [List.length_drop]; omega)]
      congr 1; funext v; congr 1; funext e
      rw [ih]
    · have : (sliceFrom bytes (off + (1 + kl.toNat)) : Outcome Error Bytes) = .panic := by
        unfold sliceFrom; rw [if_neg hl]
      simp only []
      rw [this]; rfl

theorem fuel_irrelevant (stop stop' : Outcome Error CV) (f : Nat) : ∀ (f' : Nat) (bytes : Bytes),
    bytes.length < f → bytes.length < f' → decodeAt stop f bytes = decodeAt stop' f' bytes := by
  induction f with
  | zero => intro _ _ h; omega
  | succ f ih =>
    intro f' bytes hf hf'
    match f', bytes with
    | 0, _ => omega
    | f' + 1, [] => rfl
    | f' + 1, t :: r =>
      rw [List.length_cons] at hf hf'
      have hrec : ∀ b : Bytes, b.length < (t :: r).length → decodeAt stop f b = decodeAt stop' f' b := by
        intro b hb
        rw [List.length_cons] at hb
        exact ih f' b (by omega) (by omega)
      rcases tag_cases t with rfl | rfl | rfl | rfl | rfl | rfl | rfl | rfl | rfl | rfl | rfl | rfl | rfl | rfl | rfl | ht
      · rw [step_int, step_int]
      · rw [step_uint, step_uint]
      · rw [step_buffer, step_buffer]
      · rfl
      · rfl
      · rw [step_std, step_std]
      · rw [step_con, step_con]
      · rw [step_respOk, step_respOk, hrec _ (by simp)]
      · rw [step_respErr, step_respErr, hrec _ (by simp)]
      · rfl
      · rw [step_some, step_some, hrec _ (by simp)]
      · rw [step_list, step_list]
        congr 1; funext n
        rw [listLoop_congr hrec _ _ (by omega)]
      · rw [step_tuple, step_tuple]
        congr 1; funext n
        rw [tupleLoop_congr hrec]
      · rw [step_strAscii, step_strAscii]
      · rw [step_strUtf8, step_strUtf8]
      · rw [step_unknown _ _ _ ht, step_unknown _ _ _ ht]

/-- The exact behaviour of the decoder on `Ok`. -/
theorem decode_ok_iff (bytes : Bytes) (v : CV) :
    decode bytes = .ok v ↔ Accepted v ∧ ∃ rest, bytes = sip005 v ++ rest := by
  constructor
  · exact sound _ bytes v
  · rintro ⟨h, rest, rfl⟩
    exact complete _ v h _ rest (by rw [List.length_append]; omega)

end Stacks.Clarity

import Verif.Proofs.ClarityMain

/-! Decoding a proper prefix of an encoding panics. -/

namespace Stacks.Clarity

open Stacks.Spec

/-- A prefix of a concatenation either stops inside the first part or contains it. -/
theorem prefix_split {p q l b : Bytes} (h : p ++ q = l ++ b) :
    (∃ q', q' ≠ [] ∧ p ++ q' = l ∧ p.length < l.length) ∨ ∃ p', p = l ++ p' ∧ p' ++ q = b := by
  rcases List.append_eq_append_iff.1 h with ⟨as, h1, h2⟩ | ⟨bs, h1, h2⟩
  · by_cases ha : as = []
    · subst ha
      right; exact ⟨[], by simpa using h1.symm, by simpa using h2⟩
    · left
      refine ⟨as, ha, h1.symm, ?_⟩
      rw [h1, List.length_append]
      have := List.length_pos_of_ne_nil ha
      omega
  · right; exact ⟨bs, h1, h2.symm⟩

theorem short_of_prefix {p q b : Bytes} (hq : q ≠ []) (h : p ++ q = b) : p.length < b.length := by
  have := List.length_pos_of_ne_nil hq
  rw [← h, List.length_append]; omega

variable [Hashes]

mutual
theorem truncated (stop : Outcome Error CV) : (v : CV) → Accepted v → (f : Nat) → (p q : Bytes) →
    p ++ q = sip005 v → q ≠ [] → p.length < f → decodeAt stop f p = .panic
  | _, _, 0, _, _, _, _, hf => by omega
  | _, _, _ + 1, [], _, _, _, _ => rfl
  | .int x, _, f + 1, t :: p, q, h, hq, _ => by
    rw [sip005, List.cons_append, List.cons.injEq] at h
    obtain ⟨rfl, h⟩ := h
    have := short_of_prefix hq h
    rw [beBytes_length] at this
    rw [step_int, if_pos this]
  | .uint x, _, f + 1, t :: p, q, h, hq, _ => by
    rw [sip005, List.cons_append, List.cons.injEq] at h
    obtain ⟨rfl, h⟩ := h
    have := short_of_prefix hq h
    rw [beBytes_length] at this
    rw [step_uint, if_pos this]
  | .buffer bs, ha, f + 1, t :: p, q, h, hq, _ => by
    rw [sip005, List.cons_append, List.cons.injEq, sized32] at h
    obtain ⟨rfl, h⟩ := h
    rw [step_buffer]
    rcases prefix_split h with ⟨q', _, _, hl⟩ | ⟨p', rfl, h'⟩
    · rw [beBytes_length] at hl
      rw [readLen_eq, if_pos hl]; rfl
    · rw [← bind_assoc, bufferBody_eq _ _ _ ha, if_neg (by have := short_of_prefix hq h'; omega)]; rfl
  | .tru, _, f + 1, t :: p, q, h, hq, _ => by simp [sip005, hq] at h
  | .fls, _, f + 1, t :: p, q, h, hq, _ => by simp [sip005, hq] at h
  | .optNone, _, f + 1, t :: p, q, h, hq, _ => by simp [sip005, hq] at h
  | .principalStd a, ha, f + 1, t :: p, q, h, hq, _ => by
    obtain ⟨x, v, e⟩ := C32.canonical_iff.1 ha
    rw [sip005, List.cons_append, List.cons.injEq, addrBytes_canonical e] at h
    obtain ⟨rfl, h⟩ := h
    have := short_of_prefix hq h
    rw [List.length_cons, x.2] at this
    rw [step_std, readAddr_eq, dif_pos this]; rfl
  | .principalCon a n, ha, f + 1, t :: p, q, h, hq, _ => by
    obtain ⟨hd, hn⟩ := ha
    obtain ⟨x, v, e⟩ := C32.canonical_iff.1 hd
    rw [sip005, List.cons_append, List.cons.injEq, addrBytes_canonical e] at h
    obtain ⟨rfl, h⟩ := h
    rw [step_con]
    rcases prefix_split h with ⟨q', _, _, hl⟩ | ⟨p', rfl, h'⟩
    · rw [List.length_cons, x.2] at hl
      rw [readAddr_eq, dif_pos hl]; rfl
    · rw [List.cons_append, readAddr_append, e, Outcome.mapErr_ok, Outcome.ok_bind]
      match p' with
      | [] =>
        have hi : (idx (0x06 :: v :: (x.1 ++ [])) 22 : Outcome Error UInt8) = .panic := by
          unfold idx; rw [List.getElem?_eq_none (by simp [x.2])]; rfl
        rw [hi]; rfl
      | l :: p' =>
        rw [sized8, List.cons_append, List.cons.injEq] at h'
        obtain ⟨rfl, h'⟩ := h'
        have hi : (idx (0x06 :: v :: (x.1 ++ (UInt8.ofNat n.bytes.length :: p'))) 22 : Outcome Error UInt8) =
            .ok (UInt8.ofNat n.bytes.length) := by
          rw [idx_eq_ok]
          simp only [List.getElem?_cons_succ]
          rw [List.getElem?_append_right (by rw [x.2])]
          simp [x.2]
        have := short_of_prefix hq h'
        rw [hi, Outcome.ok_bind, UInt8.toNat_ofNat', Nat.mod_eq_of_lt (by omega), slice_eq, if_neg]
        · rfl
        · simp only [List.length_cons, List.length_append, x.2]; omega
  | .respOk v, ha, f + 1, t :: p, q, h, hq, hf => by
    rw [sip005, List.cons_append, List.cons.injEq] at h
    obtain ⟨rfl, h⟩ := h
    rw [step_respOk, truncated stop v ha f p q h hq (by simpa using hf)]; rfl
  | .respErr v, ha, f + 1, t :: p, q, h, hq, hf => by
    rw [sip005, List.cons_append, List.cons.injEq] at h
    obtain ⟨rfl, h⟩ := h
    rw [step_respErr, truncated stop v ha f p q h hq (by simpa using hf)]; rfl
  | .optSome v, ha, f + 1, t :: p, q, h, hq, hf => by
    rw [sip005, List.cons_append, List.cons.injEq] at h
    obtain ⟨rfl, h⟩ := h
    rw [step_some, truncated stop v ha f p q h hq (by simpa using hf)]; rfl
  | .list vs, ha, f + 1, t :: p, q, h, hq, hf => by
    rw [sip005, List.cons_append, List.cons.injEq] at h
    obtain ⟨rfl, h⟩ := h
    rw [step_list]
    rcases prefix_split h with ⟨q', _, _, hl⟩ | ⟨p', rfl, h'⟩
    · rw [beBytes_length] at hl
      rw [readLen_eq, if_pos hl]; rfl
    · rw [readLen_len _ _ ha.1, Outcome.ok_bind]
      have := truncatedAll stop vs (wellFormedAll_iff.2 ha.2) f (0x0b :: beBytes 4 vs.length) p' q h' hq
        (by simp at hf; omega)
      simp only [List.length_cons, beBytes_length, List.cons_append] at this
      rw [this]; rfl
  | .tuple es, ha, f + 1, t :: p, q, h, hq, hf => by
    rw [sip005, List.cons_append, List.cons.injEq] at h
    obtain ⟨rfl, h⟩ := h
    rw [step_tuple]
    rcases prefix_split h with ⟨q', _, _, hl⟩ | ⟨p', rfl, h'⟩
    · rw [beBytes_length] at hl
      rw [readLen_eq, if_pos hl]; rfl
    · rw [readLen_len _ _ ha.1, Outcome.ok_bind]
      have := truncatedEntries stop es ha.2 f (0x0c :: beBytes 4 es.length) p' q h' hq
        (by simp at hf; omega)
      simp only [List.length_cons, beBytes_length, List.cons_append] at this
      rw [this]; rfl
  | .strAscii s, ha, f + 1, t :: p, q, h, hq, _ => by
    rw [sip005, List.cons_append, List.cons.injEq, sized32] at h
    obtain ⟨rfl, h⟩ := h
    rw [step_strAscii]
    rcases prefix_split h with ⟨q', _, _, hl⟩ | ⟨p', rfl, h'⟩
    · rw [beBytes_length] at hl
      rw [stringBody, readLen_eq, if_pos hl]; rfl
    · rw [stringBody_eq _ _ _ ha, if_neg (by have := short_of_prefix hq h'; omega)]; rfl
  | .strUtf8 s, ha, f + 1, t :: p, q, h, hq, _ => by
    rw [sip005, List.cons_append, List.cons.injEq, sized32] at h
    obtain ⟨rfl, h⟩ := h
    rw [step_strUtf8]
    rcases prefix_split h with ⟨q', _, _, hl⟩ | ⟨p', rfl, h'⟩
    · rw [beBytes_length] at hl
      rw [stringBody, readLen_eq, if_pos hl]; rfl
    · rw [stringBody_eq _ _ _ ha, if_neg (by have := short_of_prefix hq h'; omega)]; rfl
theorem truncatedAll (stop : Outcome Error CV) : (vs : List CV) → WellFormedAll vs → (f : Nat) →
    (pre p q : Bytes) → p ++ q = sip005All vs → q ≠ [] → p.length < f →
    listLoop (decodeAt stop f) (pre ++ p) vs.length pre.length = .panic
  | [], _, _, _, _, _, h, hq, _ => by simp [sip005All, hq] at h
  | v :: vs, ha, f, pre, p, q, h, hq, hf => by
    rw [sip005All] at h
    rw [List.length_cons, listLoop, sliceFrom_append _ _ rfl, Outcome.ok_bind]
    rcases prefix_split h with ⟨q', hq', h', _⟩ | ⟨p', rfl, h'⟩
    · rw [truncated stop v (wf_accepted v ha.1) f p q' h' hq' hf]; rfl
    · rw [List.length_append] at hf
      rw [complete stop v (wf_accepted v ha.1) f p' (by omega), Outcome.ok_bind,
        encode_ok v (wf_encodable v ha.1), Outcome.ok_bind]
      have := truncatedAll stop vs ha.2 f (pre ++ sip005 v) p' q h' hq (by omega)
      rw [List.length_append, List.append_assoc] at this
      rw [this]; rfl
theorem truncatedEntries (stop : Outcome Error CV) : (es : List (Str × CV)) →
    (∀ e ∈ es, e.1.bytes.length < 256 ∧ WellFormed e.2) → (f : Nat) →
    (pre p q : Bytes) → p ++ q = sip005Entries es → q ≠ [] → p.length < f →
    tupleLoop (decodeAt stop f) (pre ++ p) es.length pre.length = .panic
  | [], _, _, _, _, _, h, hq, _ => by simp [sip005Entries, hq] at h
  | (k, v) :: es, ha, f, pre, p, q, h, hq, hf => by
    have hk := (ha (k, v) (by simp)).1
    have hv := (ha (k, v) (by simp)).2
    simp only at hk hv
    have hm : (UInt8.ofNat k.bytes.length).toNat = k.bytes.length := by
      rw [UInt8.toNat_ofNat', Nat.mod_eq_of_lt (by omega)]
    rw [sip005Entries, List.append_assoc] at h
    rw [List.length_cons, tupleLoop]
    match p with
    | [] =>
      have hi : (idx (pre ++ []) pre.length : Outcome Error UInt8) = .panic := by
        unfold idx; rw [List.getElem?_eq_none (by simp)]; rfl
      rw [hi]; rfl
    | l :: p =>
      rw [sized8, List.cons_append, List.cons_append, List.cons.injEq] at h
      obtain ⟨rfl, h⟩ := h
      have hi : (idx (pre ++ (UInt8.ofNat k.bytes.length :: p)) pre.length : Outcome Error UInt8) =
          .ok (UInt8.ofNat k.bytes.length) := by
        rw [idx_eq_ok, List.getElem?_append_right (le_refl _)]
        simp
      rw [hi, Outcome.ok_bind, hm, slice_eq]
      rcases prefix_split h with ⟨q', hq', h', hl⟩ | ⟨p', rfl, h'⟩
      · rw [if_neg]
        · rfl
        · simp only [List.length_append, List.length_cons]; omega
      · rw [if_pos (by simp only [List.length_append, List.length_cons]; omega), Outcome.ok_bind]
        have hks : ((pre ++ UInt8.ofNat k.bytes.length :: (k.bytes ++ p')).drop (pre.length + 1)).take k.bytes.length
            = k.bytes := by
          rw [← List.drop_drop, List.drop_left]
          simp
        rw [hks, stringFromUtf8_bytes, Outcome.ok_bind]
        have hf' : (sliceFrom (pre ++ (UInt8.ofNat k.bytes.length :: (k.bytes ++ p')))
            (pre.length + (1 + k.bytes.length)) : Outcome Error Bytes) = .ok p' := by
          have := sliceFrom_append (ε := Error) (pre ++ (UInt8.ofNat k.bytes.length :: k.bytes)) p'
            (n := pre.length + (1 + k.bytes.length)) (by simp; omega)
          simpa using this
        simp only []
        rw [hf', Outcome.ok_bind]
        rw [List.length_cons, List.length_append] at hf
        rcases prefix_split h' with ⟨q'', hq'', h'', _⟩ | ⟨p'', rfl, h''⟩
        · rw [truncated stop v (wf_accepted v hv) f p' q'' h'' hq'' (by omega)]; rfl
        · rw [List.length_append] at hf
          rw [complete stop v (wf_accepted v hv) f p'' (by omega), Outcome.ok_bind,
            encode_ok v (wf_encodable v hv), Outcome.ok_bind]
          have := truncatedEntries stop es (fun e he => ha e (by simp [he])) f
            (pre ++ (UInt8.ofNat k.bytes.length :: k.bytes) ++ sip005 v) p'' q h'' hq (by omega)
          simp only [List.length_append, List.append_assoc, List.cons_append, List.length_cons] at this
          rw [show pre.length + (1 + k.bytes.length) + (sip005 v).length =
            pre.length + (k.bytes.length + (sip005 v).length + 1) by omega, this]
          rfl
end

end Stacks.Clarity

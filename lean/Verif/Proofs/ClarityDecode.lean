import Verif.Proofs.Clarity

/-! Helper lemmas about the Clarity decoder. -/

namespace Stacks.Clarity

open Stacks.Spec

/-! ## Normal forms of the readers -/

@[simp] theorem idx_zero_cons {ε : Type} (t : UInt8) (r : Bytes) : (idx (t :: r) 0 : Outcome ε UInt8) = .ok t := rfl
@[simp] theorem idx_nil {ε : Type} (i : Nat) : (idx [] i : Outcome ε UInt8) = .panic := rfl
@[simp] theorem idx_succ_cons {ε : Type} (t : UInt8) (r : Bytes) (i : Nat) :
    (idx (t :: r) (i + 1) : Outcome ε UInt8) = idx r i := by simp [idx]

theorem checkId_self (t : UInt8) (r : Bytes) : checkId t (t :: r) = .ok () := by simp [checkId]

theorem readLen_eq (t : UInt8) (r : Bytes) :
    readLen (t :: r) = if r.length < 4 then .panic else .ok (beVal (r.take 4)) := by
  match r with
  | [] => rfl
  | [_] => rfl
  | [_, _] => rfl
  | [_, _, _] => rfl
  | a :: b :: c :: d :: r =>
    rw [if_neg (by simp)]
    rfl

theorem readLen_append (t : UInt8) {l r : Bytes} (h : l.length = 4) :
    readLen (t :: (l ++ r)) = .ok (beVal l) := by
  rw [readLen_eq, if_neg (by simp [h]), List.take_append_of_le_length (by omega),
    List.take_of_length_le (by omega)]

theorem readLen_len (t : UInt8) {n : Nat} (r : Bytes) (h : n < 2 ^ 32) :
    readLen (t :: (beBytes 4 n ++ r)) = .ok n := by
  rw [readLen_append _ (beBytes_length 4 n), beVal_beBytes (by norm_num; omega)]

theorem readLen_ok {t : UInt8} {r : Bytes} {n : Nat} (h : readLen (t :: r) = .ok n) :
    n < 2 ^ 32 ∧ ∃ r', r = beBytes 4 n ++ r' := by
  rw [readLen_eq] at h
  split at h
  · cases h
  · simp only [Outcome.ok.injEq] at h
    subst h
    have hl : (r.take 4).length = 4 := by rw [List.length_take]; omega
    constructor
    · have := beVal_lt (r.take 4); rw [hl] at this; norm_num at this ⊢; omega
    · exact ⟨r.drop 4, by rw [beBytes_beVal' hl, List.take_append_drop]⟩

theorem slice_eq {ε : Type} (bs : Bytes) (a n : Nat) :
    (slice bs a (a + n) : Outcome ε Bytes) =
      if a + n ≤ bs.length then .ok ((bs.drop a).take n) else .panic := by
  unfold slice
  by_cases h : a + n ≤ bs.length
  · rw [if_pos ⟨by omega, h⟩, if_pos h, List.drop_take]; congr 2; omega
  · rw [if_neg (by omega), if_neg h]

theorem bufferLoop_eq (bs : Bytes) (n off : Nat) (h : off ≤ bs.length) :
    bufferLoop bs n off = if off + n ≤ bs.length then .ok ((bs.drop off).take n) else .panic := by
  induction n generalizing off with
  | zero => simp [bufferLoop, h]
  | succ n ih =>
    rw [bufferLoop]
    by_cases hlt : off < bs.length
    · have hi : (idx bs off : Outcome Error UInt8) = .ok bs[off] := by
        rw [idx_eq_ok]; exact List.getElem?_eq_getElem hlt
      rw [hi, Outcome.ok_bind, ih (off + 1) (by omega)]
      by_cases hl : off + (n + 1) ≤ bs.length
      · rw [if_pos (by omega), if_pos hl, Outcome.ok_bind, List.drop_eq_getElem_cons hlt, List.take_succ_cons]; rfl
      · rw [if_neg (by omega), if_neg hl]; rfl
    · have hi : (idx bs off : Outcome Error UInt8) = .panic := by
        unfold idx; rw [List.getElem?_eq_none (by omega)]; rfl
      rw [hi, if_neg (by omega)]; rfl

theorem intBody_eq (t : UInt8) (r : Bytes) :
    (do let s ← slice (t :: r) 1 17
        let buff ← copyFromSlice 16 s
        pure (BitVec.ofNat 128 (beVal buff.1)) : Outcome Error (BitVec 128)) =
      if r.length < 16 then .panic else .ok (BitVec.ofNat 128 (beVal (r.take 16))) := by
  have hs := slice_eq (ε := Error) (t :: r) 1 16
  simp only [Nat.reduceAdd, List.length_cons] at hs
  rw [hs]
  by_cases h : r.length < 16
  · rw [if_pos h, if_neg (by omega)]; rfl
  · rw [if_neg h, if_pos (by omega), Outcome.ok_bind]
    have hl : (((t :: r).drop 1).take 16).length = 16 := by simp; omega
    unfold copyFromSlice
    rw [dif_pos hl]
    rfl

theorem stringFromUtf8_bytes (s : Str) : stringFromUtf8 s.bytes = .ok s := by
  unfold stringFromUtf8; rw [fromUtf8_bytes]; rfl

theorem stringFromUtf8_eq_ok {bs : Bytes} {s : Str} : stringFromUtf8 bs = .ok s ↔ bs = s.bytes := by
  constructor
  · intro h
    unfold stringFromUtf8 at h
    cases hf : fromUtf8 bs with
    | none => rw [hf] at h; cases h
    | some t => rw [hf] at h; cases h; exact (bytes_of_fromUtf8 hf).symm
  · rintro rfl; exact stringFromUtf8_bytes s

theorem stringBody_eq (t : UInt8) (n : Nat) (r : Bytes) (h : n < 2 ^ 32) :
    stringBody (t :: (beBytes 4 n ++ r)) =
      if n ≤ r.length then stringFromUtf8 (r.take n) else .panic := by
  unfold stringBody
  rw [readLen_len _ _ h, Outcome.ok_bind, slice_eq]
  have hd : (t :: (beBytes 4 n ++ r)).drop 5 = r := by
    show (beBytes 4 n ++ r).drop 4 = r
    exact List.drop_left' (beBytes_length 4 n)
  rw [hd]
  have hl : (t :: (beBytes 4 n ++ r)).length = 5 + r.length := by simp; omega
  rw [hl]
  by_cases hn : n ≤ r.length
  · rw [if_pos (by omega), if_pos hn]; rfl
  · rw [if_neg (by omega), if_neg hn]; rfl

theorem bufferBody_eq (t : UInt8) (n : Nat) (r : Bytes) (h : n < 2 ^ 32) :
    (readLen (t :: (beBytes 4 n ++ r)) >>= fun len => bufferLoop (t :: (beBytes 4 n ++ r)) len 5) =
      if n ≤ r.length then .ok (r.take n) else .panic := by
  have hl : (t :: (beBytes 4 n ++ r)).length = 5 + r.length := by simp; omega
  rw [readLen_len _ _ h, Outcome.ok_bind, bufferLoop_eq _ _ _ (by omega), hl]
  have hd : (t :: (beBytes 4 n ++ r)).drop 5 = r := by
    show (beBytes 4 n ++ r).drop 4 = r
    exact List.drop_left' (beBytes_length 4 n)
  rw [hd]
  by_cases hn : n ≤ r.length
  · rw [if_pos (by omega), if_pos hn]
  · rw [if_neg (by omega), if_neg hn]

theorem sliceFrom_append {ε : Type} (xs ys : Bytes) {n : Nat} (h : xs.length = n) :
    (sliceFrom (xs ++ ys) n : Outcome ε Bytes) = .ok ys := by
  rw [sliceFrom_eq_ok]; subst h; simp

theorem sliceFrom_one {ε : Type} (t : UInt8) (r : Bytes) :
    (sliceFrom (t :: r) 1 : Outcome ε Bytes) = .ok r := by
  rw [sliceFrom_eq_ok]; simp

variable [Hashes]

theorem readAddr_eq (t : UInt8) (r : Bytes) :
    readAddr (t :: r) = if h : r.length < 21 then .panic else
      (C32.c32Address ((r.drop 1).take 20) (r[0]'(by omega))).mapErr .c32 := by
  unfold readAddr
  have hs := slice_eq (ε := Error) (t :: r) 2 20
  simp only [Nat.reduceAdd, List.length_cons] at hs
  rw [hs]
  by_cases h : r.length < 21
  · rw [dif_pos h, if_neg (by omega)]; rfl
  · rw [dif_neg h, if_pos (by omega), Outcome.ok_bind]
    have hi : (idx (t :: r) 1 : Outcome Error UInt8) = .ok (r[0]'(by omega)) := by
      rw [idx_eq_ok]; simp
    rw [hi, Outcome.ok_bind]; rfl

theorem readAddr_append (t v : UInt8) (x : Arr 20) (r : Bytes) :
    readAddr (t :: v :: (x.1 ++ r)) = (C32.c32Address x.1 v).mapErr .c32 := by
  rw [readAddr_eq, dif_neg (by simp [x.2])]
  simp only [List.drop_succ_cons, List.drop_zero, List.getElem_cons_zero]
  rw [List.take_left' x.2]

/-! ## One step of the decoder -/

section step
variable (stop : Outcome Error CV) (f : Nat) (r : Bytes)

theorem decodeAt_nil : decodeAt stop (f + 1) [] = .panic := rfl
theorem step_int : decodeAt stop (f + 1) (0x00 :: r) =
    if r.length < 16 then .panic else .ok (.int (BitVec.ofNat 128 (beVal (r.take 16)))) := by
  have : decodeAt stop (f + 1) (0x00 :: r) = (intDecode (0x00 :: r) >>= fun x => .ok (.int x)) := rfl
  rw [this]; unfold intDecode; rw [show idInt = 0 from rfl, checkId_self, Outcome.ok_bind, intBody_eq]
  split <;> rfl
theorem step_uint : decodeAt stop (f + 1) (0x01 :: r) =
    if r.length < 16 then .panic else .ok (.uint (BitVec.ofNat 128 (beVal (r.take 16)))) := by
  have : decodeAt stop (f + 1) (0x01 :: r) = (uintDecode (0x01 :: r) >>= fun x => .ok (.uint x)) := rfl
  rw [this]; unfold uintDecode; rw [show idUInt = 1 from rfl, checkId_self, Outcome.ok_bind, intBody_eq]
  split <;> rfl
theorem step_buffer : decodeAt stop (f + 1) (0x02 :: r) =
    (readLen (0x02 :: r) >>= fun len => bufferLoop (0x02 :: r) len 5 >>= fun b => .ok (.buffer b)) := by
  have : decodeAt stop (f + 1) (0x02 :: r) = (bufferDecode (0x02 :: r) >>= fun x => .ok (.buffer x)) := rfl
  rw [this]; unfold bufferDecode; rw [show idBuffer = 2 from rfl, checkId_self, Outcome.ok_bind, bind_assoc]
theorem step_tru : decodeAt stop (f + 1) (0x03 :: r) = .ok .tru := rfl
theorem step_fls : decodeAt stop (f + 1) (0x04 :: r) = .ok .fls := rfl
theorem step_std : decodeAt stop (f + 1) (0x05 :: r) =
    (readAddr (0x05 :: r) >>= fun a => .ok (.principalStd a)) := by
  have : decodeAt stop (f + 1) (0x05 :: r) = (principalStdDecode (0x05 :: r) >>= fun x => .ok (.principalStd x)) := rfl
  rw [this]; unfold principalStdDecode; rw [show idStdPr = 5 from rfl, checkId_self, Outcome.ok_bind]
theorem step_con : decodeAt stop (f + 1) (0x06 :: r) =
    (readAddr (0x06 :: r) >>= fun a => idx (0x06 :: r) 22 >>= fun n =>
      slice (0x06 :: r) 23 (23 + n.toNat) >>= fun s => stringFromUtf8 s >>= fun m =>
        .ok (.principalCon a m)) := by
  have : decodeAt stop (f + 1) (0x06 :: r) =
    (principalConDecode (0x06 :: r) >>= fun x => .ok (.principalCon x.1 x.2)) := rfl
  rw [this]; unfold principalConDecode; rw [show idConPr = 6 from rfl, checkId_self, Outcome.ok_bind]
  simp only [bind_assoc, Outcome.pure_def, Outcome.ok_bind]
theorem step_respOk : decodeAt stop (f + 1) (0x07 :: r) =
    (decodeAt stop f r >>= fun v => .ok (.respOk v)) := by
  have : decodeAt stop (f + 1) (0x07 :: r) =
    (respOkDecode (decodeAt stop f) (0x07 :: r) >>= fun x => .ok (.respOk x)) := rfl
  rw [this]; unfold respOkDecode; rw [show idRespOk = 7 from rfl, checkId_self, Outcome.ok_bind, sliceFrom_one]; rfl
theorem step_respErr : decodeAt stop (f + 1) (0x08 :: r) =
    (decodeAt stop f r >>= fun v => .ok (.respErr v)) := by
  have : decodeAt stop (f + 1) (0x08 :: r) =
    (respErrDecode (decodeAt stop f) (0x08 :: r) >>= fun x => .ok (.respErr x)) := rfl
  rw [this]; unfold respErrDecode; rw [show idRespErr = 8 from rfl, checkId_self, Outcome.ok_bind, sliceFrom_one]; rfl
theorem step_none : decodeAt stop (f + 1) (0x09 :: r) = .ok .optNone := rfl
theorem step_some : decodeAt stop (f + 1) (0x0a :: r) =
    (decodeAt stop f r >>= fun v => .ok (.optSome v)) := by
  have : decodeAt stop (f + 1) (0x0a :: r) =
    (someDecode (decodeAt stop f) (0x0a :: r) >>= fun x => .ok (.optSome x)) := rfl
  rw [this]; unfold someDecode; rw [show idSome = 10 from rfl, checkId_self, Outcome.ok_bind, sliceFrom_one]; rfl
theorem step_list : decodeAt stop (f + 1) (0x0b :: r) =
    (readLen (0x0b :: r) >>= fun len => listLoop (decodeAt stop f) (0x0b :: r) len 5 >>= fun b => .ok (.list b)) := by
  have : decodeAt stop (f + 1) (0x0b :: r) =
    (listDecode (decodeAt stop f) (0x0b :: r) >>= fun x => .ok (.list x)) := rfl
  rw [this]; unfold listDecode; rw [show idList = 11 from rfl, checkId_self, Outcome.ok_bind, bind_assoc]
theorem step_tuple : decodeAt stop (f + 1) (0x0c :: r) =
    (readLen (0x0c :: r) >>= fun len => tupleLoop (decodeAt stop f) (0x0c :: r) len 5 >>= fun b => .ok (.tuple b)) := by
  have : decodeAt stop (f + 1) (0x0c :: r) =
    (tupleDecode (decodeAt stop f) (0x0c :: r) >>= fun x => .ok (.tuple x)) := rfl
  rw [this]; unfold tupleDecode; rw [show idTuple = 12 from rfl, checkId_self, Outcome.ok_bind, bind_assoc]
theorem step_strAscii : decodeAt stop (f + 1) (0x0d :: r) =
    (stringBody (0x0d :: r) >>= fun s => .ok (.strAscii s)) := by
  have : decodeAt stop (f + 1) (0x0d :: r) = (strAsciiDecode (0x0d :: r) >>= fun x => .ok (.strAscii x)) := rfl
  rw [this]; unfold strAsciiDecode; rw [show idStrAscii = 13 from rfl, checkId_self, Outcome.ok_bind]
theorem step_strUtf8 : decodeAt stop (f + 1) (0x0e :: r) =
    (stringBody (0x0e :: r) >>= fun s => .ok (.strUtf8 s)) := rfl

omit [Hashes] in
theorem tag_cases (t : UInt8) : t = 0 ∨ t = 1 ∨ t = 2 ∨ t = 3 ∨ t = 4 ∨ t = 5 ∨ t = 6 ∨ t = 7 ∨ t = 8 ∨
    t = 9 ∨ t = 10 ∨ t = 11 ∨ t = 12 ∨ t = 13 ∨ t = 14 ∨ 14 < t := by
  have h : ∀ n : Fin 256, UInt8.ofNat n.1 = 0 ∨ UInt8.ofNat n.1 = 1 ∨ UInt8.ofNat n.1 = 2 ∨ UInt8.ofNat n.1 = 3 ∨
      UInt8.ofNat n.1 = 4 ∨ UInt8.ofNat n.1 = 5 ∨ UInt8.ofNat n.1 = 6 ∨ UInt8.ofNat n.1 = 7 ∨ UInt8.ofNat n.1 = 8 ∨
      UInt8.ofNat n.1 = 9 ∨ UInt8.ofNat n.1 = 10 ∨ UInt8.ofNat n.1 = 11 ∨ UInt8.ofNat n.1 = 12 ∨
      UInt8.ofNat n.1 = 13 ∨ UInt8.ofNat n.1 = 14 ∨ 14 < UInt8.ofNat n.1 := by decide +kernel
  have := h ⟨t.toNat, t.toNat_lt⟩
  simpa using this

theorem step_unknown {t : UInt8} (h : 14 < t) : decodeAt stop (f + 1) (t :: r) = .err (.unexpectedType t) := by
  have hne : ∀ k : UInt8, k ≤ 14 → t ≠ k := by
    intro k hk e; subst e
    exact absurd h (by rw [UInt8.not_lt]; exact hk)
  rw [decodeAt, idx_zero_cons, Outcome.ok_bind]
  rw [if_neg (hne _ (by decide)), if_neg (hne _ (by decide)), if_neg (hne _ (by decide)), if_neg (hne _ (by decide)),
    if_neg (hne _ (by decide)), if_neg (hne _ (by decide)), if_neg (hne _ (by decide)), if_neg (hne _ (by decide)),
    if_neg (hne _ (by decide)), if_neg (hne _ (by decide)), if_neg (hne _ (by decide)), if_neg (hne _ (by decide)),
    if_neg (hne _ (by decide)), if_neg (hne _ (by decide)), if_neg (hne _ (by decide))]

end step

end Stacks.Clarity

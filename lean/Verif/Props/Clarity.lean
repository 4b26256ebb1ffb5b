import Verif.Proofs.ClarityTrunc
import Verif.Proofs.CVDecEq
import Verif.Props.Hex
import Verif.Spec.Num
import Verif.Concrete.Ripemd

/-! # Properties C21 - C30, C34 - C36: the Clarity wire format -/

namespace Stacks.Clarity
open Stacks.Spec

section
variable [Hashes]

/-- **C21** Round trip, for every well-formed value and any trailing bytes. -/
theorem C21_clarity_roundtrip (v : CV) (h : WellFormed v) (rest : Bytes) :
    ∃ bs, v.encode = .ok bs ∧ decode (bs ++ rest) = .ok v :=
  ⟨sip005 v, encode_ok v (wf_encodable v h), (decode_ok_iff _ v).2 ⟨wf_accepted v h, rest, rfl⟩⟩

/-- **C22** `encode` succeeds exactly on the encodable values. -/
theorem C22_encode_succeeds_iff (v : CV) : (∃ bs, v.encode = .ok bs) ↔ Encodable v :=
  ⟨fun ⟨_, h⟩ => (encode_eq_ok.1 h).1, fun h => ⟨_, encode_ok v h⟩⟩

/-- **C22** On every other value it returns an error; it never panics. -/
theorem C22_encode_error_or_ok (v : CV) :
    (¬ Encodable v → ∃ e, v.encode = .err e) ∧ v.encode ≠ .panic :=
  ⟨encode_err v, encode_not_panic v⟩

/-- **C22** The bytes produced are the ones SIP-005 prescribes. -/
theorem C22_encode_format (v : CV) (bs : Bytes) (h : v.encode = .ok bs) : bs = sip005 v :=
  (encode_eq_ok.1 h).2

/-- **C22** Well-formed values are encodable. -/
theorem C22_wellFormed_encodable (v : CV) (h : WellFormed v) : Encodable v := wf_encodable v h

/-- **C23** The encoding is prefix-free, hence injective, on well-formed values. -/
theorem C23_encode_prefix_free (v w : CV) (bv bw : Bytes) (hv : WellFormed v) (hw : WellFormed w)
    (ev : v.encode = .ok bv) (ew : w.encode = .ok bw) (hp : bv <+: bw) : v = w := by
  obtain ⟨rest, rfl⟩ := hp
  have h1 : decode (bv ++ rest) = .ok v := by
    rw [(encode_eq_ok.1 ev).2]; exact (decode_ok_iff _ v).2 ⟨wf_accepted v hv, rest, rfl⟩
  have h2 : decode (bv ++ rest) = .ok w := by
    rw [(encode_eq_ok.1 ew).2]
    exact (decode_ok_iff _ w).2 ⟨wf_accepted w hw, [], by simp⟩
  rw [h1] at h2; cases h2; rfl

/-- **C24** If decoding returns a value that encodes, then its encoding is a prefix of the input
and the value is well-formed. -/
theorem C24_decode_consumes_encoding (bytes : Bytes) (v : CV) (bs : Bytes)
    (hd : decode bytes = .ok v) (he : v.encode = .ok bs) : bs <+: bytes ∧ WellFormed v := by
  obtain ⟨ha, rest, hr⟩ := (decode_ok_iff _ v).1 hd
  obtain ⟨h1, rfl⟩ := encode_eq_ok.1 he
  exact ⟨⟨rest, hr.symm⟩, accepted_encodable_wf v ha h1⟩

/-- **C24** Exactly what the decoder returns `Ok` for, on every input: the SIP-005 bytes of an
accepted value, followed by anything. -/
theorem C24_decode_exact (bytes : Bytes) (v : CV) :
    decode bytes = .ok v ↔ Accepted v ∧ sip005 v <+: bytes := by
  rw [decode_ok_iff]
  constructor
  · rintro ⟨h, rest, rfl⟩; exact ⟨h, rest, rfl⟩
  · rintro ⟨h, rest, rfl⟩; exact ⟨h, rest, rfl⟩

/-- **C24** Two inputs without trailing bytes that decode to the same value are equal. -/
theorem C24_decode_injective (b1 b2 : Bytes) (v : CV) (n : Nat) (h1 : decode b1 = .ok v)
    (h2 : decode b2 = .ok v) (hl : v.len = .ok n) (l1 : b1.length = n) (l2 : b2.length = n) :
    b1 = b2 := by
  unfold CV.len at hl
  rw [Outcome.bind_eq_ok] at hl
  obtain ⟨e, he, hl⟩ := hl
  cases hl
  have p1 := (C24_decode_consumes_encoding b1 v e h1 he).1
  have p2 := (C24_decode_consumes_encoding b2 v e h2 he).1
  rw [← p1.eq_of_length l1.symm, ← p2.eq_of_length l2.symm]

/-- **C25** Trailing bytes are ignored. -/
theorem C25_decode_ignores_trailing (bytes rest : Bytes) (v : CV) (h : decode bytes = .ok v) :
    decode (bytes ++ rest) = .ok v := by
  obtain ⟨ha, r, rfl⟩ := (decode_ok_iff _ v).1 h
  exact (decode_ok_iff _ v).2 ⟨ha, r ++ rest, by simp⟩

/-- **C26** Decoding any proper prefix of the encoding of a well-formed value panics. -/
theorem C26_truncated_panics (v : CV) (h : WellFormed v) (bs p : Bytes) (he : v.encode = .ok bs)
    (hp : p <+: bs) (hne : p ≠ bs) : decode p = .panic := by
  obtain ⟨q, rfl⟩ := hp
  have hq : q ≠ [] := by rintro rfl; simp at hne
  exact truncated .panic v (wf_accepted v h) _ p q (encode_eq_ok.1 he).2 hq (by omega)

/-- **C27** `decode_clarity_type` on an unknown identifier (and on no bytes). -/
theorem C27_unknown_identifier (t : UInt8) (r : Bytes) (h : 0x0e < t) :
    decode (t :: r) = .err (.unexpectedType t) ∧ decode [] = .panic :=
  ⟨step_unknown _ _ _ h, rfl⟩

omit [Hashes] in
theorem checkId_bad {id t : UInt8} (r : Bytes) (h : t ≠ id) :
    checkId id (t :: r) = .err (.badIdentifier id t) := by
  unfold checkId; simp [h]

/-- **C27** The typed decoders on a foreign identifier. -/
theorem C27_typed_decoders_check_identifier (t : UInt8) (r : Bytes) :
    (t ≠ 0x00 → intDecode (t :: r) = .err (.badIdentifier 0x00 t)) ∧
    (t ≠ 0x01 → uintDecode (t :: r) = .err (.badIdentifier 0x01 t)) ∧
    (t ≠ 0x02 → bufferDecode (t :: r) = .err (.badIdentifier 0x02 t)) ∧
    (t ≠ 0x03 → trueDecode (t :: r) = .err (.badIdentifier 0x03 t)) ∧
    (t ≠ 0x04 → falseDecode (t :: r) = .err (.badIdentifier 0x04 t)) ∧
    (t ≠ 0x05 → principalStdDecode (t :: r) = .err (.badIdentifier 0x05 t)) ∧
    (t ≠ 0x06 → principalConDecode (t :: r) = .err (.badIdentifier 0x06 t)) ∧
    (t ≠ 0x07 → respOkDecode decode (t :: r) = .err (.badIdentifier 0x07 t)) ∧
    (t ≠ 0x08 → respErrDecode decode (t :: r) = .err (.badIdentifier 0x08 t)) ∧
    (t ≠ 0x09 → noneDecode (t :: r) = .err (.badIdentifier 0x09 t)) ∧
    (t ≠ 0x0a → someDecode decode (t :: r) = .err (.badIdentifier 0x0a t)) ∧
    (t ≠ 0x0b → listDecode decode (t :: r) = .err (.badIdentifier 0x0b t)) ∧
    (t ≠ 0x0c → tupleDecode decode (t :: r) = .err (.badIdentifier 0x0c t)) ∧
    (t ≠ 0x0d → strAsciiDecode (t :: r) = .err (.badIdentifier 0x0d t)) := by
  refine ⟨?_, ?_, ?_, ?_, ?_, ?_, ?_, ?_, ?_, ?_, ?_, ?_, ?_, ?_⟩ <;> intro h
  · unfold intDecode; rw [checkId_bad (id := idInt) r h]; rfl
  · unfold uintDecode; rw [checkId_bad (id := idUInt) r h]; rfl
  · unfold bufferDecode; rw [checkId_bad (id := idBuffer) r h]; rfl
  · unfold trueDecode; rw [checkId_bad (id := idTrue) r h]; rfl
  · unfold falseDecode; rw [checkId_bad (id := idFalse) r h]; rfl
  · unfold principalStdDecode; rw [checkId_bad (id := idStdPr) r h]; rfl
  · unfold principalConDecode; rw [checkId_bad (id := idConPr) r h]; rfl
  · unfold respOkDecode; rw [checkId_bad (id := idRespOk) r h]; rfl
  · unfold respErrDecode; rw [checkId_bad (id := idRespErr) r h]; rfl
  · unfold noneDecode; rw [checkId_bad (id := idNone) r h]; rfl
  · unfold someDecode; rw [checkId_bad (id := idSome) r h]; rfl
  · unfold listDecode; rw [checkId_bad (id := idList) r h]; rfl
  · unfold tupleDecode; rw [checkId_bad (id := idTuple) r h]; rfl
  · unfold strAsciiDecode; rw [checkId_bad (id := idStrAscii) r h]; rfl

omit [Hashes] in
/-- **C27** `StringUtf8::decode` does not look at the identifier: it succeeds on the bytes of any
string whatever the first byte. -/
theorem C27_strUtf8_decode_ignores_identifier (t : UInt8) (s : Str) (rest : Bytes)
    (h : s.bytes.length < 2 ^ 32) :
    strUtf8Decode (t :: (beBytes 4 s.bytes.length ++ s.bytes ++ rest)) = .ok s := by
  unfold strUtf8Decode
  rw [List.append_assoc, stringBody_eq _ _ _ h, if_pos (by simp), List.take_left, stringFromUtf8_bytes]

/-- **C27** Each typed decoder agrees with `decode_clarity_type` on its own identifier. -/
theorem C27_typed_decoders_agree (r : Bytes) :
    decode (0x00 :: r) = (intDecode (0x00 :: r) >>= fun x => .ok (.int x)) ∧
    decode (0x01 :: r) = (uintDecode (0x01 :: r) >>= fun x => .ok (.uint x)) ∧
    decode (0x02 :: r) = (bufferDecode (0x02 :: r) >>= fun x => .ok (.buffer x)) ∧
    decode (0x03 :: r) = (trueDecode (0x03 :: r) >>= fun _ => .ok .tru) ∧
    decode (0x04 :: r) = (falseDecode (0x04 :: r) >>= fun _ => .ok .fls) ∧
    decode (0x05 :: r) = (principalStdDecode (0x05 :: r) >>= fun x => .ok (.principalStd x)) ∧
    decode (0x06 :: r) = (principalConDecode (0x06 :: r) >>= fun x => .ok (.principalCon x.1 x.2)) ∧
    decode (0x07 :: r) = (respOkDecode decode (0x07 :: r) >>= fun x => .ok (.respOk x)) ∧
    decode (0x08 :: r) = (respErrDecode decode (0x08 :: r) >>= fun x => .ok (.respErr x)) ∧
    decode (0x09 :: r) = (noneDecode (0x09 :: r) >>= fun _ => .ok .optNone) ∧
    decode (0x0a :: r) = (someDecode decode (0x0a :: r) >>= fun x => .ok (.optSome x)) ∧
    decode (0x0b :: r) = (listDecode decode (0x0b :: r) >>= fun x => .ok (.list x)) ∧
    decode (0x0c :: r) = (tupleDecode decode (0x0c :: r) >>= fun x => .ok (.tuple x)) ∧
    decode (0x0d :: r) = (strAsciiDecode (0x0d :: r) >>= fun x => .ok (.strAscii x)) ∧
    decode (0x0e :: r) = (strUtf8Decode (0x0e :: r) >>= fun x => .ok (.strUtf8 x)) := by
  have hrec : ∀ t : UInt8, ∀ b : Bytes, b.length < (t :: r).length →
      decodeAt .panic (r.length + 1) b = decode b := by
    intro t b hb
    rw [List.length_cons] at hb
    exact fuel_irrelevant _ _ _ _ _ (by omega) (by omega)
  refine ⟨rfl, rfl, rfl, rfl, rfl, rfl, rfl, ?_, ?_, rfl, ?_, ?_, ?_, rfl, rfl⟩
  · unfold respOkDecode
    rw [show idRespOk = 7 from rfl, checkId_self, Outcome.ok_bind, sliceFrom_one, Outcome.ok_bind,
      ← hrec 7 r (by simp)]
    exact step_respOk ..
  · unfold respErrDecode
    rw [show idRespErr = 8 from rfl, checkId_self, Outcome.ok_bind, sliceFrom_one, Outcome.ok_bind,
      ← hrec 8 r (by simp)]
    exact step_respErr ..
  · unfold someDecode
    rw [show idSome = 10 from rfl, checkId_self, Outcome.ok_bind, sliceFrom_one, Outcome.ok_bind,
      ← hrec 10 r (by simp)]
    exact step_some ..
  · unfold listDecode
    rw [show idList = 11 from rfl, checkId_self, Outcome.ok_bind, bind_assoc]
    refine (step_list ..).trans ?_
    congr 1; funext n
    exact congrArg (fun x => x >>= fun b => (.ok (CV.list b) : Outcome Error CV)) (listLoop_congr (hrec 11) n 5 (by omega))
  · unfold tupleDecode
    rw [show idTuple = 12 from rfl, checkId_self, Outcome.ok_bind, bind_assoc]
    refine (step_tuple ..).trans ?_
    congr 1; funext n
    exact congrArg (fun x => x >>= fun b => (.ok (CV.tuple b) : Outcome Error CV)) (tupleLoop_congr (hrec 12) n 5)

/-- The number written by 16 bytes in two's complement, big-endian. -/
def signedValue (bs : Bytes) : Int :=
  let u : Int := numValue 256 (bs.map UInt8.toNat)
  if u < 2 ^ 127 then u else u - 2 ^ 128

omit [Hashes] in
theorem numValue_beVal (bs : Bytes) : numValue 256 (bs.map UInt8.toNat) = beVal bs := by
  unfold numValue beVal
  rw [List.foldl_map]

/-- **C28** `Int`: the identifier, then 16 bytes writing the value in two's complement. -/
theorem C28_int_format (x : BitVec 128) :
    ∃ bs, (CV.int x).encode = .ok (0x00 :: bs) ∧ bs.length = 16 ∧ signedValue bs = x.toInt := by
  refine ⟨_, rfl, beBytes_length .., ?_⟩
  unfold signedValue
  have := x.isLt
  rw [numValue_beVal, beVal_beBytes (by norm_num; omega), BitVec.toInt_eq_toNat_cond]
  simp only []
  split <;> split <;> omega

/-- **C28** `UInt`: the identifier, then 16 bytes writing the value. -/
theorem C28_uint_format (x : BitVec 128) :
    ∃ bs, (CV.uint x).encode = .ok (0x01 :: bs) ∧ bs.length = 16 ∧
      numValue 256 (bs.map UInt8.toNat) = x.toNat := by
  refine ⟨_, rfl, beBytes_length .., ?_⟩
  have := x.isLt
  rw [numValue_beVal, beVal_beBytes (by norm_num; omega)]

/-- **C28** Any 16 bytes after the identifier decode to the number they write. -/
theorem C28_int_decode (bs rest : Bytes) (h : bs.length = 16) :
    (∃ x, decode (0x00 :: (bs ++ rest)) = .ok (.int x) ∧ intDecode (0x00 :: (bs ++ rest)) = .ok x ∧
      x.toInt = signedValue bs) ∧
    (∃ x, decode (0x01 :: (bs ++ rest)) = .ok (.uint x) ∧ uintDecode (0x01 :: (bs ++ rest)) = .ok x ∧
      x.toNat = numValue 256 (bs.map UInt8.toNat)) := by
  have hlt : beVal bs < 2 ^ 128 := by
    have := beVal_lt bs; rw [h] at this; norm_num at this ⊢; omega
  have hb : ∀ t : UInt8, (do
        let s ← slice (t :: (bs ++ rest)) 1 17
        let buff ← copyFromSlice 16 s
        pure (BitVec.ofNat 128 (beVal buff.1)) : Outcome Error (BitVec 128)) =
        .ok (BitVec.ofNat 128 (beVal bs)) := by
    intro t
    rw [intBody_eq, if_neg (by simp [h]), List.take_left' h]
  constructor
  · have hi : intDecode (0x00 :: (bs ++ rest)) = .ok (BitVec.ofNat 128 (beVal bs)) := by
      unfold intDecode; rw [show idInt = 0 from rfl, checkId_self, Outcome.ok_bind, hb]
    refine ⟨_, ?_, hi, ?_⟩
    · rw [(C27_typed_decoders_agree (bs ++ rest)).1, hi]; rfl
    · unfold signedValue
      rw [numValue_beVal, BitVec.toInt_eq_toNat_cond, BitVec.toNat_ofNat, Nat.mod_eq_of_lt hlt]
      simp only []
      split <;> split <;> omega
  · have hi : uintDecode (0x01 :: (bs ++ rest)) = .ok (BitVec.ofNat 128 (beVal bs)) := by
      unfold uintDecode; rw [show idUInt = 1 from rfl, checkId_self, Outcome.ok_bind, hb]
    refine ⟨_, ?_, hi, ?_⟩
    · rw [(C27_typed_decoders_agree (bs ++ rest)).2.1, hi]; rfl
    · rw [numValue_beVal, BitVec.toNat_ofNat, Nat.mod_eq_of_lt hlt]

omit [Hashes] in
/-- **C28** Every integer in the ranges of `i128` and `u128` is the value of some word, so the
statements above cover them all. -/
theorem C28_ranges (i : Int) (n : Nat) (h1 : -2 ^ 127 ≤ i) (h2 : i < 2 ^ 127) (h3 : n < 2 ^ 128) :
    (∃ x : BitVec 128, x.toInt = i) ∧ ∃ x : BitVec 128, x.toNat = n := by
  refine ⟨⟨BitVec.ofInt 128 i, ?_⟩, ⟨BitVec.ofNat 128 n, ?_⟩⟩
  · rw [BitVec.toInt_ofInt, Int.bmod_def]
    split <;> omega
  · rw [BitVec.toNat_ofNat, Nat.mod_eq_of_lt h3]

mutual
theorem sip005_length : (v : CV) → WellFormed v → (sip005 v).length = wireLen v
  | .int _, _ | .uint _, _ | .tru, _ | .fls, _ | .optNone, _ => by simp [sip005, wireLen]
  | .buffer bs, _ => by simp [sip005, wireLen, sized32]; omega
  | .strAscii s, _ => by simp [sip005, wireLen, sized32]; omega
  | .strUtf8 s, _ => by simp [sip005, wireLen, sized32]; omega
  | .principalStd a, h => by
    obtain ⟨x, v, e⟩ := C32.canonical_iff.1 h
    simp [sip005, wireLen, addrBytes_canonical e, x.2]
  | .principalCon a n, h => by
    obtain ⟨x, v, e⟩ := C32.canonical_iff.1 h.1
    simp [sip005, wireLen, addrBytes_canonical e, x.2, sized8]; omega
  | .respOk v, h => by simp [sip005, wireLen, sip005_length v h]; omega
  | .respErr v, h => by simp [sip005, wireLen, sip005_length v h]; omega
  | .optSome v, h => by simp [sip005, wireLen, sip005_length v h]; omega
  | .list vs, h => by simp [sip005, wireLen, sip005All_length vs h.2]; omega
  | .tuple es, h => by simp [sip005, wireLen, sip005Entries_length es h.2]; omega
theorem sip005All_length : (vs : List CV) → WellFormedAll vs → (sip005All vs).length = wireLenAll vs
  | [], _ => rfl
  | v :: vs, h => by simp [sip005All, wireLenAll, sip005_length v h.1, sip005All_length vs h.2]
theorem sip005Entries_length : (es : List (Str × CV)) → WellFormedEntries es →
    (sip005Entries es).length = wireLenEntries es
  | [], _ => rfl
  | (k, v) :: es, h => by
    simp [sip005Entries, wireLenEntries, sip005_length v h.2.1, sip005Entries_length es h.2.2, sized8]; omega
end

/-- **C29** `len` of a well-formed value, of a list of arguments and of a length-prefixed string;
no value has an empty encoding. -/
theorem C29_wire_length (v : CV) (h : WellFormed v) :
    v.len = .ok (wireLen v) ∧ v.isEmpty = .ok false := by
  have h1 : v.len = .ok (wireLen v) := by
    unfold CV.len
    rw [encode_ok v (wf_encodable v h), ← sip005_length v h]; rfl
  refine ⟨h1, ?_⟩
  unfold CV.isEmpty
  rw [h1]
  have := sip005_pos v
  rw [sip005_length v h] at this
  rw [Outcome.ok_bind, Outcome.pure_def, show (wireLen v == 0) = false from by simp; omega]

/-- **C29** The same for the two non-standard types. -/
theorem C29_wire_length_nonstandard (vs : List CV) (s : Str) :
    (vs.length < 2 ^ 32 → (∀ v ∈ vs, WellFormed v) →
      (CV.fnArgs vs).len = .ok (4 + (vs.map wireLen).sum)) ∧
    (s.bytes.length ≤ 128 → (CV.lps s).len = .ok (1 + s.bytes.length)) := by
  constructor
  · intro hl hv
    have hw := wellFormedAll_iff.2 hv
    unfold CV.len
    rw [encode_ok (.fnArgs vs) ⟨hl, wf_encodableAll vs hw⟩, sip005, Outcome.ok_bind, List.length_append,
      beBytes_length, sip005All_length vs hw]
    have : wireLenAll vs = (vs.map wireLen).sum := by
      clear hl hv hw
      induction vs with
      | nil => rfl
      | cons v vs ih => simp [wireLenAll, ih]
    rw [this]; rfl
  · intro h
    unfold CV.len
    rw [encode_ok (.lps s) h, sip005, sized8, Outcome.ok_bind, List.length_cons, Nat.add_comm]; rfl

/-- **C30** Termination: whatever is returned (`stop`) when a bound on the recursion depth is
exceeded, and for every bound above the input length, the result is that of `decode`. So the
bound is never reached, and the depth is at most the length plus one. -/
theorem C30_decode_terminates (bytes : Bytes) (stop : Outcome Error CV) (bound : Nat)
    (h : bytes.length < bound) : decodeAt stop bound bytes = decode bytes :=
  fuel_irrelevant _ _ _ _ _ h (by omega)

omit [Hashes] in
/-- **C34** Length-prefixed strings: encoding. -/
theorem C34_lps_encode (s : Str) :
    (s.bytes.length ≤ 128 → ∃ n : UInt8, n.toNat = s.bytes.length ∧ lpsEncode s = .ok (n :: s.bytes)) ∧
    (128 < s.bytes.length → lpsEncode s = .err (.badStringLength s.bytes.length 128)) := by
  constructor
  · intro h
    refine ⟨UInt8.ofNat s.bytes.length, ?_, lpsEncode_ok h⟩
    rw [UInt8.toNat_ofNat', Nat.mod_eq_of_lt (by omega)]
  · intro h; exact lpsEncode_err (by omega)

omit [Hashes] in
/-- **C34** Length-prefixed strings: decoding is exact, up to 255 bytes. -/
theorem C34_lps_decode (bytes : Bytes) (s : Str) :
    lpsDecode bytes = .ok s ↔
      ∃ (n : UInt8) (rest : Bytes), n.toNat = s.bytes.length ∧ bytes = n :: (s.bytes ++ rest) := by
  match bytes with
  | [] => simp [lpsDecode]
  | n :: r =>
    unfold lpsDecode
    rw [idx_zero_cons, Outcome.ok_bind, Nat.add_comm, slice_eq]
    constructor
    · intro h
      split at h
      · rename_i hl
        rw [Outcome.ok_bind, stringFromUtf8_eq_ok, List.drop_one, List.tail_cons] at h
        rw [List.length_cons] at hl
        refine ⟨n, r.drop n.toNat, ?_, ?_⟩
        · rw [← h, List.length_take]; omega
        · rw [← h, List.take_append_drop]
      · cases h
    · rintro ⟨m, rest, hm, he⟩
      cases he
      rw [if_pos (by simp; omega), Outcome.ok_bind, stringFromUtf8_eq_ok, hm]
      simp

omit [Hashes] in
/-- **C34** Round trip with trailing bytes. -/
theorem C34_lps_roundtrip (s : Str) (bs rest : Bytes) (h : lpsEncode s = .ok bs) :
    lpsDecode (bs ++ rest) = .ok s := by
  by_cases hl : s.bytes.length ≤ 128
  · rw [lpsEncode_ok hl] at h; cases h
    rw [C34_lps_decode]
    exact ⟨UInt8.ofNat s.bytes.length, rest, by rw [UInt8.toNat_ofNat', Nat.mod_eq_of_lt (by omega)], by simp [sized8]⟩
  · rw [lpsEncode_err hl] at h; cases h

theorem fnArgsLoop_ok (vs : List CV) (h : WellFormedAll vs) (rest : Bytes) :
    fnArgsLoop vs.length (sip005All vs ++ rest) = .ok vs := by
  induction vs with
  | nil => rfl
  | cons v vs ih =>
    rw [List.length_cons, fnArgsLoop, sip005All, List.append_assoc,
      (decode_ok_iff _ v).2 ⟨wf_accepted v h.1, _, rfl⟩, Outcome.ok_bind, CV.len,
      encode_ok v (wf_encodable v h.1)]
    simp only [Outcome.ok_bind, Outcome.pure_def]
    rw [sliceFrom_append _ _ rfl, Outcome.ok_bind, ih h.2]; rfl

/-- **C35** Function arguments round trip. -/
theorem C35_fn_arguments_roundtrip (vs : List CV) (hl : vs.length < 2 ^ 32)
    (h : ∀ v ∈ vs, WellFormed v) (rest : Bytes) :
    ∃ bs, (CV.fnArgs vs).encode = .ok bs ∧ fnArgsDecode (bs ++ rest) = .ok vs := by
  have hw := wellFormedAll_iff.2 h
  refine ⟨_, encode_ok (.fnArgs vs) ⟨hl, wf_encodableAll vs hw⟩, ?_⟩
  unfold fnArgsDecode
  rw [sip005, if_neg (by simp), List.append_assoc, List.take_left' (beBytes_length ..),
    List.drop_left' (beBytes_length ..), beVal_beBytes (by norm_num; omega), fnArgsLoop_ok vs hw]

theorem fnArgsLoop_sound (n : Nat) : ∀ (bytes : Bytes) (vs : List CV), fnArgsLoop n bytes = .ok vs →
    vs.length = n ∧ WellFormedAll vs ∧ ∃ rest, bytes = sip005All vs ++ rest := by
  induction n with
  | zero => intro bytes vs h; rw [fnArgsLoop] at h; cases h; exact ⟨rfl, trivial, bytes, rfl⟩
  | succ n ih =>
    intro bytes vs h
    rw [fnArgsLoop] at h
    simp only [CV.len, Outcome.bind_eq_ok, sliceFrom_eq_ok, encode_eq_ok, Outcome.pure_def, Outcome.ok.injEq,
      decode_ok_iff] at h
    obtain ⟨v, ⟨ha, r, rfl⟩, l, ⟨_, ⟨he, rfl⟩, rfl⟩, r', ⟨_, rfl⟩, vs', hvs, rfl⟩ := h
    rw [List.drop_left] at hvs
    obtain ⟨h1, h2, rest, rfl⟩ := ih _ _ hvs
    exact ⟨by simp [h1], ⟨accepted_encodable_wf v ha he, h2⟩, rest, by simp [sip005All]⟩

/-- **C35** Exactly what `FnArguments::decode` accepts. -/
theorem C35_fn_arguments_exact (bytes : Bytes) (vs : List CV) :
    fnArgsDecode bytes = .ok vs ↔
      vs.length < 2 ^ 32 ∧ (∀ v ∈ vs, WellFormed v) ∧ ∃ bs, (CV.fnArgs vs).encode = .ok bs ∧ bs <+: bytes := by
  constructor
  · intro h
    unfold fnArgsDecode at h
    split at h
    · cases h
    · rename_i hl
      obtain ⟨h1, h2, rest, h3⟩ := fnArgsLoop_sound _ _ _ h
      have hl4 : (bytes.take 4).length = 4 := by rw [List.length_take]; omega
      have hlt : vs.length < 2 ^ 32 := by
        rw [h1]; have := beVal_lt (bytes.take 4); rw [hl4] at this; norm_num at this ⊢; omega
      refine ⟨hlt, wellFormedAll_iff.1 h2, _, encode_ok (.fnArgs vs) ⟨hlt, wf_encodableAll vs h2⟩, rest, ?_⟩
      rw [sip005, h1, beBytes_beVal' hl4, List.append_assoc, ← h3, List.take_append_drop]
  · rintro ⟨hl, hv, bs, he, rest, rfl⟩
    obtain ⟨bs', he', hd⟩ := C35_fn_arguments_roundtrip vs hl hv rest
    rw [he] at he'; cases he'
    exact hd

/-- **C36** The hexadecimal forms. -/
theorem C36_hex_form (v : CV) (bs : Bytes) (h : v.encode = .ok bs) :
    v.hex = .ok (Hex.bytesToHex bs) ∧
    v.hexPrefixed = .ok ('0' :: 'x' :: Hex.bytesToHex bs) ∧
    Hex.hexToBytes (Hex.bytesToHex bs) = .ok bs := by
  refine ⟨?_, ?_, (Hex.C01_hex_roundtrip bs).1⟩
  · unfold CV.hex; rw [h]; rfl
  · unfold CV.hexPrefixed CV.hex; rw [h]; rfl

/-- **C36** A well-formed value is recovered from its hexadecimal form. -/
theorem C36_hex_roundtrip (v : CV) (h : WellFormed v) :
    ∃ s bs, v.hex = .ok s ∧ Hex.hexToBytes s = .ok bs ∧ decode bs = .ok v := by
  obtain ⟨bs, he, hd⟩ := C21_clarity_roundtrip v h []
  rw [List.append_nil] at hd
  exact ⟨_, bs, (C36_hex_form v bs he).1, (C36_hex_form v bs he).2.2, hd⟩

end

/-! ### concrete cases, with the real SHA-256 -/

section
attribute [local instance] Concrete.realHashes

/-- A mainnet principal. -/
def exAddr : Str := "SP2JXKMSH007NPYAQHKJPQMAQYAD90NQGTVJVQ02B".toList

def exHash : Arr 20 := ⟨[0xa5, 0xd9, 0xd3, 0x31, 0x00, 0x0f, 0x5b, 0x79, 0x57, 0x8c, 0xe5, 0x6b, 0xd1,
  0x57, 0xf2, 0x9a, 0x90, 0x56, 0xf0, 0xd6], rfl⟩

theorem exAddr_canonical : CanonicalAddress exAddr := ⟨exHash, 22, by decide, by decide +kernel⟩

/-- A nested value of every kind. -/
def exValue : CV := .respOk (.tuple [
  ("id".toList, .int (-5)), ("amount".toList, .uint 7), ("flag".toList, .tru), ("off".toList, .fls),
  ("who".toList, .principalStd exAddr), ("contract".toList, .principalCon exAddr "tokén".toList),
  ("memo".toList, .optSome (.buffer [0xde, 0xad])), ("none".toList, .optNone),
  ("err".toList, .respErr (.list [.strAscii "a\"b".toList, .strUtf8 "é→".toList])), ("".toList, .list [])])

theorem exValue_wf : WellFormed exValue := by
  refine ⟨by decide, ?_⟩
  rw [wellFormedEntries_iff]
  intro e he
  simp only [List.mem_cons, List.not_mem_nil, or_false] at he
  rcases he with rfl | rfl | rfl | rfl | rfl | rfl | rfl | rfl | rfl | rfl
  · exact ⟨by decide, trivial⟩
  · exact ⟨by decide, trivial⟩
  · exact ⟨by decide, trivial⟩
  · exact ⟨by decide, trivial⟩
  · exact ⟨by decide, exAddr_canonical⟩
  · exact ⟨by decide, exAddr_canonical, by decide⟩
  · exact ⟨by decide, show (2 : Nat) < _ by decide⟩
  · exact ⟨by decide, trivial⟩
  · exact ⟨by decide, by decide, ⟨by decide, by decide⟩, show (5 : Nat) < _ by decide, trivial⟩
  · exact ⟨by decide, by decide, trivial⟩

/-- C21, C23, C26, C29, C36: the hypothesis is met by a deeply nested value. -/
example : ∃ bs, exValue.encode = .ok bs ∧ decode (bs ++ [1, 2, 3]) = .ok exValue :=
  C21_clarity_roundtrip exValue exValue_wf _
example : (exValue.encode >>= decode) = .ok exValue := by decide +kernel
example : exValue.len = .ok (wireLen exValue) ∧ wireLen exValue = 178 := by decide +kernel
example : (exValue.encode >>= fun bs => decode (bs.take 100)) = .panic := by decide +kernel

/-- The repository's own vectors. -/
example : (CV.principalStd exAddr).hex = .ok "0516a5d9d331000f5b79578ce56bd157f29a9056f0d6".toList := by
  decide +kernel
example : (CV.principalCon "STB44HYPYAT2BB2QE513NSP81HTMYWBJP02HPGK6".toList "abcd".toList).hex =
    .ok "061a164247d6f2b425ac5771423ae6c80c754f7172b00461626364".toList := by decide +kernel
example : (CV.int (-1)).hex = .ok "00ffffffffffffffffffffffffffffffff".toList := by decide +kernel

/-- C22: each way of not being encodable. -/
example : (CV.strAscii "é".toList).encode = .err (.badStringType "Ascii".toList) := by decide +kernel
example : (CV.principalStd "SP1".toList).encode = .err (.c32 (.badAddress "SP1".toList)) := by decide +kernel
example : (CV.tuple [(List.replicate 129 'a', .tru)]).encode = .err (.badStringLength 129 128) := by
  decide +kernel

/-- C24 (finding): values that decode but do not encode again. -/
theorem C24_decoded_value_may_not_encode :
    (decode [0x0d, 0, 0, 0, 2, 0xc3, 0xa9] = .ok (.strAscii ['é']) ∧
      (CV.strAscii ['é']).encode = .err (.badStringType "Ascii".toList)) ∧
    (decode ([0x0c, 0, 0, 0, 1, 129] ++ List.replicate 129 97 ++ [3]) =
        .ok (.tuple [(List.replicate 129 'a', .tru)]) ∧
      (CV.tuple [(List.replicate 129 'a', .tru)]).encode = .err (.badStringLength 129 128)) := by
  decide +kernel

/-- C21 (finding): values that encode but do not decode to themselves: a principal whose version
is not one of the four, a principal whose hash does not have 20 bytes, a principal in a
non-canonical spelling, and non-standard values inside a list. -/
theorem C21_encodable_but_not_roundtrip :
    ((CV.principalStd "S12JXKMSH007NPYAQHKJPQMAQYAD90NQGTVYNNXWN".toList).encode = .ok (5 :: 1 :: exHash.1) ∧
      decode (5 :: 1 :: exHash.1) = .err (.c32 (.unknownAddressVersion 1))) ∧
    ((CV.principalStd "SP820DJMP8B0".toList).encode = .ok [5, 22, 1, 2, 3] ∧ decode [5, 22, 1, 2, 3] = .panic) ∧
    ((CV.principalStd "Sp2jxkmsh007npyaqhkjpqmaqyad90nqgtvjvq02b".toList).encode >>= decode) =
      .ok (.principalStd exAddr) ∧
    ((CV.list [.lps "ab".toList]).encode = .ok [11, 0, 0, 0, 1, 2, 97, 98] ∧
      decode [11, 0, 0, 0, 1, 2, 97, 98] = .panic) := by
  decide +kernel

/-- C27. -/
example : decode [0x0f, 1, 2] = .err (.unexpectedType 0x0f) := by decide +kernel
example : strUtf8Decode [0x99, 0, 0, 0, 1, 97] = .ok ['a'] := by decide +kernel
example : intDecode [1, 2] = .err (.badIdentifier 0 1) := by decide +kernel

/-- C28. -/
example : signedValue (List.replicate 16 0xff) = -1 := by decide +kernel
example : decode (0 :: 0x80 :: List.replicate 15 0) = .ok (.int (BitVec.ofInt 128 (-2 ^ 127))) := by decide +kernel

/-- C34. -/
example : lpsEncode "héllo".toList = .ok [6, 104, 0xc3, 0xa9, 108, 108, 111] := by decide +kernel
example : (lpsEncode (List.replicate 128 'x')).isOk = true ∧ (lpsEncode (List.replicate 129 'x')).isOk = false := by
  decide +kernel

/-- C35. -/
example : ((CV.fnArgs [exValue, .tru]).encode >>= fun bs => fnArgsDecode (bs ++ [9])) = .ok [exValue, .tru] := by
  decide +kernel

/-! ### instances of the theorems with hypotheses -/

/-- The bytes of the value. -/
theorem exValue_encodes : ∃ bs, exValue.encode = .ok bs ∧ decode bs = .ok exValue := by
  obtain ⟨bs, h1, h2⟩ := C21_clarity_roundtrip exValue exValue_wf []
  rw [List.append_nil] at h2
  exact ⟨bs, h1, h2⟩

example : ∃ bs, exValue.encode = .ok bs ∧ bs = sip005 exValue := by
  obtain ⟨bs, h, _⟩ := exValue_encodes
  exact ⟨bs, h, C22_encode_format _ _ h⟩
example := C22_wellFormed_encodable exValue exValue_wf
example : ∃ bs, decode bs = .ok exValue ∧ ∃ b, exValue.encode = .ok b ∧ b <+: bs ++ [1] := by
  obtain ⟨bs, h, h'⟩ := exValue_encodes
  exact ⟨bs, h', bs, h, (C24_decode_consumes_encoding _ _ _ (C25_decode_ignores_trailing _ [1] _ h') h).1⟩
-- no encoding begins another: neither of these two begins the other
example : ¬ ([0x0a, 0x03] : Bytes) <+: [0x0a, 0x04] := fun h => by
  cases C23_encode_prefix_free (.optSome .tru) (.optSome .fls) _ _ trivial trivial (by decide +kernel)
    (by decide +kernel) h
example := C24_decode_injective [0x0a, 0x03] [0x0a, 0x03] (.optSome .tru) 2 (by decide +kernel) (by decide +kernel)
  (by decide +kernel) rfl rfl
example := C26_truncated_panics (.optSome .tru) trivial [0x0a, 0x03] [0x0a] (by decide +kernel) (by decide) (by decide)
example := C27_unknown_identifier 0x0f [1, 2] (by decide)
example := C27_strUtf8_decode_ignores_identifier 0x99 "aé".toList [7] (by decide +kernel)
example := C28_int_decode (0x80 :: List.replicate 15 0) [7] rfl
example := C28_ranges (-2 ^ 127) (2 ^ 128 - 1) (by decide) (by decide) (by decide)
example := C29_wire_length exValue exValue_wf
example := C30_decode_terminates [0x0a, 0x0a, 0x03] .panic 4 (by decide)
example := C34_lps_roundtrip "héllo".toList [6, 104, 0xc3, 0xa9, 108, 108, 111] [1] (by decide +kernel)
example := C35_fn_arguments_roundtrip [exValue, .tru] (by decide)
  (List.forall_mem_cons.2 ⟨exValue_wf, List.forall_mem_singleton.2 trivial⟩) [9]
example := C36_hex_form (.optSome .tru) [0x0a, 0x03] (by decide +kernel)
example := C36_hex_roundtrip exValue exValue_wf

end
end Stacks.Clarity

import Verif.Proofs.ClarityTrunc
import Verif.Props.Clarity
import Verif.Spec.Payload

/-! # Lemmas about payloads -/

namespace Stacks.Tx
open Stacks.Spec Stacks.Clarity

theorem writeBytes_eq {ε : Type} (bs : Bytes) : ∀ (buff : Bytes) (i : Nat), i + bs.length ≤ buff.length →
    (writeBytes buff i bs : Outcome ε Bytes) = .ok (buff.take i ++ bs ++ buff.drop (i + bs.length)) := by
  induction bs with
  | nil => intro buff i h; simp [writeBytes]
  | cons b bs ih =>
    intro buff i h
    rw [List.length_cons] at h
    rw [writeBytes, if_pos (by omega), ih _ _ (by rw [List.length_set]; omega)]
    congr 1
    rw [List.length_cons, List.take_set, List.drop_set_of_lt (by omega)]
    have h1 : (List.take (i + 1) buff).set i b = buff.take i ++ [b] := by
      rw [List.take_add_one, List.set_append_right _ _ (by simp)]
      simp [List.getElem?_eq_getElem (show i < buff.length by omega), Nat.min_eq_left (show i ≤ buff.length by omega)]
    rw [h1]
    simp [Nat.add_comm, Nat.add_left_comm]

theorem memo_write (memo : Str) (h : memo.bytes.length ≤ 34) :
    (writeBytes (List.replicate 34 (0 : UInt8)) 0 memo.bytes : Outcome Error Bytes) = .ok (memoField memo) := by
  rw [writeBytes_eq _ _ _ (by simpa using h), List.drop_replicate]
  simp only [List.take_zero, List.nil_append, Nat.zero_add, memoField]

theorem memoField_length (memo : Str) (h : memo.bytes.length ≤ 34) : (memoField memo).length = 34 := by
  simp [memoField]; omega

theorem nul_bytes (n : Nat) : Str.bytes (List.replicate n '\x00') = List.replicate n 0 := by
  induction n with
  | zero => rfl
  | succ n ih => rw [List.replicate_succ, Str.bytes_cons, ih, List.replicate_succ]; rfl

theorem paddedMemo_bytes (memo : Str) : (paddedMemo memo).bytes = memoField memo := by
  unfold paddedMemo memoField; rw [Str.bytes_append, nul_bytes]

theorem paddedMemo_of_full (memo : Str) (h : memo.bytes.length = 34) : paddedMemo memo = memo := by
  unfold paddedMemo; rw [h]; simp

theorem memoField_padded (memo : Str) (h : memo.bytes.length ≤ 34) :
    memoField (paddedMemo memo) = memoField memo := by
  rw [memoField, paddedMemo_bytes, memoField_length memo h]; simp

variable [Hashes]

theorem transfer_encode (p : TokenTransfer) (h : p.memo.bytes.length ≤ 34) :
    p.encode = (p.address.encode >>= fun a => .ok (0x00 :: a ++ be64 p.amount ++ memoField p.memo)) := by
  unfold TokenTransfer.encode
  simp only []
  rw [if_neg (by unfold Str.len; omega), memo_write _ h]
  rfl

theorem transfer_encode_ok (p : TokenTransfer) (h : WellFormedTransfer p) :
    p.encode = .ok (tokenTransferBytes p) := by
  rw [transfer_encode p h.2, encode_ok _ (wf_encodable _ h.1)]; rfl

/-- The body of the transfer decoder, after the type byte. -/
theorem transfer_decode_cons (r : Bytes) :
    TokenTransfer.decode (0x00 :: r) =
      (Clarity.decode r >>= fun a => a.len >>= fun l =>
        if l + 8 ≤ r.length then
          (if l + 42 ≤ r.length then
            Clarity.stringFromUtf8 ((r.drop (l + 8)).take 34) >>= fun m =>
              .ok ⟨a, UInt64.ofNat (beVal ((r.drop l).take 8)), m⟩
          else .panic)
        else .panic) := by
  unfold TokenTransfer.decode
  rw [idx_zero_cons, Outcome.ok_bind, if_neg (by decide)]
  simp only []
  rw [sliceFrom_one, Outcome.ok_bind]
  congr 1; funext a
  congr 1; funext l
  rw [slice_eq, slice_eq]
  have e1 : (0x00 :: r).drop (1 + l) = r.drop l := by rw [Nat.add_comm, List.drop_succ_cons]
  have e2 : (0x00 :: r).drop (1 + l + 8) = r.drop (l + 8) := by
    rw [show 1 + l + 8 = (l + 8) + 1 by omega, List.drop_succ_cons]
  rw [e1, e2, List.length_cons]
  by_cases h1 : l + 8 ≤ r.length
  · rw [if_pos h1, if_pos (by omega), Outcome.ok_bind]
    by_cases h2 : l + 42 ≤ r.length
    · rw [if_pos h2, if_pos (by omega)]; rfl
    · rw [if_neg h2, if_neg (by omega)]; rfl
  · rw [if_neg h1, if_neg (by omega)]; rfl

omit [Hashes] in
theorem be64_ofNat_beVal {bs : Bytes} (h : bs.length = 8) : be64 (UInt64.ofNat (beVal bs)) = bs := by
  unfold be64
  have hlt : beVal bs < 2 ^ 64 := by
    have := beVal_lt bs; rw [h] at this; norm_num at this ⊢; omega
  rw [UInt64.toNat_ofNat', Nat.mod_eq_of_lt hlt, beBytes_beVal' h]

omit [Hashes] in
theorem ofNat_beVal_be64 (x : UInt64) : UInt64.ofNat (beVal (be64 x)) = x := by
  rw [beVal_be64]; simp

/-- Exactly what the transfer decoder returns. -/
theorem transfer_decode_iff (bytes : Bytes) (p : TokenTransfer) :
    TokenTransfer.decode bytes = .ok p ↔
      WellFormed p.address ∧ p.memo.bytes.length = 34 ∧ tokenTransferBytes p <+: bytes := by
  match bytes with
  | [] => simp [TokenTransfer.decode, tokenTransferBytes]
  | t :: r =>
    by_cases ht : t = 0
    · subst ht
      rw [transfer_decode_cons]
      constructor
      · intro h
        simp only [Outcome.bind_eq_ok, CV.len, encode_eq_ok, Outcome.pure_def, Outcome.ok.injEq, decode_ok_iff] at h
        obtain ⟨a, ⟨ha, rest, rfl⟩, l, ⟨_, ⟨he, rfl⟩, rfl⟩, h⟩ := h
        split at h
        · split at h
          · rename_i h1 h2
            rw [List.length_append] at h1 h2
            simp only [Outcome.bind_eq_ok, stringFromUtf8_eq_ok] at h
            obtain ⟨m, hm, h⟩ := h
            cases h
            rw [← List.drop_drop, List.drop_left] at hm
            have hl8 : (rest.take 8).length = 8 := by simp; omega
            refine ⟨accepted_encodable_wf a ha he, ?_, rest.drop 42, ?_⟩
            · show m.bytes.length = 34
              rw [← hm]; simp; omega
            · have e : memoField m = (rest.drop 8).take 34 := by
                unfold memoField
                rw [← hm]
                simp only [List.length_take, List.length_drop]
                rw [show 34 - min 34 (rest.length - 8) = 0 by omega]; simp
              show (0x00 :: sip005 a ++ be64 (UInt64.ofNat _) ++ memoField m) ++ _ = _
              rw [List.drop_left, be64_ofNat_beVal hl8, e, List.cons_append, List.cons_append, List.cons_append,
                List.append_assoc, List.append_assoc]
              congr 2
              rw [show rest.drop 42 = (rest.drop 8).drop 34 by simp, List.take_append_drop, List.take_append_drop]
          · cases h
        · cases h
      · rintro ⟨h1, h2, rest, h3⟩
        have h3' : r = sip005 p.address ++ (be64 p.amount ++ (memoField p.memo ++ rest)) := by
          have := h3
          unfold tokenTransferBytes at this
          simp only [List.cons_append, List.append_assoc] at this
          exact (List.cons.inj this).2.symm
        subst h3'
        have hm : memoField p.memo = p.memo.bytes := by unfold memoField; rw [h2]; simp
        rw [(decode_ok_iff _ p.address).2 ⟨wf_accepted _ h1, _, rfl⟩, Outcome.ok_bind, CV.len,
          encode_ok _ (wf_encodable _ h1), Outcome.ok_bind, Outcome.pure_def, Outcome.ok_bind, hm,
          if_pos (by simp), if_pos (by simp [h2]; omega), ← List.drop_drop, List.drop_left,
          List.take_left' (be64_length _), List.drop_left' (be64_length _), List.take_left' h2,
          stringFromUtf8_bytes, Outcome.ok_bind, ofNat_beVal_be64]
    · constructor
      · intro h
        unfold TokenTransfer.decode at h
        rw [idx_zero_cons, Outcome.ok_bind, if_pos (by exact ht)] at h
        cases h
      · rintro ⟨_, _, rest, h⟩
        exact absurd (List.cons.inj h).1.symm ht

omit [Hashes] in
theorem fnArgs_bytes (vs : List CV) : sip005All vs = (vs.map sip005).flatten := by
  induction vs with
  | nil => rfl
  | cons v vs ih => rw [sip005All, ih]; rfl

theorem call_encode_ok (p : ContractCall) (h : WellFormedCall p) : p.encode = .ok (contractCallBytes p) := by
  unfold ContractCall.encode
  have hw := wellFormedAll_iff.2 h.2.2.2
  rw [encode_ok (.lps p.contract) h.1, encode_ok (.lps p.name) h.2.1,
    encode_ok (.fnArgs p.args) ⟨h.2.2.1, wf_encodableAll _ hw⟩]
  simp only [Outcome.ok_bind, Outcome.pure_def, sip005, contractCallBytes, fnArgs_bytes]
  simp [payloadContractCall]

theorem lps_len {s : Str} {l : Nat} : (CV.lps s).len = .ok l ↔ s.bytes.length ≤ 128 ∧ l = 1 + s.bytes.length := by
  rw [CV.len, Outcome.bind_eq_ok]
  constructor
  · rintro ⟨bs, h1, h2⟩
    obtain ⟨h3, rfl⟩ := encode_eq_ok.1 h1
    refine ⟨h3, ?_⟩
    rw [Outcome.pure_def] at h2
    rw [← Outcome.ok.inj h2, sip005, sized8, List.length_cons, Nat.add_comm]
  · rintro ⟨h, rfl⟩
    exact ⟨_, encode_ok (.lps s) h, by rw [sip005, sized8, List.length_cons, Nat.add_comm]; rfl⟩

omit [Hashes] in
theorem lpsDecode_sized8 {s : Str} (h : s.bytes.length < 256) (rest : Bytes) :
    lpsDecode (sized8 s ++ rest) = .ok s := by
  rw [C34_lps_decode]
  exact ⟨_, rest, by rw [UInt8.toNat_ofNat', Nat.mod_eq_of_lt h], by rw [sized8, List.cons_append]⟩

omit [Hashes] in
theorem lpsDecode_ok {s : Str} {bytes : Bytes} (h : lpsDecode bytes = .ok s) :
    s.bytes.length < 256 ∧ ∃ rest, bytes = sized8 s ++ rest := by
  obtain ⟨n, rest, hn, rfl⟩ := (C34_lps_decode bytes s).1 h
  refine ⟨hn ▸ n.toNat_lt, rest, ?_⟩
  rw [sized8, ← hn]; simp

/-- Exactly what the contract-call decoder returns. -/
theorem call_decode_iff (bytes : Bytes) (p : ContractCall) :
    ContractCall.decode bytes = .ok p ↔ WellFormedCall p ∧ contractCallBytes p <+: bytes := by
  constructor
  · intro h
    unfold ContractCall.decode at h
    simp only [Outcome.bind_eq_ok] at h
    obtain ⟨t, ht, h⟩ := h
    split at h
    · cases h
    · rename_i hne
      have ht2 : t = 2 := by simpa [payloadContractCall] using hne
      subst ht2
      simp only [Outcome.bind_eq_ok, sliceFrom_eq_ok, slice_eq_ok, idx_eq_ok, lps_len, hash160New,
        copyFromSlice_eq_ok, Outcome.pure_def, Outcome.ok.injEq] at h ht
      obtain ⟨v, hv, hs, ⟨_, hl, rfl⟩, hash, hh, r1, ⟨_, rfl⟩, con, hcon, l1, ⟨hc1, rfl⟩, r2, ⟨_, rfl⟩, nm, hnm, l2,
        ⟨hn1, rfl⟩, r3, ⟨_, rfl⟩, args, hargs, rfl⟩ := h
      match bytes, ht, hv with
      | t' :: v' :: r, ht, hv =>
        simp only [List.getElem?_cons_zero, List.getElem?_cons_succ, Option.some.injEq] at ht hv
        subst ht hv
        simp only [Nat.reduceAdd, List.drop_succ_cons, List.take_succ_cons, List.drop_zero] at *
        obtain ⟨_, rest1, e1⟩ := lpsDecode_ok hcon
        have er : r = hash.1 ++ (sized8 con ++ rest1) := by
          rw [← e1, hh, List.take_append_drop]
        have hs8 : ∀ s : Str, (sized8 s).length = 1 + s.bytes.length := by
          intro s; rw [sized8, List.length_cons, Nat.add_comm]
        have d1 : List.drop (22 + (1 + con.bytes.length)) (2 :: v' :: r) = rest1 := by
          rw [show 22 + (1 + con.bytes.length) = (20 + (sized8 con).length) + 2 by rw [hs8]; omega]
          simp only [List.drop_succ_cons]
          rw [er, ← List.drop_drop, List.drop_left' hash.2, List.drop_left]
        rw [d1] at hnm
        obtain ⟨_, rest2, e2⟩ := lpsDecode_ok hnm
        have d2 : List.drop (22 + (1 + con.bytes.length) + (1 + nm.bytes.length)) (2 :: v' :: r) = rest2 := by
          rw [← List.drop_drop, d1, e2, List.drop_left' (hs8 nm)]
        rw [d2] at hargs
        obtain ⟨hlt, hwf, bs, hbs, rest3, e3⟩ := (C35_fn_arguments_exact rest2 args).1 hargs
        obtain ⟨_, rfl⟩ := encode_eq_ok.1 hbs
        refine ⟨⟨hc1, hn1, hlt, hwf⟩, rest3, ?_⟩
        rw [er, e2, ← e3, sip005, contractCallBytes, fnArgs_bytes]
        simp
  · rintro ⟨hw, rest, rfl⟩
    obtain ⟨bs, hbs, hd⟩ := C35_fn_arguments_roundtrip p.args hw.2.2.1 hw.2.2.2 rest
    obtain ⟨_, rfl⟩ := encode_eq_ok.1 hbs
    rw [sip005, fnArgs_bytes] at hd
    have hc := lpsDecode_sized8 (s := p.contract) (by have := hw.1; omega)
    have hn := lpsDecode_sized8 (s := p.name) (by have := hw.2.1; omega)
    have hs8 : ∀ s : Str, (sized8 s).length = 1 + s.bytes.length := by
      intro s; rw [sized8, List.length_cons, Nat.add_comm]
    unfold contractCallBytes ContractCall.decode
    simp only [List.cons_append, idx_zero_cons, Outcome.ok_bind, List.append_assoc] at hd ⊢
    rw [if_neg (by decide)]
    simp only [Nat.reduceAdd]
    rw [show (1 : Nat) = 0 + 1 from rfl, idx_succ_cons, idx_zero_cons, Outcome.ok_bind]
    rw [show (2 :: p.address.version :: (p.address.hash.1 ++ (sized8 p.contract ++ (sized8 p.name ++
        (beBytes 4 p.args.length ++ ((List.map sip005 p.args).flatten ++ rest)))))) =
        [2, p.address.version] ++ (p.address.hash.1 ++ (sized8 p.contract ++ (sized8 p.name ++
        (beBytes 4 p.args.length ++ ((List.map sip005 p.args).flatten ++ rest))))) from rfl]
    rw [slice_append (xs := [2, p.address.version]) (a := 2) (b := 22) rfl (by rw [p.address.hash.2]), Outcome.ok_bind,
      show (hash160New p.address.hash.1 : Outcome Error (Arr 20)) = .ok p.address.hash from
        copyFromSlice_eq_ok.2 rfl, Outcome.ok_bind]
    rw [← List.append_assoc [2, p.address.version], sliceFrom_append _ _ (by simp [p.address.hash.2]), Outcome.ok_bind, hc,
      Outcome.ok_bind, lps_len.2 ⟨hw.1, rfl⟩, Outcome.ok_bind,
      ← List.append_assoc _ (sized8 p.contract), sliceFrom_append _ _ (by simp [p.address.hash.2, hs8]; omega),
      Outcome.ok_bind, hn, Outcome.ok_bind, lps_len.2 ⟨hw.2.1, rfl⟩, Outcome.ok_bind,
      ← List.append_assoc _ (sized8 p.name), sliceFrom_append _ _ (by simp [p.address.hash.2, hs8]; omega), Outcome.ok_bind, hd]
    rfl

end Stacks.Tx

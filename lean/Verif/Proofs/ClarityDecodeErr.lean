import Verif.Props.Clarity
import Verif.Proofs.ClarityErrors

/-! # The errors and panics of the decoder -/

namespace Stacks.Clarity
open Stacks.Spec

theorem stringFromUtf8_notUtf8 {bs : Bytes} (h : NotUtf8 bs) : stringFromUtf8 bs = .err .tryFromUtf8 := by
  unfold stringFromUtf8
  cases hf : fromUtf8 bs with
  | none => rfl
  | some s =>
    have : stringFromUtf8 bs = .ok s := by unfold stringFromUtf8; rw [hf]; rfl
    exact absurd (stringFromUtf8_eq_ok.1 this).symm (h s)

theorem stringFromUtf8_cases (bs : Bytes) :
    (∃ s : Str, s.bytes = bs ∧ stringFromUtf8 bs = .ok s) ∨
      (NotUtf8 bs ∧ stringFromUtf8 bs = .err .tryFromUtf8) := by
  by_cases h : NotUtf8 bs
  · exact .inr ⟨h, stringFromUtf8_notUtf8 h⟩
  · simp only [NotUtf8, not_forall, ne_eq, Decidable.not_not] at h
    obtain ⟨s, rfl⟩ := h
    exact .inl ⟨s, rfl, stringFromUtf8_bytes s⟩

variable [Hashes]

/-- The element loop, on the remaining input. -/
def elems : Nat → Bytes → Outcome Error (List CV)
  | 0, _ => .ok []
  | n + 1, b => do
    let v ← decode b
    let e ← v.encode
    let r ← elems n (b.drop e.length)
    pure (v :: r)

/-- The entry loop, on the remaining input. -/
def entries : Nat → Bytes → Outcome Error (List (Str × CV))
  | 0, _ => .ok []
  | _ + 1, [] => .panic
  | n + 1, kl :: b =>
    if kl.toNat ≤ b.length then do
      let k ← stringFromUtf8 (b.take kl.toNat)
      let v ← decode (b.drop kl.toNat)
      let e ← v.encode
      let r ← entries n ((b.drop kl.toNat).drop e.length)
      pure ((k, v) :: r)
    else .panic

theorem decoded_length {b : Bytes} {v : CV} {e : Bytes} (h : decode b = .ok v) (he : v.encode = .ok e) :
    e.length ≤ b.length := by
  obtain ⟨_, rest, rfl⟩ := (decode_ok_iff b v).1 h
  rw [(encode_eq_ok.1 he).2]; simp

theorem listLoop_elems (bytes : Bytes) : ∀ n off, off ≤ bytes.length →
    listLoop decode bytes n off = elems n (bytes.drop off) := by
  intro n
  induction n with
  | zero => intros; rfl
  | succ n ih =>
    intro off h
    rw [listLoop, elems, sliceFrom_eq_ok.2 ⟨h, rfl⟩, Outcome.ok_bind]
    cases hd : decode (bytes.drop off) with
    | err | panic => rfl
    | ok v =>
      simp only [Outcome.ok_bind]
      cases he : v.encode with
      | err | panic => rfl
      | ok e =>
        have := decoded_length hd he
        rw [List.length_drop] at this
        simp only [Outcome.ok_bind]
        rw [ih _ (by omega), List.drop_drop]

theorem tupleLoop_entries (bytes : Bytes) : ∀ n off, off ≤ bytes.length →
    tupleLoop decode bytes n off = entries n (bytes.drop off) := by
  intro n
  induction n with
  | zero => intros; rfl
  | succ n ih =>
    intro off h
    rw [tupleLoop]
    rcases Nat.lt_or_ge off bytes.length with hl | hl
    · rw [List.drop_eq_getElem_cons hl, entries]
      have hi : (idx bytes off : Outcome Error UInt8) = .ok bytes[off] := by
        rw [idx_eq_ok]; exact List.getElem?_eq_getElem hl
      rw [hi, Outcome.ok_bind, slice_eq, List.length_drop]
      by_cases hk : (bytes[off]).toNat ≤ bytes.length - (off + 1)
      · rw [if_pos (by omega), if_pos hk, Outcome.ok_bind]
        congr 1; funext k
        simp only []
        rw [sliceFrom_eq_ok.2 ⟨by omega, rfl⟩, Outcome.ok_bind, List.drop_drop,
          show off + 1 + bytes[off].toNat = off + (1 + bytes[off].toNat) by omega]
        cases hd : decode (bytes.drop (off + (1 + bytes[off].toNat))) with
        | err | panic => rfl
        | ok v =>
          simp only [Outcome.ok_bind]
          cases he : v.encode with
          | err | panic => rfl
          | ok e =>
            have := decoded_length hd he
            rw [List.length_drop] at this
            simp only [Outcome.ok_bind]
            rw [ih _ (by omega), List.drop_drop]
      · rw [if_neg (by omega), if_neg hk]; rfl
    · have hi : (idx bytes off : Outcome Error UInt8) = .panic := by
        unfold idx; rw [List.getElem?_eq_none hl]; rfl
      rw [hi, List.drop_eq_nil_of_le hl]; rfl

/-! ## One step of the decoder -/

theorem dec_list (n : Nat) (r : Bytes) (h : n < 2 ^ 32) :
    decode (0x0b :: (beBytes 4 n ++ r)) = (elems n r >>= fun vs => .ok (.list vs)) := by
  rw [(C27_typed_decoders_agree _).2.2.2.2.2.2.2.2.2.2.2.1]
  unfold listDecode
  rw [show idList = 11 from rfl, checkId_self, Outcome.ok_bind, readLen_len _ _ h, Outcome.ok_bind,
    listLoop_elems _ _ _ (by simp)]
  congr 2

theorem dec_tuple (n : Nat) (r : Bytes) (h : n < 2 ^ 32) :
    decode (0x0c :: (beBytes 4 n ++ r)) = (entries n r >>= fun es => .ok (.tuple es)) := by
  rw [(C27_typed_decoders_agree _).2.2.2.2.2.2.2.2.2.2.2.2.1]
  unfold tupleDecode
  rw [show idTuple = 12 from rfl, checkId_self, Outcome.ok_bind, readLen_len _ _ h, Outcome.ok_bind,
    tupleLoop_entries _ _ _ (by simp)]
  congr 2

theorem dec_nested (r : Bytes) :
    decode (0x07 :: r) = (decode r >>= fun v => .ok (.respOk v)) ∧
    decode (0x08 :: r) = (decode r >>= fun v => .ok (.respErr v)) ∧
    decode (0x0a :: r) = (decode r >>= fun v => .ok (.optSome v)) := by
  have h : decodeAt .panic (r.length + 1) r = decode r := rfl
  refine ⟨?_, ?_, ?_⟩
  · rw [← h]; exact step_respOk ..
  · rw [← h]; exact step_respErr ..
  · rw [← h]; exact step_some ..

omit [Hashes] in
/-- Reading the four length bytes, if they are there. -/
theorem header_cases (r : Bytes) : r.length < 4 ∨ ∃ n r', n < 2 ^ 32 ∧ r = beBytes 4 n ++ r' := by
  by_cases h : r.length < 4
  · exact .inl h
  · right
    have := readLen_eq 0 r
    rw [if_neg h] at this
    obtain ⟨h1, r', h2⟩ := readLen_ok this
    exact ⟨_, r', h1, h2⟩

theorem dec_string (t : UInt8) (ht : t = 0x0d ∨ t = 0x0e) (s r : Bytes) (h : s.length < 2 ^ 32) :
    decode (t :: (beBytes 4 s.length ++ s ++ r)) =
      (stringFromUtf8 s >>= fun x => .ok (if t = 0x0d then .strAscii x else .strUtf8 x)) := by
  have hb : stringBody (t :: (beBytes 4 s.length ++ s ++ r)) = stringFromUtf8 s := by
    rw [List.append_assoc, stringBody_eq _ _ _ h, if_pos (by simp), List.take_left]
  rcases ht with rfl | rfl
  · rw [← hb]; exact step_strAscii ..
  · rw [← hb]; exact step_strUtf8 ..

omit [Hashes] in
/-- The bytes after a four-byte length. -/
theorem body_cases {n : Nat} (r : Bytes) : r.length < n ∨ ∃ s r', s.length = n ∧ r = s ++ r' := by
  by_cases h : r.length < n
  · exact .inl h
  · exact .inr ⟨r.take n, r.drop n, by rw [List.length_take]; omega, (List.take_append_drop n r).symm⟩

theorem c32Address_known {h : Bytes} {v : UInt8} (hv : KnownVersion v) : ∃ a, C32.c32Address h v = .ok a :=
  (C32.C10_c32_address_versions h v).1 hv

theorem c32Address_unknown {h : Bytes} {v : UInt8} (hv : ¬ KnownVersion v) :
    C32.c32Address h v = .err (.unknownAddressVersion v) :=
  (C32.C10_c32_address_versions h v).2 hv

theorem readAddr_parts (t v : UInt8) (h r : Bytes) (hl : h.length = 20) :
    readAddr (t :: v :: (h ++ r)) = (C32.c32Address h v).mapErr .c32 := readAddr_append t v ⟨h, hl⟩ r

theorem dec_std (v : UInt8) (h r : Bytes) (hl : h.length = 20) :
    decode (0x05 :: v :: (h ++ r)) = ((C32.c32Address h v).mapErr .c32 >>= fun a => .ok (.principalStd a)) := by
  rw [← readAddr_parts 5 v h r hl]; exact step_std ..

theorem dec_con (v nl : UInt8) (h s r : Bytes) (hl : h.length = 20) (hs : s.length = nl.toNat) :
    decode (0x06 :: v :: (h ++ (nl :: (s ++ r)))) = ((C32.c32Address h v).mapErr .c32 >>= fun a =>
      stringFromUtf8 s >>= fun m => .ok (.principalCon a m)) := by
  rw [← readAddr_parts 6 v h (nl :: (s ++ r)) hl]
  refine (step_con ..).trans ?_
  congr 1; funext a
  have h1 : (idx (0x06 :: v :: (h ++ (nl :: (s ++ r)))) 22 : Outcome Error UInt8) = .ok nl := by
    rw [idx_eq_ok, show (22 : Nat) = 20 + 1 + 1 from rfl, List.getElem?_cons_succ, List.getElem?_cons_succ,
      List.getElem?_append_right (by omega), hl]; rfl
  have h2 : (slice (0x06 :: v :: (h ++ (nl :: (s ++ r)))) 23 (23 + nl.toNat) : Outcome Error Bytes) = .ok s := by
    have := slice_append (ε := Error) (xs := 0x06 :: v :: (h ++ [nl])) (ys := s) (zs := r) (a := 23)
      (b := 23 + nl.toNat) (by simp [hl]) (by omega)
    simpa using this
  rw [h1, Outcome.ok_bind, h2, Outcome.ok_bind]

theorem dec_con_version (v : UInt8) (h r : Bytes) (hl : h.length = 20) (hv : ¬ KnownVersion v) :
    decode (0x06 :: v :: (h ++ r)) = .err (.c32 (.unknownAddressVersion v)) := by
  refine (step_con ..).trans ?_
  rw [readAddr_parts 6 v h r hl, c32Address_unknown hv]; rfl

/-! ## Errors -/

theorem elems_pre {vs : List CV} (hw : ∀ v ∈ vs, WellFormed v) {n : Nat} (b : Bytes) :
    elems (vs.length + n) (sip005All vs ++ b) = (elems n b >>= fun ws => .ok (vs ++ ws)) := by
  induction vs with
  | nil =>
    simp only [List.length_nil, Nat.zero_add, sip005All, List.nil_append]
    cases elems n b <;> rfl
  | cons v vs ih =>
    have hv := hw v (by simp)
    rw [List.length_cons, show vs.length + 1 + n = (vs.length + n) + 1 by omega, elems, sip005All, List.append_assoc,
      (decode_ok_iff _ v).2 ⟨wf_accepted v hv, _, rfl⟩, Outcome.ok_bind, encode_ok v (wf_encodable v hv),
      Outcome.ok_bind, List.drop_left, ih (fun w hw' => hw w (by simp [hw']))]
    cases elems n b <;> rfl

theorem sized8_read {k : Str} (h : k.bytes.length < 256) (n : Nat) (b : Bytes) :
    entries (n + 1) (sized8 k ++ b) = (do
      let v ← decode b
      let e ← v.encode
      let r ← entries n (b.drop e.length)
      pure ((k, v) :: r)) := by
  have hm : (UInt8.ofNat k.bytes.length).toNat = k.bytes.length := by
    rw [UInt8.toNat_ofNat', Nat.mod_eq_of_lt (by omega)]
  rw [sized8, List.cons_append, entries, hm, if_pos (by simp), List.take_left, List.drop_left, stringFromUtf8_bytes,
    Outcome.ok_bind]

theorem entries_pre {es : List (Str × CV)} (hw : ∀ e ∈ es, e.1.bytes.length < 256 ∧ WellFormed e.2) {n : Nat}
    (b : Bytes) :
    entries (es.length + n) (sip005Entries es ++ b) = (entries n b >>= fun ws => .ok (es ++ ws)) := by
  induction es with
  | nil =>
    simp only [List.length_nil, Nat.zero_add, sip005Entries, List.nil_append]
    cases entries n b <;> rfl
  | cons kv es ih =>
    obtain ⟨k, v⟩ := kv
    obtain ⟨hk, hv⟩ := hw (k, v) (by simp)
    rw [List.length_cons, show es.length + 1 + n = (es.length + n) + 1 by omega, sip005Entries,
      List.append_assoc, List.append_assoc, sized8_read hk,
      (decode_ok_iff _ v).2 ⟨wf_accepted v hv, _, rfl⟩, Outcome.ok_bind, encode_ok v (wf_encodable v hv),
      Outcome.ok_bind, List.drop_left, ih (fun w hw' => hw w (by simp [hw']))]
    cases entries n b <;> rfl

theorem elems_err_of {n : Nat} {vs : List CV} {b : Bytes} {e : Error} (hn : vs.length < n)
    (hw : ∀ v ∈ vs, WellFormed v)
    (h : decode b = .err e ∨ ∃ v, decode b = .ok v ∧ v.encode = .err e) :
    elems n (sip005All vs ++ b) = .err e := by
  obtain ⟨m, rfl⟩ : ∃ m, n = vs.length + (m + 1) := ⟨n - vs.length - 1, by omega⟩
  rw [elems_pre hw, elems]
  rcases h with h | ⟨v, h1, h2⟩
  · rw [h]; rfl
  · rw [h1, Outcome.ok_bind, h2]; rfl

theorem entries_err_of {n : Nat} {es : List (Str × CV)} {b : Bytes} {e : Error} (hn : es.length < n)
    (hw : ∀ e ∈ es, e.1.bytes.length < 256 ∧ WellFormed e.2)
    (h : ∀ m, entries (m + 1) b = .err e) :
    entries n (sip005Entries es ++ b) = .err e := by
  obtain ⟨m, rfl⟩ : ∃ m, n = es.length + (m + 1) := ⟨n - es.length - 1, by omega⟩
  rw [entries_pre hw, h]; rfl

theorem decode_fails {b : Bytes} {e : Error} (h : DecodeFails b e) : decode b = .err e := by
  induction h with
  | identifier h => exact (C27_unknown_identifier _ _ h).1
  | @stdVersion v h r hl hv =>
    have := dec_std v h r hl
    rw [c32Address_unknown hv] at this
    simpa using this
  | @conVersion v h r hl hv => simpa using dec_con_version v h r hl hv
  | @conName v h n r hl hv hn hu =>
    have hm : (UInt8.ofNat n.length).toNat = n.length := by
      rw [UInt8.toNat_ofNat', Nat.mod_eq_of_lt (by omega)]
    have := dec_con v (UInt8.ofNat n.length) h n r hl hm.symm
    obtain ⟨a, ha⟩ := c32Address_known (h := h) hv
    rw [ha, stringFromUtf8_notUtf8 hu] at this
    simpa using this
  | ok _ ih => rw [(dec_nested _).1, ih]; rfl
  | err _ ih => rw [(dec_nested _).2.1, ih]; rfl
  | some _ ih => rw [(dec_nested _).2.2, ih]; rfl
  | @list n vs b e hn hl hw _ ih =>
    have := dec_list n (sip005All vs ++ b) hn
    rw [elems_err_of hl hw (.inl ih)] at this
    simpa using this
  | @listElement n vs v b e hn hl hw ha hf =>
    have := dec_list n (sip005All vs ++ (sip005 v ++ b)) hn
    rw [elems_err_of hl hw (.inr ⟨v, (decode_ok_iff _ v).2 ⟨ha, _, rfl⟩, fails_encode hf⟩)] at this
    simpa using this
  | @tupleKey n es k b hn hl hw hk hu =>
    have hm : (UInt8.ofNat k.length).toNat = k.length := by
      rw [UInt8.toNat_ofNat', Nat.mod_eq_of_lt (by omega)]
    have := dec_tuple n (sip005Entries es ++ (UInt8.ofNat k.length :: (k ++ b))) hn
    rw [entries_err_of (e := .tryFromUtf8) hl hw (by
      intro m
      rw [entries, hm, if_pos (by simp), List.take_left, stringFromUtf8_notUtf8 hu]; rfl)] at this
    simpa using this
  | @tuple n es k b e hn hl hw hk _ ih =>
    have := dec_tuple n (sip005Entries es ++ (sized8 k ++ b)) hn
    rw [entries_err_of (e := e) hl hw (by intro m; rw [sized8_read hk, ih]; rfl)] at this
    simpa using this
  | @tupleElement n es k v b e hn hl hw hk ha hf =>
    have := dec_tuple n (sip005Entries es ++ (sized8 k ++ (sip005 v ++ b))) hn
    rw [entries_err_of (e := e) hl hw (by
      intro m
      rw [sized8_read hk, (decode_ok_iff _ v).2 ⟨ha, _, rfl⟩, Outcome.ok_bind, fails_encode hf]; rfl)] at this
    simpa using this
  | @strAscii s b hl hu =>
    have := dec_string 0x0d (.inl rfl) s b hl
    rw [stringFromUtf8_notUtf8 hu] at this
    simpa [sized32] using this
  | @strUtf8 s b hl hu =>
    have := dec_string 0x0e (.inr rfl) s b hl
    rw [stringFromUtf8_notUtf8 hu] at this
    simpa [sized32] using this

theorem elems_err {e : Error} : ∀ {n : Nat} {b : Bytes}, elems n b = .err e →
    ∃ vs r, vs.length < n ∧ (∀ v ∈ vs, WellFormed v) ∧ b = sip005All vs ++ r ∧
      (decode r = .err e ∨ ∃ v, decode r = .ok v ∧ v.encode = .err e) := by
  intro n
  induction n with
  | zero => intro b h; cases h
  | succ n ih =>
    intro b h
    rw [elems] at h
    cases hd : decode b with
    | panic => rw [hd] at h; cases h
    | err e' =>
      rw [hd] at h; cases h
      exact ⟨[], b, by simp, by simp, rfl, .inl hd⟩
    | ok v =>
      rw [hd, Outcome.ok_bind] at h
      cases he : v.encode with
      | panic => rw [he] at h; cases h
      | err e' =>
        rw [he] at h; cases h
        exact ⟨[], b, by simp, by simp, rfl, .inr ⟨v, hd, he⟩⟩
      | ok bs =>
        rw [he, Outcome.ok_bind] at h
        obtain ⟨ha, rest, rfl⟩ := (decode_ok_iff b v).1 hd
        obtain ⟨hv, rfl⟩ := encode_eq_ok.1 he
        rw [List.drop_left] at h
        cases hr : elems n rest with
        | panic => rw [hr] at h; cases h
        | ok r => rw [hr] at h; cases h
        | err e' =>
          rw [hr] at h; cases h
          obtain ⟨vs, r, h1, h2, rfl, h3⟩ := ih hr
          refine ⟨v :: vs, r, by simp; omega, ?_, by rw [sip005All, List.append_assoc], h3⟩
          intro w hw
          rcases List.mem_cons.1 hw with rfl | hw
          · exact accepted_encodable_wf w ha hv
          · exact h2 w hw

theorem entries_err {e : Error} : ∀ {n : Nat} {b : Bytes}, entries n b = .err e →
    ∃ es r, es.length < n ∧ (∀ x ∈ es, x.1.bytes.length < 256 ∧ WellFormed x.2) ∧ b = sip005Entries es ++ r ∧
      ((∃ k r', r = [UInt8.ofNat k.length] ++ k ++ r' ∧ k.length < 256 ∧ NotUtf8 k ∧ e = .tryFromUtf8) ∨
       ∃ k r', r = sized8 k ++ r' ∧ k.bytes.length < 256 ∧
        (decode r' = .err e ∨ ∃ v, decode r' = .ok v ∧ v.encode = .err e)) := by
  intro n
  induction n with
  | zero => intro b h; cases h
  | succ n ih =>
    intro b h
    match b with
    | [] => cases h
    | kl :: b =>
      have hlt := kl.toNat_lt
      rw [entries] at h
      split at h
      · rename_i hk
        have hlen : (b.take kl.toNat).length = kl.toNat := by rw [List.length_take]; omega
        have hkl : UInt8.ofNat (b.take kl.toNat).length = kl := by rw [hlen]; simp
        have hb : b = b.take kl.toNat ++ b.drop kl.toNat := (List.take_append_drop _ _).symm
        rcases stringFromUtf8_cases (b.take kl.toNat) with ⟨s, hs, hu⟩ | ⟨hn, hu⟩
        · rw [hu, Outcome.ok_bind] at h
          have hsb : s.bytes.length < 256 := by rw [hs, hlen]; omega
          have hcons : kl :: b = sized8 s ++ b.drop kl.toNat := by
            rw [sized8, hs, hkl, List.cons_append, ← hb]
          cases hd : decode (b.drop kl.toNat) with
          | panic => rw [hd] at h; cases h
          | err e' =>
            rw [hd] at h; cases h
            exact ⟨[], kl :: b, by simp, by simp, rfl, .inr ⟨s, _, hcons, hsb, .inl hd⟩⟩
          | ok v =>
            rw [hd, Outcome.ok_bind] at h
            cases he : v.encode with
            | panic => rw [he] at h; cases h
            | err e' =>
              rw [he] at h; cases h
              exact ⟨[], kl :: b, by simp, by simp, rfl, .inr ⟨s, _, hcons, hsb, .inr ⟨v, hd, he⟩⟩⟩
            | ok bs =>
              rw [he, Outcome.ok_bind] at h
              obtain ⟨ha, rest, hrest⟩ := (decode_ok_iff _ v).1 hd
              obtain ⟨hv, rfl⟩ := encode_eq_ok.1 he
              rw [hrest, List.drop_left] at h
              cases hr : entries n rest with
              | panic => rw [hr] at h; cases h
              | ok r => rw [hr] at h; cases h
              | err e' =>
                rw [hr] at h; cases h
                obtain ⟨es, r, h1, h2, rfl, h3⟩ := ih hr
                refine ⟨(s, v) :: es, r, by simp; omega, ?_, ?_, h3⟩
                · intro w hw
                  rcases List.mem_cons.1 hw with rfl | hw
                  · exact ⟨hsb, accepted_encodable_wf v ha hv⟩
                  · exact h2 w hw
                · rw [hcons, hrest, sip005Entries]; simp
        · rw [hu] at h; cases h
          refine ⟨[], kl :: b, by simp, by simp, rfl, .inl ⟨b.take kl.toNat, b.drop kl.toNat, ?_, by omega, hn, rfl⟩⟩
          rw [hkl]; simp
      · cases h

theorem fails_decode (m : Nat) : ∀ b : Bytes, b.length < m → ∀ e, decode b = .err e → DecodeFails b e := by
  induction m with
  | zero => intro b h; omega
  | succ m ih =>
    intro b hb e h
    match b with
    | [] => cases h
    | t :: r =>
      rw [List.length_cons] at hb
      rcases tag_cases t with rfl | rfl | rfl | rfl | rfl | rfl | rfl | rfl | rfl | rfl | rfl | rfl | rfl | rfl | rfl | ht
      · have := h.symm.trans (step_int _ _ _); split at this <;> cases this
      · have := h.symm.trans (step_uint _ _ _); split at this <;> cases this
      · have := h.symm.trans (step_buffer _ _ _)
        rcases header_cases r with hr | ⟨n, r', hn, rfl⟩
        · rw [readLen_eq, if_pos hr] at this; cases this
        · have h2 := bufferBody_eq 2 n r' hn
          rw [← bind_assoc, h2] at this
          split at this <;> cases this
      · cases h
      · cases h
      · rcases body_cases (n := 21) r with hr | ⟨s, r', hs, rfl⟩
        · have := h.symm.trans (step_std _ _ _)
          rw [readAddr_eq, dif_pos hr] at this; cases this
        · match s, hs with
          | v :: x, hs =>
            have hx : x.length = 20 := by simpa using hs
            rw [List.cons_append, dec_std v x r' hx] at h
            by_cases hv : KnownVersion v
            · obtain ⟨a, ha⟩ := c32Address_known (h := x) hv
              rw [ha] at h; cases h
            · rw [c32Address_unknown hv] at h; cases h
              simpa using DecodeFails.stdVersion (r := r') hx hv
      · rcases body_cases (n := 21) r with hr | ⟨s, r', hs, rfl⟩
        · have := h.symm.trans (step_con _ _ _)
          rw [readAddr_eq, dif_pos hr] at this; cases this
        · match s, hs with
          | v :: x, hs =>
            have hx : x.length = 20 := by simpa using hs
            by_cases hv : KnownVersion v
            · obtain ⟨a, ha⟩ := c32Address_known (h := x) hv
              match r' with
              | [] =>
                have := h.symm.trans (step_con _ _ _)
                rw [List.cons_append, readAddr_parts 6 v x _ hx, ha] at this
                have hi : (idx (0x06 :: v :: (x ++ [])) 22 : Outcome Error UInt8) = .panic := by
                  unfold idx; rw [List.getElem?_eq_none (by simp [hx])]; rfl
                rw [hi] at this; cases this
              | nl :: r' =>
                have hlt := nl.toNat_lt
                rcases body_cases (n := nl.toNat) r' with hr | ⟨s, r'', hs', rfl⟩
                · have := h.symm.trans (step_con _ _ _)
                  rw [List.cons_append, readAddr_parts 6 v x _ hx, ha] at this
                  have hi : (idx (0x06 :: v :: (x ++ (nl :: r'))) 22 : Outcome Error UInt8) = .ok nl := by
                    rw [idx_eq_ok, show (22 : Nat) = 20 + 1 + 1 from rfl, List.getElem?_cons_succ,
                      List.getElem?_cons_succ, List.getElem?_append_right (by omega), hx]; rfl
                  simp only [Outcome.mapErr_ok, Outcome.ok_bind, hi, slice_eq] at this
                  rw [if_neg (by simp [hx]; omega)] at this
                  cases this
                · rw [List.cons_append, dec_con v nl x s r'' hx hs', ha] at h
                  rcases stringFromUtf8_cases s with ⟨q, hq, hu⟩ | ⟨hn, hu⟩
                  · rw [hu] at h; cases h
                  · rw [hu] at h; cases h
                    have := DecodeFails.conName (r := r'') hx hv (n := s) (by omega) hn
                    rw [hs'] at this
                    simpa using this
            · rw [List.cons_append, dec_con_version v x r' hx hv] at h; cases h
              simpa using DecodeFails.conVersion (r := r') hx hv
      · rw [(dec_nested r).1] at h
        cases hd : decode r with
        | ok | panic => rw [hd] at h; cases h
        | err e' => rw [hd] at h; cases h; exact .ok (ih r (by omega) _ hd)
      · rw [(dec_nested r).2.1] at h
        cases hd : decode r with
        | ok | panic => rw [hd] at h; cases h
        | err e' => rw [hd] at h; cases h; exact .err (ih r (by omega) _ hd)
      · cases h
      · rw [(dec_nested r).2.2] at h
        cases hd : decode r with
        | ok | panic => rw [hd] at h; cases h
        | err e' => rw [hd] at h; cases h; exact .some (ih r (by omega) _ hd)
      · rcases header_cases r with hr | ⟨n, r', hn, rfl⟩
        · have := h.symm.trans (step_list _ _ _)
          rw [readLen_eq, if_pos hr] at this; cases this
        · rw [dec_list n r' hn] at h
          cases hd : elems n r' with
          | ok | panic => rw [hd] at h; cases h
          | err e' =>
            rw [hd] at h; cases h
            obtain ⟨vs, q, h1, h2, rfl, h3⟩ := elems_err hd
            simp only [List.length_append] at hb
            rcases h3 with h3 | ⟨v, h3, h4⟩
            · have := DecodeFails.list hn h1 h2 (ih q (by omega) _ h3)
              simpa using this
            · obtain ⟨ha, rest, rfl⟩ := (decode_ok_iff q v).1 h3
              have := DecodeFails.listElement (b := rest) hn h1 h2 ha ((encode_err_iff v _).1 h4)
              simpa using this
      · rcases header_cases r with hr | ⟨n, r', hn, rfl⟩
        · have := h.symm.trans (step_tuple _ _ _)
          rw [readLen_eq, if_pos hr] at this; cases this
        · rw [dec_tuple n r' hn] at h
          cases hd : entries n r' with
          | ok | panic => rw [hd] at h; cases h
          | err e' =>
            rw [hd] at h; cases h
            obtain ⟨es, q, h1, h2, rfl, h3⟩ := entries_err hd
            simp only [List.length_append] at hb
            rcases h3 with ⟨k, q', rfl, hk, hu, rfl⟩ | ⟨k, q', rfl, hk, h3 | ⟨v, h3, h4⟩⟩
            · have := DecodeFails.tupleKey (b := q') hn h1 h2 hk hu
              simpa using this
            · simp only [List.length_append] at hb
              have := DecodeFails.tuple hn h1 h2 hk (ih q' (by omega) _ h3)
              simpa using this
            · obtain ⟨ha, rest, rfl⟩ := (decode_ok_iff q' v).1 h3
              have := DecodeFails.tupleElement (b := rest) hn h1 h2 hk ha ((encode_err_iff v _).1 h4)
              simpa using this
      · rcases header_cases r with hr | ⟨n, r', hn, rfl⟩
        · have := h.symm.trans (step_strAscii _ _ _)
          rw [stringBody, readLen_eq, if_pos hr] at this; cases this
        · rcases body_cases (n := n) r' with hr | ⟨s, q, rfl, rfl⟩
          · have := h.symm.trans (step_strAscii _ _ _)
            rw [stringBody_eq _ _ _ hn, if_neg (by omega)] at this; cases this
          · rw [← List.append_assoc, dec_string _ (.inl rfl) _ _ hn] at h
            rcases stringFromUtf8_cases s with ⟨x, hx, hu⟩ | ⟨hx, hu⟩
            · rw [hu] at h; cases h
            · rw [hu] at h; cases h
              simpa [sized32] using DecodeFails.strAscii (b := q) hn hx
      · rcases header_cases r with hr | ⟨n, r', hn, rfl⟩
        · have := h.symm.trans (step_strUtf8 _ _ _)
          rw [stringBody, readLen_eq, if_pos hr] at this; cases this
        · rcases body_cases (n := n) r' with hr | ⟨s, q, rfl, rfl⟩
          · have := h.symm.trans (step_strUtf8 _ _ _)
            rw [stringBody_eq _ _ _ hn, if_neg (by omega)] at this; cases this
          · rw [← List.append_assoc, dec_string _ (.inr rfl) _ _ hn] at h
            rcases stringFromUtf8_cases s with ⟨x, hx, hu⟩ | ⟨hx, hu⟩
            · rw [hu] at h; cases h
            · rw [hu] at h; cases h
              simpa [sized32] using DecodeFails.strUtf8 (b := q) hn hx
      · rw [(C27_unknown_identifier t r ht).1] at h; cases h
        exact .identifier ht

theorem decode_err_iff (b : Bytes) (e : Error) : decode b = .err e ↔ DecodeFails b e :=
  ⟨fun h => fails_decode _ b (Nat.lt_succ_self _) e h, decode_fails⟩

theorem fails_append {b : Bytes} {e : Error} (h : DecodeFails b e) (r : Bytes) : DecodeFails (b ++ r) e := by
  induction h with
  | identifier h => exact .identifier h
  | @stdVersion v h q hl hv => simpa using DecodeFails.stdVersion (r := q ++ r) hl hv
  | @conVersion v h q hl hv => simpa using DecodeFails.conVersion (r := q ++ r) hl hv
  | @conName v h n q hl hv hn hu => simpa using DecodeFails.conName (r := q ++ r) hl hv hn hu
  | ok _ ih => exact .ok ih
  | err _ ih => exact .err ih
  | some _ ih => exact .some ih
  | list hn hl hw _ ih => simpa using DecodeFails.list hn hl hw ih
  | @listElement n vs v b e hn hl hw ha hf => simpa using DecodeFails.listElement (b := b ++ r) hn hl hw ha hf
  | @tupleKey n es k b hn hl hw hk hu => simpa using DecodeFails.tupleKey (b := b ++ r) hn hl hw hk hu
  | tuple hn hl hw hk _ ih => simpa using DecodeFails.tuple hn hl hw hk ih
  | @tupleElement n es k v b e hn hl hw hk ha hf =>
    simpa using DecodeFails.tupleElement (b := b ++ r) hn hl hw hk ha hf
  | @strAscii s b hl hu => simpa using DecodeFails.strAscii (b := b ++ r) hl hu
  | @strUtf8 s b hl hu => simpa using DecodeFails.strUtf8 (b := b ++ r) hl hu

end Stacks.Clarity

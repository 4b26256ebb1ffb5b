import Verif.Proofs.ClarityPanic
import Verif.Proofs.TransactionErrors

/-! # Lemmas about the errors and panics of the decoders of payloads -/

namespace Stacks.Tx
open Stacks.Spec Stacks.Clarity

section
variable [Hashes]

/-! ## Names -/

omit [Hashes] in
theorem lpsDecode_cons (n : UInt8) (r : Bytes) :
    lpsDecode (n :: r) = if n.toNat ≤ r.length then stringFromUtf8 (r.take n.toNat) else .panic := by
  unfold lpsDecode
  rw [idx_zero_cons, Outcome.ok_bind, Nat.add_comm n.toNat 1, slice_eq, List.length_cons, List.drop_succ_cons,
    List.drop_zero]
  by_cases h : n.toNat ≤ r.length
  · rw [if_pos h, if_pos (by omega), Outcome.ok_bind]
  · rw [if_neg h, if_neg (by omega)]; rfl

omit [Hashes] in
/-- What can be at the front of an input: too little for a name, a name that is not UTF-8, a name. -/
theorem lps_cases (r : Bytes) :
    lpsDecode r = .panic ∨
    (∃ n r', n.length < 256 ∧ NotUtf8 n ∧ r = [UInt8.ofNat n.length] ++ n ++ r' ∧ lpsDecode r = .err .tryFromUtf8) ∨
    (∃ s r', s.bytes.length < 256 ∧ r = sized8 s ++ r' ∧ lpsDecode r = .ok s) := by
  match r with
  | [] => exact .inl rfl
  | n :: r =>
    rw [lpsDecode_cons]
    by_cases h : n.toNat ≤ r.length
    · rw [if_pos h]
      have hl : (r.take n.toNat).length = n.toNat := by rw [List.length_take]; omega
      have hn : UInt8.ofNat (r.take n.toNat).length = n := by rw [hl]; simp
      have hlt := n.toNat_lt
      rcases stringFromUtf8_cases (r.take n.toNat) with ⟨s, hs, he⟩ | ⟨hs, he⟩
      · refine .inr (.inr ⟨s, r.drop n.toNat, by rw [hs, hl]; omega, ?_, he⟩)
        rw [sized8, hs, hn, List.cons_append, List.take_append_drop]
      · refine .inr (.inl ⟨_, r.drop n.toNat, by rw [hl]; omega, hs, ?_, he⟩)
        rw [hn]
        simp
    · exact .inl (if_neg h)

omit [Hashes] in
theorem lpsDecode_notUtf8 {n r : Bytes} (hl : n.length < 256) (h : NotUtf8 n) :
    lpsDecode ([UInt8.ofNat n.length] ++ n ++ r) = .err .tryFromUtf8 := by
  rw [List.append_assoc, List.singleton_append, lpsDecode_cons, UInt8.toNat_ofNat', Nat.mod_eq_of_lt hl,
    if_pos (by simp), List.take_left, stringFromUtf8_notUtf8 h]

omit [Hashes] in
/-- A truncated name can be completed. -/
theorem lps_extend (r : Bytes) : ∃ p, lpsDecode (r ++ p) ≠ .panic := by
  have key : ∀ (n : UInt8) r, ∃ p, lpsDecode (n :: (r ++ p)) ≠ .panic := by
    intro n r
    refine ⟨List.replicate n.toNat 0, ?_⟩
    rw [lpsDecode_cons, if_pos (by simp)]
    rcases stringFromUtf8_cases ((r ++ List.replicate n.toNat 0).take n.toNat) with ⟨s, _, h⟩ | ⟨_, h⟩ <;>
      rw [h] <;> intro h' <;> cases h'
  match r with
  | [] => obtain ⟨p, h⟩ := key 0 []; exact ⟨0 :: p, h⟩
  | n :: r => exact key n r

/-- A name and its length. -/
def readLps {α : Type} (next : Str → Bytes → Outcome Clarity.Error α) (r : Bytes) : Outcome Clarity.Error α :=
  lpsDecode r >>= fun c => (CV.lps c).len >>= fun l => next c (r.drop l)

theorem readLps_ok {α : Type} (next : Str → Bytes → Outcome Clarity.Error α) {c : Str} (h : c.bytes.length ≤ 128)
    (r : Bytes) : readLps next (sized8 c ++ r) = next c r := by
  unfold readLps
  rw [lpsDecode_sized8 (by omega), Outcome.ok_bind, lps_len.2 ⟨h, rfl⟩, Outcome.ok_bind,
    List.drop_left' (by rw [sized8, List.length_cons, Nat.add_comm])]

theorem readLps_fails {α : Type} (next : Str → Bytes → Outcome Clarity.Error α) {r : Bytes} {e : Clarity.Error}
    (h : NameFails r e) : readLps next r = .err e := by
  unfold readLps
  cases h with
  | utf8 hl hn => rw [lpsDecode_notUtf8 hl hn]; rfl
  | long h1 h2 => rw [lpsDecode_sized8 h2, Outcome.ok_bind, CV.len, lps_fails h1]; rfl

/-- The three ways reading a name goes. -/
theorem readLps_cases {α : Type} (next : Str → Bytes → Outcome Clarity.Error α) (r : Bytes) :
    (lpsDecode r = .panic ∧ readLps next r = .panic) ∨ (∃ e, NameFails r e ∧ readLps next r = .err e) ∨
    (∃ c r', c.bytes.length ≤ 128 ∧ r = sized8 c ++ r' ∧ readLps next r = next c r') := by
  rcases lps_cases r with h | ⟨n, r', h1, h2, rfl, h3⟩ | ⟨s, r', h1, rfl, h2⟩
  · exact .inl ⟨h, by rw [readLps, h]; rfl⟩
  · exact .inr (.inl ⟨_, .utf8 h1 h2, readLps_fails next (.utf8 h1 h2)⟩)
  · by_cases hs : s.bytes.length ≤ 128
    · exact .inr (.inr ⟨s, r', hs, rfl, readLps_ok next hs r'⟩)
    · exact .inr (.inl ⟨_, .long (by omega) h1, readLps_fails next (.long (by omega) h1)⟩)

/-- If what follows a name can be completed, so can the name with what follows. -/
theorem readLps_completable {α : Type} (next : Str → Bytes → Outcome Clarity.Error α)
    (hn : ∀ c b, ∃ rest, next c (b ++ rest) ≠ .panic) (r : Bytes) : ∃ rest, readLps next (r ++ rest) ≠ .panic := by
  obtain ⟨p, hp⟩ := lps_extend r
  rcases readLps_cases next (r ++ p) with ⟨h, _⟩ | ⟨e, _, h⟩ | ⟨c, r', hc, he, _⟩
  · exact absurd h hp
  · exact ⟨p, by rw [h]; intro h'; cases h'⟩
  · obtain ⟨q, hq⟩ := hn c r'
    exact ⟨p ++ q, by rw [← List.append_assoc, he, List.append_assoc, readLps_ok next hc]; exact hq⟩

/-! ## Function arguments -/

theorem fnArgsLoop_elems : ∀ n (b : Bytes), fnArgsLoop n b = elems n b := by
  intro n
  induction n with
  | zero => intro b; rfl
  | succ n ih =>
    intro b
    rw [fnArgsLoop, elems]
    cases hd : decode b with
    | err | panic => rfl
    | ok v =>
      simp only [Outcome.ok_bind]
      rw [CV.len]
      cases he : v.encode with
      | err | panic => rfl
      | ok e =>
        simp only [Outcome.ok_bind, Outcome.pure_def]
        rw [sliceFrom_eq_ok.2 ⟨decoded_length hd he, rfl⟩, Outcome.ok_bind, ih]

theorem fnArgs_header {n : Nat} (h : n < 2 ^ 32) (r : Bytes) : fnArgsDecode (beBytes 4 n ++ r) = elems n r := by
  unfold fnArgsDecode
  rw [if_neg (by simp), List.take_left' (beBytes_length ..), List.drop_left' (beBytes_length ..),
    beVal_beBytes (by simpa using h), fnArgsLoop_elems]

theorem fnArgs_err_iff (b : Bytes) (e : Clarity.Error) : fnArgsDecode b = .err e ↔ ArgumentsFail b e := by
  constructor
  · intro h
    rcases header_cases b with hb | ⟨n, r, hn, rfl⟩
    · rw [fnArgsDecode, if_pos hb] at h; cases h
    · rw [fnArgs_header hn] at h
      obtain ⟨vs, r', h1, h2, rfl, h3⟩ := elems_err h
      rcases h3 with h3 | ⟨v, h3, h4⟩
      · simpa using ArgumentsFail.argument hn h1 h2 ((decode_err_iff _ _).1 h3)
      · obtain ⟨ha, q, rfl⟩ := (decode_ok_iff _ _).1 h3
        simpa using ArgumentsFail.again (b := q) hn h1 h2 ha ((encode_err_iff _ _).1 h4)
  · intro h
    cases h with
    | argument hn h1 h2 h3 =>
      rw [List.append_assoc, fnArgs_header hn]
      exact elems_err_of h1 h2 (.inl ((decode_err_iff _ _).2 h3))
    | @again n vs v b _ hn h1 h2 h3 h4 =>
      rw [List.append_assoc, List.append_assoc, fnArgs_header hn]
      exact elems_err_of h1 h2 (.inr ⟨v, (decode_ok_iff _ _).2 ⟨h3, b, rfl⟩, fails_encode h4⟩)

theorem fnArgs_completable (b : Bytes) : ∃ rest, fnArgsDecode (b ++ rest) ≠ .panic := by
  obtain ⟨p, n, r, hn, he, _⟩ := extend_header b
  obtain ⟨q, hq⟩ := elems_completable r.length (fun b _ => completable _ b (Nat.le_refl _)) n r (Nat.le_refl _)
  exact ⟨p ++ q, by rw [← List.append_assoc, he, List.append_assoc, fnArgs_header hn]; exact hq⟩

theorem argumentsFail_append {b : Bytes} {e : Clarity.Error} (h : ArgumentsFail b e) (r : Bytes) :
    ArgumentsFail (b ++ r) e := by
  cases h with
  | @argument n vs b _ h1 h2 h3 h4 => simpa using ArgumentsFail.argument h1 h2 h3 (fails_append h4 r)
  | @again n vs v b _ h1 h2 h3 h4 h5 => simpa using ArgumentsFail.again (b := b ++ r) h1 h2 h3 h4 h5

omit [Hashes] in
theorem nameFails_append {b : Bytes} {e : Clarity.Error} (h : NameFails b e) (r : Bytes) : NameFails (b ++ r) e := by
  cases h with
  | @utf8 n q h1 h2 => simpa using NameFails.utf8 (r := q ++ r) h1 h2
  | @long s q h1 h2 => simpa using NameFails.long (r := q ++ r) h1 h2

/-! ## Contract calls -/

/-- The contract-call decoder after the address. -/
theorem call_decode_step (v : UInt8) (h r : Bytes) (hl : h.length = 20) :
    ContractCall.decode (0x02 :: v :: (h ++ r)) =
      readLps (fun c r1 => readLps (fun n r2 => fnArgsDecode r2 >>= fun a => .ok ⟨⟨⟨h, hl⟩, v⟩, c, n, a⟩) r1) r := by
  unfold ContractCall.decode
  rw [idx_zero_cons, Outcome.ok_bind, if_neg (by decide)]
  simp only [Nat.reduceAdd]
  rw [show (1 : Nat) = 0 + 1 from rfl, idx_succ_cons, idx_zero_cons, Outcome.ok_bind,
    show (2 :: v :: (h ++ r)) = [2, v] ++ (h ++ r) from rfl,
    slice_append (xs := [2, v]) (a := 2) (b := 22) rfl (by rw [hl]), Outcome.ok_bind,
    show (hash160New h : Outcome Clarity.Error (Arr 20)) = .ok ⟨h, hl⟩ from copyFromSlice_eq_ok.2 rfl,
    Outcome.ok_bind, ← List.append_assoc, sliceFrom_append _ _ (by simp [hl]), Outcome.ok_bind]
  have hd : ∀ k, (([2, v] ++ h) ++ r).drop (22 + k) = r.drop k := by
    intro k
    rw [← List.drop_drop, List.drop_left' (by simp [hl])]
  have hs8 : ∀ s : Str, (sized8 s).length = 1 + s.bytes.length := by
    intro s; rw [sized8, List.length_cons, Nat.add_comm]
  unfold readLps
  rcases lps_cases r with h0 | ⟨_, _, _, _, _, h0⟩ | ⟨c, r1, hc, rfl, h0⟩
  · rw [h0]; rfl
  · rw [h0]; rfl
  · rw [h0, Outcome.ok_bind, Outcome.ok_bind]
    cases hlen : (CV.lps c).len with
    | err | panic => rfl
    | ok l1 =>
      obtain ⟨_, rfl⟩ := lps_len.1 hlen
      rw [Outcome.ok_bind, Outcome.ok_bind, sliceFrom_eq_ok.2 ⟨by simp [hl, hs8]; omega, rfl⟩, Outcome.ok_bind, hd,
        List.drop_left' (hs8 c)]
      simp only []
      rcases lps_cases r1 with h1 | ⟨_, _, _, _, _, h1⟩ | ⟨n, r2, hn, rfl, h1⟩
      · rw [h1]; rfl
      · rw [h1]; rfl
      · rw [h1, Outcome.ok_bind, Outcome.ok_bind]
        cases hlen' : (CV.lps n).len with
        | err | panic => rfl
        | ok l2 =>
          obtain ⟨_, rfl⟩ := lps_len.1 hlen'
          rw [Outcome.ok_bind, Outcome.ok_bind, sliceFrom_eq_ok.2 ⟨by simp [hl, hs8]; omega, rfl⟩, Outcome.ok_bind,
            Nat.add_assoc, hd, ← List.drop_drop, List.drop_left' (hs8 c), List.drop_left' (hs8 n)]
          rfl

theorem call_decode_short (r : Bytes) (h : r.length < 21) : ContractCall.decode (0x02 :: r) = .panic := by
  unfold ContractCall.decode
  rw [idx_zero_cons, Outcome.ok_bind, if_neg (by decide)]
  simp only []
  match r with
  | [] => rfl
  | v :: r =>
    rw [show (1 : Nat) = 0 + 1 from rfl, idx_succ_cons, idx_zero_cons, Outcome.ok_bind, slice_eq,
      if_neg (by simp at h ⊢; omega)]
    rfl

omit [Hashes] in
theorem call_body_cases (r : Bytes) : r.length < 21 ∨ ∃ v h r', h.length = 20 ∧ r = v :: (h ++ r') := by
  match r with
  | [] => exact .inl (by simp)
  | v :: r =>
    rcases body_cases (n := 20) r with h | ⟨s, r', h1, rfl⟩
    · exact .inl (by rw [List.length_cons]; omega)
    · exact .inr ⟨v, s, r', h1, rfl⟩

/-! ## Either payload -/

theorem payload_decode_transfer (r : Bytes) :
    Payload.decode (0x00 :: r) = (TokenTransfer.decode (0x00 :: r) >>= fun p => .ok (.tokenTransfer p)) := by
  unfold Payload.decode
  rw [idx_zero_cons, Outcome.ok_bind, if_pos (by decide)]; rfl

theorem payload_decode_call (r : Bytes) :
    Payload.decode (0x02 :: r) = (ContractCall.decode (0x02 :: r) >>= fun p => .ok (.contractCall p)) := by
  unfold Payload.decode
  rw [idx_zero_cons, Outcome.ok_bind, if_neg (by decide), if_pos (by decide)]; rfl

theorem payload_decode_other (t : UInt8) (r : Bytes) (h0 : t ≠ 0) (h2 : t ≠ 2) :
    Payload.decode (t :: r) = .err (.unexpectedType t) := by
  unfold Payload.decode
  rw [idx_zero_cons, Outcome.ok_bind, if_neg (by exact h0), if_neg (by exact h2)]

/-- The transfer decoder on a readable recipient. -/
theorem transfer_after {v : CV} (hv : WellFormed v) (r : Bytes) :
    TokenTransfer.decode (0x00 :: (sip005 v ++ r)) =
      if 42 ≤ r.length then
        stringFromUtf8 ((r.drop 8).take 34) >>= fun m => .ok ⟨v, UInt64.ofNat (beVal (r.take 8)), m⟩
      else .panic := by
  rw [transfer_decode_cons, (decode_ok_iff _ v).2 ⟨wf_accepted v hv, r, rfl⟩, Outcome.ok_bind, CV.len,
    encode_ok v (wf_encodable v hv), Outcome.ok_bind, Outcome.pure_def, Outcome.ok_bind, List.length_append,
    ← List.drop_drop, List.drop_left]
  by_cases h : 42 ≤ r.length
  · rw [if_pos h, if_pos (by omega), if_pos (by omega)]
  · rw [if_neg h]
    split
    · rw [if_neg (by omega)]
    · rfl

/-- How the first value of a transfer is read. -/
theorem transfer_cases (r : Bytes) :
    (decode r = .panic ∧ TokenTransfer.decode (0x00 :: r) = .panic) ∨
    (∃ e, DecodeFails r e ∧ TokenTransfer.decode (0x00 :: r) = .err e) ∨
    (∃ v q e, Accepted v ∧ EncodeFails v e ∧ r = sip005 v ++ q ∧ TokenTransfer.decode (0x00 :: r) = .err e) ∨
    (∃ v q, WellFormed v ∧ r = sip005 v ++ q) := by
  cases hd : decode r with
  | panic => exact .inl ⟨rfl, by rw [transfer_decode_cons, hd]; rfl⟩
  | err e => exact .inr (.inl ⟨e, (decode_err_iff _ _).1 hd, by rw [transfer_decode_cons, hd]; rfl⟩)
  | ok v =>
    obtain ⟨ha, q, rfl⟩ := (decode_ok_iff _ _).1 hd
    by_cases he : Spec.Encodable v
    · exact .inr (.inr (.inr ⟨v, q, accepted_encodable_wf v ha he, rfl⟩))
    · obtain ⟨e, hf⟩ := encodeFails_exists v he
      refine .inr (.inr (.inl ⟨v, q, e, ha, hf, rfl, ?_⟩))
      rw [transfer_decode_cons, hd, Outcome.ok_bind, CV.len, fails_encode hf]; rfl

theorem payload_decode_fails {b : Bytes} {e : Clarity.Error} (h : PayloadDecodeFails b e) :
    Payload.decode b = .err e := by
  cases h with
  | type h0 h2 => exact payload_decode_other _ _ h0 h2
  | recipient h =>
    rw [payload_decode_transfer, transfer_decode_cons, (decode_err_iff _ _).2 h]; rfl
  | @recipientAgain v r _ ha hf =>
    rw [payload_decode_transfer, transfer_decode_cons, (decode_ok_iff _ v).2 ⟨ha, r, rfl⟩, Outcome.ok_bind, CV.len,
      fails_encode hf]; rfl
  | @memo v amount m r hw hl hm hu =>
    rw [payload_decode_transfer, List.append_assoc, List.append_assoc, transfer_after hw,
      if_pos (by simp [hl, hm]; omega), List.drop_left' hl, List.take_left' hm, stringFromUtf8_notUtf8 hu]; rfl
  | contract hl hn =>
    rw [payload_decode_call, call_decode_step _ _ _ hl, readLps_fails _ hn]; rfl
  | function hl hc hn =>
    rw [payload_decode_call, List.append_assoc, call_decode_step _ _ _ hl, readLps_ok _ hc, readLps_fails _ hn]; rfl
  | arguments hl hc hn ha =>
    rw [payload_decode_call, List.append_assoc, List.append_assoc, call_decode_step _ _ _ hl, readLps_ok _ hc,
      readLps_ok _ hn, (fnArgs_err_iff _ _).2 ha]; rfl

omit [Hashes] in
theorem bind_ok_err {ε α β : Type} {x : Outcome ε α} {f : α → β} {e : ε} :
    (x >>= fun a => (.ok (f a) : Outcome ε β)) = .err e ↔ x = .err e := by
  cases x with
  | ok a => constructor <;> (intro h; cases h)
  | err e' => exact Iff.intro (fun h => by cases h; rfl) (fun h => by cases h; rfl)
  | panic => constructor <;> (intro h; cases h)

theorem payload_fails_decode {b : Bytes} {e : Clarity.Error} (h : Payload.decode b = .err e) :
    PayloadDecodeFails b e := by
  match b with
  | [] => cases h
  | t :: r =>
    by_cases h0 : t = 0
    · subst h0
      rw [payload_decode_transfer, bind_ok_err] at h
      rcases transfer_cases r with ⟨_, h'⟩ | ⟨e', h1, h'⟩ | ⟨v, q, e', h1, h2, rfl, h'⟩ | ⟨v, q, hv, rfl⟩
      · rw [h'] at h; cases h
      · rw [h'] at h; cases h; exact .recipient h1
      · rw [h'] at h; cases h; exact .recipientAgain h1 h2
      · rw [transfer_after hv] at h
        split at h
        · rename_i hl
          rw [bind_ok_err] at h
          rcases stringFromUtf8_cases ((q.drop 8).take 34) with ⟨s, _, hs⟩ | ⟨hu, hs⟩
          · rw [hs] at h; cases h
          · rw [hs] at h; cases h
            have := PayloadDecodeFails.memo (v := v) (amount := q.take 8) (m := (q.drop 8).take 34)
              (r := (q.drop 8).drop 34) hv (by simp; omega) (by simp; omega) hu
            rwa [List.append_assoc, List.append_assoc, List.take_append_drop, List.take_append_drop] at this
        · cases h
    · by_cases h2 : t = 2
      · subst h2
        rw [payload_decode_call, bind_ok_err] at h
        rcases call_body_cases r with hs | ⟨v, hh, r', hl, rfl⟩
        · rw [call_decode_short r hs] at h; cases h
        · rw [call_decode_step _ _ _ hl] at h
          rcases readLps_cases _ r' with ⟨_, h'⟩ | ⟨e', hn, h'⟩ | ⟨c, r1, hc, rfl, h'⟩
          · rw [h'] at h; cases h
          · rw [h'] at h; cases h; exact .contract hl hn
          · rw [h'] at h
            rcases readLps_cases _ r1 with ⟨_, h'⟩ | ⟨e', hn, h'⟩ | ⟨n, r2, hn, rfl, h'⟩
            · rw [h'] at h; cases h
            · rw [h'] at h; cases h
              simpa using PayloadDecodeFails.function (v := v) hl hc hn
            · rw [h', bind_ok_err, fnArgs_err_iff] at h
              simpa using PayloadDecodeFails.arguments (v := v) hl hc hn h
      · rw [payload_decode_other _ _ h0 h2] at h
        cases h; exact .type h0 h2

theorem payload_decode_err_iff (b : Bytes) (e : Clarity.Error) :
    Payload.decode b = .err e ↔ PayloadDecodeFails b e := ⟨payload_fails_decode, payload_decode_fails⟩

theorem payloadDecodeFails_append {b : Bytes} {e : Clarity.Error} (h : PayloadDecodeFails b e) (q : Bytes) :
    PayloadDecodeFails (b ++ q) e := by
  cases h with
  | type h0 h2 => exact .type h0 h2
  | recipient h => exact .recipient (fails_append h q)
  | @recipientAgain v r _ ha hf => simpa using PayloadDecodeFails.recipientAgain (r := r ++ q) ha hf
  | @memo v amount m r hw hl hm hu => simpa using PayloadDecodeFails.memo (r := r ++ q) hw hl hm hu
  | @contract v h r _ hl hn => simpa using PayloadDecodeFails.contract (v := v) hl (nameFails_append hn q)
  | @function v h c r _ hl hc hn => simpa using PayloadDecodeFails.function (v := v) hl hc (nameFails_append hn q)
  | @arguments v h c n r _ hl hc hn ha =>
    simpa using PayloadDecodeFails.arguments (v := v) hl hc hn (argumentsFail_append ha q)

theorem payload_decode_append {b : Bytes} (h : Payload.decode b ≠ .panic) (q : Bytes) :
    Payload.decode (b ++ q) = Payload.decode b := by
  cases hd : Payload.decode b with
  | panic => exact absurd hd h
  | err e => exact payload_decode_fails (payloadDecodeFails_append (payload_fails_decode hd) q)
  | ok p =>
    match b with
    | [] => cases hd
    | t :: r =>
      by_cases h0 : t = 0
      · subst h0
        rw [payload_decode_transfer, Outcome.bind_eq_ok] at hd
        obtain ⟨p', hp, hd⟩ := hd
        obtain ⟨h1, h2, h3⟩ := (transfer_decode_iff _ _).1 hp
        rw [List.cons_append, payload_decode_transfer,
          (transfer_decode_iff (0 :: (r ++ q)) p').2 ⟨h1, h2, h3.trans (List.prefix_append _ q)⟩]
        exact hd
      · by_cases h2 : t = 2
        · subst h2
          rw [payload_decode_call, Outcome.bind_eq_ok] at hd
          obtain ⟨p', hp, hd⟩ := hd
          obtain ⟨h1, h3⟩ := (call_decode_iff _ _).1 hp
          rw [List.cons_append, payload_decode_call,
            (call_decode_iff (2 :: (r ++ q)) p').2 ⟨h1, h3.trans (List.prefix_append _ q)⟩]
          exact hd
        · rw [payload_decode_other _ _ h0 h2] at hd; cases hd

theorem transfer_completable (r : Bytes) : ∃ rest, TokenTransfer.decode (0x00 :: (r ++ rest)) ≠ .panic := by
  obtain ⟨p, hp⟩ := completable _ r (Nat.le_refl _)
  rcases transfer_cases (r ++ p) with ⟨h, _⟩ | ⟨e, _, h⟩ | ⟨v, q, e, _, _, _, h⟩ | ⟨v, q, hv, hq⟩
  · exact absurd h hp
  · exact ⟨p, by rw [h]; intro h'; cases h'⟩
  · exact ⟨p, by rw [h]; intro h'; cases h'⟩
  · refine ⟨p ++ List.replicate 42 0, ?_⟩
    rw [← List.append_assoc, hq, List.append_assoc, transfer_after hv, if_pos (by simp)]
    rcases stringFromUtf8_cases (((q ++ List.replicate 42 0).drop 8).take 34) with ⟨s, _, h⟩ | ⟨_, h⟩ <;>
      rw [h] <;> intro h' <;> cases h'

theorem call_completable (r : Bytes) : ∃ rest, ContractCall.decode (0x02 :: (r ++ rest)) ≠ .panic := by
  have key : ∀ v (h r : Bytes), h.length = 20 → ∃ rest, ContractCall.decode (0x02 :: v :: (h ++ (r ++ rest))) ≠ .panic := by
    intro v h r hl
    obtain ⟨rest, hr⟩ := readLps_completable (fun c r1 => readLps (fun n r2 => fnArgsDecode r2 >>= fun a =>
        (.ok ⟨⟨⟨h, hl⟩, v⟩, c, n, a⟩ : Outcome Clarity.Error ContractCall)) r1)
      (fun c b => readLps_completable _ (fun n b => by
        obtain ⟨rest, hr⟩ := fnArgs_completable b
        exact ⟨rest, not_panic_bind_ok hr⟩) b) r
    exact ⟨rest, by rw [call_decode_step _ _ _ hl]; exact hr⟩
  obtain ⟨p, s, r', hs, he, _⟩ := extend r 21
  match s, hs with
  | v :: h, hs =>
    obtain ⟨rest, hr⟩ := key v h r' (by simpa using hs)
    exact ⟨p ++ rest, by rw [← List.append_assoc, he]; simpa using hr⟩

theorem payload_completable (b : Bytes) : ∃ rest, Payload.decode (b ++ rest) ≠ .panic := by
  match b with
  | [] => exact ⟨[1], by rw [List.nil_append, payload_decode_other 1 [] (by decide) (by decide)]; intro h; cases h⟩
  | t :: r =>
    by_cases h0 : t = 0
    · subst h0
      obtain ⟨rest, hr⟩ := transfer_completable r
      exact ⟨rest, by rw [List.cons_append, payload_decode_transfer]; exact not_panic_bind_ok hr⟩
    · by_cases h2 : t = 2
      · subst h2
        obtain ⟨rest, hr⟩ := call_completable r
        exact ⟨rest, by rw [List.cons_append, payload_decode_call]; exact not_panic_bind_ok hr⟩
      · exact ⟨[], by rw [List.cons_append, payload_decode_other _ _ h0 h2]; intro h; cases h⟩

end

end Stacks.Tx

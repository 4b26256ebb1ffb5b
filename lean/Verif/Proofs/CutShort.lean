import Verif.Spec.CutShort
import Verif.Proofs.PayloadErrors

/-! # Decoding panics exactly on inputs that end too early -/

namespace Stacks.Clarity
open Stacks.Spec

theorem idx_panic {bs : Bytes} {i : Nat} (h : bs.length ≤ i) : (idx bs i : Outcome Error UInt8) = .panic := by
  unfold idx; rw [List.getElem?_eq_none h]; rfl

variable [Hashes]

theorem elems_panic_of {n : Nat} {vs : List CV} {b : Bytes} (hn : vs.length < n) (hw : ∀ v ∈ vs, WellFormed v)
    (h : decode b = .panic) : elems n (sip005All vs ++ b) = .panic := by
  obtain ⟨m, rfl⟩ : ∃ m, n = vs.length + (m + 1) := ⟨n - vs.length - 1, by omega⟩
  rw [elems_pre hw, elems, h]; rfl

theorem entries_panic_of {n : Nat} {es : List (Str × CV)} {b : Bytes} (hn : es.length < n)
    (hw : ∀ e ∈ es, e.1.bytes.length < 256 ∧ WellFormed e.2) (h : ∀ m, entries (m + 1) b = .panic) :
    entries n (sip005Entries es ++ b) = .panic := by
  obtain ⟨m, rfl⟩ : ∃ m, n = es.length + (m + 1) := ⟨n - es.length - 1, by omega⟩
  rw [entries_pre hw, h]; rfl

theorem dec_con_cut {v : UInt8} {h r : Bytes} (hl : h.length = 20) (hv : KnownVersion v) (hr : NameCut r) :
    decode (0x06 :: v :: (h ++ r)) = .panic := by
  obtain ⟨a, ha⟩ := c32Address_known (h := h) hv
  refine (step_con ..).trans ?_
  rw [readAddr_parts 6 v h r hl, ha]
  rcases hr with rfl | ⟨n, q, rfl, hq⟩
  · rw [Outcome.mapErr_ok, Outcome.ok_bind, idx_panic (by simp [hl])]; rfl
  · have hi : (idx (0x06 :: v :: (h ++ (n :: q))) 22 : Outcome Error UInt8) = .ok n := by
      rw [idx_eq_ok, show (22 : Nat) = 20 + 1 + 1 from rfl, List.getElem?_cons_succ, List.getElem?_cons_succ,
        List.getElem?_append_right (by omega), hl]; rfl
    rw [Outcome.mapErr_ok, Outcome.ok_bind, hi, Outcome.ok_bind, slice_eq, if_neg (by simp [hl]; omega)]; rfl

theorem cut_decode {b : Bytes} (h : CutShort b) : decode b = .panic := by
  induction h with
  | nothing => exact (C27_unknown_identifier 0x0f [] (by decide)).2
  | @number t r ht hr =>
    rcases ht with rfl | rfl
    · refine (step_int _ _ _).trans (if_pos ?_); simpa using hr
    · refine (step_uint _ _ _).trans (if_pos ?_); simpa using hr
  | @size t r ht hr =>
    rcases ht with rfl | rfl | rfl | rfl | rfl
    · refine (step_buffer _ _ _).trans ?_; rw [readLen_eq, if_pos hr]; rfl
    · refine (step_list _ _ _).trans ?_; rw [readLen_eq, if_pos hr]; rfl
    · refine (step_tuple _ _ _).trans ?_; rw [readLen_eq, if_pos hr]; rfl
    · refine (step_strAscii _ _ _).trans ?_; rw [stringBody, readLen_eq, if_pos hr]; rfl
    · refine (step_strUtf8 _ _ _).trans ?_; rw [stringBody, readLen_eq, if_pos hr]; rfl
  | @body t n r ht hn hr =>
    rcases ht with rfl | rfl | rfl
    · refine (step_buffer _ _ _).trans ?_
      rw [← bind_assoc, bufferBody_eq 2 n r hn, if_neg (by omega)]; rfl
    · refine (step_strAscii _ _ _).trans ?_
      rw [stringBody_eq _ _ _ hn, if_neg (by omega)]; rfl
    · refine (step_strUtf8 _ _ _).trans ?_
      rw [stringBody_eq _ _ _ hn, if_neg (by omega)]; rfl
  | @address t r ht hr =>
    rcases ht with rfl | rfl
    · refine (step_std _ _ _).trans ?_; rw [readAddr_eq, dif_pos hr]; rfl
    · refine (step_con _ _ _).trans ?_; rw [readAddr_eq, dif_pos hr]; rfl
  | name hl hv hr => exact dec_con_cut hl hv hr
  | @inside t b ht _ ih =>
    rcases ht with rfl | rfl | rfl
    · rw [(dec_nested _).1, ih]; rfl
    · rw [(dec_nested _).2.1, ih]; rfl
    · rw [(dec_nested _).2.2, ih]; rfl
  | @element n vs b hn hl hw _ ih =>
    rw [dec_list n _ hn, elems_panic_of hl hw ih]; rfl
  | @key n es b hn hl hw hb =>
    rw [dec_tuple n _ hn, entries_panic_of hl hw]
    · rfl
    intro m
    rcases hb with rfl | ⟨k, q, rfl, hq⟩
    · rfl
    · rw [entries, if_neg (by omega)]
  | @entry n es k b hn hl hw hk _ ih =>
    rw [dec_tuple n _ hn, entries_panic_of hl hw]
    · rfl
    intro m
    rw [sized8_read hk, ih]; rfl

theorem elems_panic : ∀ {n : Nat} {b : Bytes}, elems n b = .panic →
    ∃ vs r, vs.length < n ∧ (∀ v ∈ vs, WellFormed v) ∧ b = sip005All vs ++ r ∧ decode r = .panic := by
  intro n
  induction n with
  | zero => intro b h; cases h
  | succ n ih =>
    intro b h
    rw [elems] at h
    cases hd : decode b with
    | panic => exact ⟨[], b, by simp, by simp, rfl, hd⟩
    | err e' => rw [hd] at h; cases h
    | ok v =>
      rw [hd, Outcome.ok_bind] at h
      cases he : v.encode with
      | panic => exact absurd he (C22_encode_error_or_ok v).2
      | err e' => rw [he] at h; cases h
      | ok bs =>
        rw [he, Outcome.ok_bind] at h
        obtain ⟨ha, rest, rfl⟩ := (decode_ok_iff b v).1 hd
        obtain ⟨hv, rfl⟩ := encode_eq_ok.1 he
        rw [List.drop_left] at h
        cases hr : elems n rest with
        | err => rw [hr] at h; cases h
        | ok r => rw [hr] at h; cases h
        | panic =>
          obtain ⟨vs, r, h1, h2, rfl, h3⟩ := ih hr
          refine ⟨v :: vs, r, by simp; omega, ?_, by rw [sip005All, List.append_assoc], h3⟩
          intro w hw
          rcases List.mem_cons.1 hw with rfl | hw
          · exact accepted_encodable_wf w ha hv
          · exact h2 w hw

theorem entries_panic : ∀ {n : Nat} {b : Bytes}, entries n b = .panic →
    ∃ es r, es.length < n ∧ (∀ x ∈ es, x.1.bytes.length < 256 ∧ WellFormed x.2) ∧ b = sip005Entries es ++ r ∧
      (NameCut r ∨ ∃ k r', r = sized8 k ++ r' ∧ k.bytes.length < 256 ∧ decode r' = .panic) := by
  intro n
  induction n with
  | zero => intro b h; cases h
  | succ n ih =>
    intro b h
    match b with
    | [] => exact ⟨[], [], by simp, by simp, rfl, .inl (.inl rfl)⟩
    | kl :: b =>
      have hlt := kl.toNat_lt
      rw [entries] at h
      split at h
      · rename_i hk
        have hlen : (b.take kl.toNat).length = kl.toNat := by rw [List.length_take]; omega
        have hkl : UInt8.ofNat (b.take kl.toNat).length = kl := by rw [hlen]; simp
        have hb : b = b.take kl.toNat ++ b.drop kl.toNat := (List.take_append_drop _ _).symm
        rcases stringFromUtf8_cases (b.take kl.toNat) with ⟨s, hs, hu⟩ | ⟨hn, hu⟩
        · rw [hu, Outcome.ok_bind] at h
          have hsb : s.bytes.length < 256 := by rw [hs, hlen]; omega
          have hcons : kl :: b = sized8 s ++ b.drop kl.toNat := by
            rw [sized8, hs, hkl, List.cons_append, ← hb]
          cases hd : decode (b.drop kl.toNat) with
          | err e' => rw [hd] at h; cases h
          | panic => exact ⟨[], kl :: b, by simp, by simp, rfl, .inr ⟨s, _, hcons, hsb, hd⟩⟩
          | ok v =>
            rw [hd, Outcome.ok_bind] at h
            cases he : v.encode with
            | panic => exact absurd he (C22_encode_error_or_ok v).2
            | err e' => rw [he] at h; cases h
            | ok bs =>
              rw [he, Outcome.ok_bind] at h
              obtain ⟨ha, rest, hrest⟩ := (decode_ok_iff _ v).1 hd
              obtain ⟨hv, rfl⟩ := encode_eq_ok.1 he
              rw [hrest, List.drop_left] at h
              cases hr : entries n rest with
              | err => rw [hr] at h; cases h
              | ok r => rw [hr] at h; cases h
              | panic =>
                obtain ⟨es, r, h1, h2, rfl, h3⟩ := ih hr
                refine ⟨(s, v) :: es, r, by simp; omega, ?_, ?_, h3⟩
                · intro w hw
                  rcases List.mem_cons.1 hw with rfl | hw
                  · exact ⟨hsb, accepted_encodable_wf v ha hv⟩
                  · exact h2 w hw
                · rw [hcons, hrest, sip005Entries]; simp
        · rw [hu] at h; cases h
      · rename_i hk
        exact ⟨[], kl :: b, by simp, by simp, rfl, .inl (.inr ⟨kl, b, rfl, by omega⟩)⟩

omit [Hashes] in
theorem bind_ok_panic {ε α β : Type} {x : Outcome ε α} {f : α → β} :
    (x >>= fun a => (.ok (f a) : Outcome ε β)) = .panic ↔ x = .panic := by
  cases x with
  | ok a => constructor <;> (intro h; cases h)
  | err e' => constructor <;> (intro h; cases h)
  | panic => exact Iff.intro (fun _ => rfl) (fun _ => rfl)

theorem decode_cut (m : Nat) : ∀ b : Bytes, b.length < m → decode b = .panic → CutShort b := by
  induction m with
  | zero => intro b h; omega
  | succ m ih =>
    intro b hb h
    match b with
    | [] => exact .nothing
    | t :: r =>
      rw [List.length_cons] at hb
      rcases tag_cases t with rfl | rfl | rfl | rfl | rfl | rfl | rfl | rfl | rfl | rfl | rfl | rfl | rfl | rfl | rfl | ht
      · have := h.symm.trans (step_int _ _ _)
        split at this
        · rename_i hl; exact .number (.inl rfl) (by simpa using hl)
        · cases this
      · have := h.symm.trans (step_uint _ _ _)
        split at this
        · rename_i hl; exact .number (.inr rfl) (by simpa using hl)
        · cases this
      · have := h.symm.trans (step_buffer _ _ _)
        rcases header_cases r with hr | ⟨n, r', hn, rfl⟩
        · exact .size (.inl rfl) hr
        · rw [← bind_assoc, bufferBody_eq 2 n r' hn] at this
          split at this
          · cases this
          · exact .body (.inl rfl) hn (by omega)
      · cases h
      · cases h
      · rcases body_cases (n := 21) r with hr | ⟨s, r', hs, rfl⟩
        · exact .address (.inl rfl) hr
        · match s, hs with
          | v :: x, hs =>
            have hx : x.length = 20 := by simpa using hs
            rw [List.cons_append, dec_std v x r' hx] at h
            by_cases hv : KnownVersion v
            · obtain ⟨a, ha⟩ := c32Address_known (h := x) hv
              rw [ha] at h; cases h
            · rw [c32Address_unknown hv] at h; cases h
      · rcases body_cases (n := 21) r with hr | ⟨s, r', hs, rfl⟩
        · exact .address (.inr rfl) hr
        · match s, hs with
          | v :: x, hs =>
            have hx : x.length = 20 := by simpa using hs
            by_cases hv : KnownVersion v
            · obtain ⟨a, ha⟩ := c32Address_known (h := x) hv
              match r' with
              | [] => exact .name hx hv (.inl rfl)
              | nl :: r' =>
                rcases body_cases (n := nl.toNat) r' with hr | ⟨s, r'', hs', rfl⟩
                · exact .name hx hv (.inr ⟨nl, r', rfl, hr⟩)
                · rw [List.cons_append, dec_con v nl x s r'' hx hs', ha] at h
                  rcases stringFromUtf8_cases s with ⟨q, hq, hu⟩ | ⟨hn, hu⟩
                  · rw [hu] at h; cases h
                  · rw [hu] at h; cases h
            · rw [List.cons_append, dec_con_version v x r' hx hv] at h; cases h
      · rw [(dec_nested r).1, bind_ok_panic] at h
        exact .inside (.inl rfl) (ih r (by omega) h)
      · rw [(dec_nested r).2.1, bind_ok_panic] at h
        exact .inside (.inr (.inl rfl)) (ih r (by omega) h)
      · cases h
      · rw [(dec_nested r).2.2, bind_ok_panic] at h
        exact .inside (.inr (.inr rfl)) (ih r (by omega) h)
      · rcases header_cases r with hr | ⟨n, r', hn, rfl⟩
        · exact .size (by simp) hr
        · rw [dec_list n r' hn, bind_ok_panic] at h
          obtain ⟨vs, q, h1, h2, rfl, h3⟩ := elems_panic h
          simp only [List.length_append] at hb
          exact .element hn h1 h2 (ih q (by omega) h3)
      · rcases header_cases r with hr | ⟨n, r', hn, rfl⟩
        · exact .size (by simp) hr
        · rw [dec_tuple n r' hn, bind_ok_panic] at h
          obtain ⟨es, q, h1, h2, rfl, h3⟩ := entries_panic h
          simp only [List.length_append] at hb
          rcases h3 with h3 | ⟨k, q', rfl, hk, h3⟩
          · exact .key hn h1 h2 h3
          · simp only [List.length_append] at hb
            exact .entry hn h1 h2 hk (ih q' (by omega) h3)
      · rcases header_cases r with hr | ⟨n, r', hn, rfl⟩
        · exact .size (by simp) hr
        · rcases body_cases (n := n) r' with hr | ⟨s, q, rfl, rfl⟩
          · exact .body (by simp) hn hr
          · rw [← List.append_assoc, dec_string _ (.inl rfl) _ _ hn] at h
            rcases stringFromUtf8_cases s with ⟨x, hx, hu⟩ | ⟨hx, hu⟩ <;> (rw [hu] at h; cases h)
      · rcases header_cases r with hr | ⟨n, r', hn, rfl⟩
        · exact .size (by simp) hr
        · rcases body_cases (n := n) r' with hr | ⟨s, q, rfl, rfl⟩
          · exact .body (by simp) hn hr
          · rw [← List.append_assoc, dec_string _ (.inr rfl) _ _ hn] at h
            rcases stringFromUtf8_cases s with ⟨x, hx, hu⟩ | ⟨hx, hu⟩ <;> (rw [hu] at h; cases h)
      · rw [(C27_unknown_identifier t r ht).1] at h; cases h

theorem decode_panic_iff (b : Bytes) : decode b = .panic ↔ CutShort b :=
  ⟨decode_cut _ b (Nat.lt_succ_self _), cut_decode⟩

end Stacks.Clarity

namespace Stacks.Tx
open Stacks.Spec Stacks.Clarity

theorem lps_panic_iff (b : Bytes) : lpsDecode b = .panic ↔ NameCut b := by
  match b with
  | [] => exact ⟨fun _ => .inl rfl, fun _ => rfl⟩
  | n :: r =>
    unfold lpsDecode
    rw [idx_zero_cons, Outcome.ok_bind, Nat.add_comm, slice_eq]
    by_cases h : n.toNat ≤ r.length
    · rw [if_pos (by simp; omega), Outcome.ok_bind]
      constructor
      · intro h'
        rcases stringFromUtf8_cases (((n :: r).drop 1).take n.toNat) with ⟨s, _, hs⟩ | ⟨_, hs⟩ <;>
          (rw [hs] at h'; cases h')
      · rintro (h' | ⟨n', r', h', h2⟩)
        · cases h'
        · cases h'; omega
    · rw [if_neg (by simp; omega)]
      exact ⟨fun _ => .inr ⟨n, r, rfl, by omega⟩, fun _ => rfl⟩

variable [Hashes]

theorem fnArgs_panic_iff (b : Bytes) : fnArgsDecode b = .panic ↔ ArgumentsCut b := by
  constructor
  · intro h
    rcases header_cases b with hb | ⟨n, r, hn, rfl⟩
    · exact .size hb
    · rw [fnArgs_header hn] at h
      obtain ⟨vs, r', h1, h2, rfl, h3⟩ := elems_panic h
      exact .argument hn h1 h2 ((decode_panic_iff _).1 h3)
  · intro h
    cases h with
    | size hb => rw [fnArgsDecode, if_pos hb]
    | argument hn h1 h2 h3 =>
      rw [fnArgs_header hn]
      exact elems_panic_of h1 h2 ((decode_panic_iff _).2 h3)

theorem readLps_panic {α : Type} (next : Str → Bytes → Outcome Clarity.Error α) {r : Bytes} (h : NameCut r) :
    readLps next r = .panic := by
  rw [readLps, (lps_panic_iff r).2 h]; rfl

theorem transfer_panic_iff (b : Bytes) : TokenTransfer.decode b = .panic ↔ b.head? ≠ some 0x02 ∧ PayloadCut b := by
  match b with
  | [] => exact ⟨fun _ => ⟨by simp, .nothing⟩, fun _ => rfl⟩
  | t :: r =>
    by_cases h0 : t = 0
    · subst h0
      constructor
      · intro h
        refine ⟨by simp, ?_⟩
        rcases transfer_cases r with ⟨h1, _⟩ | ⟨e', _, h'⟩ | ⟨v, q, e', _, _, rfl, h'⟩ | ⟨v, q, hv, rfl⟩
        · exact .recipient ((decode_panic_iff _).1 h1)
        · rw [h'] at h; cases h
        · rw [h'] at h; cases h
        · rw [transfer_after hv] at h
          split at h
          · rw [bind_ok_panic] at h
            rcases stringFromUtf8_cases ((q.drop 8).take 34) with ⟨s, _, hs⟩ | ⟨_, hs⟩ <;> (rw [hs] at h; cases h)
          · exact .transfer hv (by omega)
      · rintro ⟨_, h⟩
        cases h with
        | recipient h => rw [transfer_decode_cons, (decode_panic_iff _).2 h]; rfl
        | transfer hv hr => rw [transfer_after hv, if_neg (by omega)]
    · have h' : TokenTransfer.decode (t :: r) = .err (.unexpectedType t) := by
        unfold TokenTransfer.decode
        rw [idx_zero_cons, Outcome.ok_bind, if_pos (by exact h0)]
      rw [h']
      constructor
      · intro h; cases h
      · rintro ⟨h1, h⟩
        cases h <;> simp_all

theorem call_panic_iff (b : Bytes) : ContractCall.decode b = .panic ↔ b.head? ≠ some 0x00 ∧ PayloadCut b := by
  match b with
  | [] => exact ⟨fun _ => ⟨by simp, .nothing⟩, fun _ => rfl⟩
  | t :: r =>
    by_cases h0 : t = 2
    · subst h0
      constructor
      · intro h
        refine ⟨by simp, ?_⟩
        rcases call_body_cases r with hs | ⟨v, hh, r', hl, rfl⟩
        · exact .address hs
        · rw [call_decode_step _ _ _ hl] at h
          rcases readLps_cases _ r' with ⟨hn, _⟩ | ⟨e', hn, h'⟩ | ⟨c, r1, hc, rfl, h'⟩
          · exact .contract hl ((lps_panic_iff _).1 hn)
          · rw [h'] at h; cases h
          · rw [h'] at h
            rcases readLps_cases _ r1 with ⟨hn, _⟩ | ⟨e', hn, h'⟩ | ⟨n, r2, hn, rfl, h'⟩
            · exact .function hl hc ((lps_panic_iff _).1 hn)
            · rw [h'] at h; cases h
            · rw [h', bind_ok_panic, fnArgs_panic_iff] at h
              exact .arguments hl hc hn h
      · rintro ⟨_, h⟩
        cases h with
        | address hr => exact call_decode_short _ hr
        | contract hl hn => rw [call_decode_step _ _ _ hl, readLps_panic _ hn]
        | function hl hc hn => rw [call_decode_step _ _ _ hl, readLps_ok _ hc, readLps_panic _ hn]
        | arguments hl hc hn ha =>
          rw [call_decode_step _ _ _ hl, readLps_ok _ hc, readLps_ok _ hn, (fnArgs_panic_iff _).2 ha]; rfl
    · have h' : ContractCall.decode (t :: r) = .err (.unexpectedType t) := by
        unfold ContractCall.decode
        rw [idx_zero_cons, Outcome.ok_bind, if_pos (by exact h0)]
      rw [h']
      constructor
      · intro h; cases h
      · rintro ⟨h1, h⟩
        cases h <;> simp_all

theorem payload_panic_iff (b : Bytes) : Payload.decode b = .panic ↔ PayloadCut b := by
  match b with
  | [] => exact ⟨fun _ => .nothing, fun _ => rfl⟩
  | t :: r =>
    by_cases h0 : t = 0
    · subst h0
      rw [payload_decode_transfer, bind_ok_panic, transfer_panic_iff]; simp
    · by_cases h2 : t = 2
      · subst h2
        rw [payload_decode_call, bind_ok_panic, call_panic_iff]; simp
      · rw [payload_decode_other _ _ h0 h2]
        constructor
        · intro h; cases h
        · intro h; cases h <;> simp_all

end Stacks.Tx

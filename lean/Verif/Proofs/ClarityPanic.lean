import Verif.Proofs.ClarityDecodeErr

/-! # The decoder panics only when the input ends too early -/

namespace Stacks.Clarity
open Stacks.Spec
variable [Hashes]

theorem decode_append {b : Bytes} (h : decode b ≠ .panic) (r : Bytes) : decode (b ++ r) = decode b := by
  cases hd : decode b with
  | panic => exact absurd hd h
  | ok v => exact C25_decode_ignores_trailing b r v hd
  | err e => exact (decode_err_iff _ e).2 (fails_append ((decode_err_iff b e).1 hd) r)

/-- Some continuation of the input is not refused with a panic. -/
def Completable (b : Bytes) : Prop := ∃ rest, decode (b ++ rest) ≠ .panic

/-- Reading one value and going on with the rest. -/
theorem value_then {α : Type} (m : Nat) (hc : ∀ b : Bytes, b.length ≤ m → Completable b)
    (next : CV → Bytes → Outcome Error α) (hn : ∀ v (b : Bytes), b.length ≤ m → ∃ rest, next v (b ++ rest) ≠ .panic)
    (b : Bytes) (hb : b.length ≤ m) :
    ∃ rest, (decode (b ++ rest) >>= fun v => v.encode >>= fun e => next v ((b ++ rest).drop e.length)) ≠ .panic := by
  obtain ⟨r1, h1⟩ := hc b hb
  cases hd : decode (b ++ r1) with
  | panic => exact absurd hd h1
  | err e => exact ⟨r1, by rw [hd]; simp⟩
  | ok v =>
    cases he : v.encode with
    | panic => exact absurd he (encode_not_panic v)
    | err e => exact ⟨r1, by rw [hd, Outcome.ok_bind, he]; simp⟩
    | ok bs =>
      obtain ⟨ha, tl, ht⟩ := (decode_ok_iff _ v).1 hd
      have hbs := (encode_eq_ok.1 he).2
      have key : ∀ q, decode (sip005 v ++ q) = .ok v := fun q => (decode_ok_iff _ v).2 ⟨ha, q, rfl⟩
      rcases prefix_split ht with ⟨q', _, hq, _⟩ | ⟨b2, hb2, _⟩
      · obtain ⟨r2, h2⟩ := hn v [] (by simp)
        refine ⟨q' ++ r2, ?_⟩
        rw [← List.append_assoc, hq, key, Outcome.ok_bind, he, Outcome.ok_bind, hbs, List.drop_left]
        simpa using h2
      · have : b2.length ≤ m := by
          have := congrArg List.length hb2
          rw [List.length_append] at this; omega
        obtain ⟨r2, h2⟩ := hn v b2 this
        refine ⟨r2, ?_⟩
        rw [hb2, List.append_assoc, key, Outcome.ok_bind, he, Outcome.ok_bind, hbs, List.drop_left]
        exact h2

omit [Hashes] in
theorem not_panic_bind_ok {ε α β : Type} {x : Outcome ε α} {f : α → β} (h : x ≠ .panic) :
    (x >>= fun a => (.ok (f a) : Outcome ε β)) ≠ .panic := by
  cases x with
  | ok | err => simp
  | panic => exact absurd rfl h

theorem elems_completable (m : Nat) (hc : ∀ b : Bytes, b.length ≤ m → Completable b) :
    ∀ n (b : Bytes), b.length ≤ m → ∃ rest, elems n (b ++ rest) ≠ .panic := by
  intro n
  induction n with
  | zero => intro b _; exact ⟨[], by simp [elems]⟩
  | succ n ih =>
    intro b hb
    obtain ⟨rest, h⟩ := value_then m hc (fun v b => elems n b >>= fun r => .ok (v :: r))
      (fun v b hb => by
        obtain ⟨r, hr⟩ := ih b hb
        exact ⟨r, not_panic_bind_ok hr⟩) b hb
    exact ⟨rest, by rw [elems]; exact h⟩

theorem entries_completable (m : Nat) (hc : ∀ b : Bytes, b.length ≤ m → Completable b) :
    ∀ n (b : Bytes), b.length ≤ m → ∃ rest, entries n (b ++ rest) ≠ .panic := by
  intro n
  induction n with
  | zero => intro b _; exact ⟨[], by simp [entries]⟩
  | succ n ih =>
    -- the input starts with a complete key
    have whole : ∀ (kl : UInt8) (k b : Bytes), k.length = kl.toNat → b.length ≤ m →
        ∃ rest, entries (n + 1) (kl :: (k ++ (b ++ rest))) ≠ .panic := by
      intro kl k b hk hb
      rcases stringFromUtf8_cases k with ⟨s, _, hu⟩ | ⟨_, hu⟩
      · obtain ⟨rest, h⟩ := value_then m hc (fun v b => entries n b >>= fun r => .ok ((s, v) :: r))
          (fun v b hb => by
            obtain ⟨r, hr⟩ := ih b hb
            exact ⟨r, not_panic_bind_ok hr⟩) b hb
        refine ⟨rest, ?_⟩
        rw [entries, ← hk, if_pos (by simp), List.take_left, hu, Outcome.ok_bind, List.drop_left]
        exact h
      · refine ⟨[], ?_⟩
        rw [entries, ← hk, if_pos (by simp), List.take_left, hu]
        simp
    intro b hb
    match b with
    | [] =>
      obtain ⟨rest, h⟩ := whole 0 [] [] rfl (by simp)
      exact ⟨0 :: rest, by simpa using h⟩
    | kl :: b =>
      rw [List.length_cons] at hb
      rcases body_cases (n := kl.toNat) b with hs | ⟨k, r, hk, rfl⟩
      · obtain ⟨rest, h⟩ := whole kl (b ++ List.replicate (kl.toNat - b.length) 0) [] (by simp; omega) (by simp)
        exact ⟨List.replicate (kl.toNat - b.length) 0 ++ rest, by simpa using h⟩
      · rw [List.length_append] at hb
        obtain ⟨rest, h⟩ := whole kl k r hk (by omega)
        exact ⟨rest, by simpa using h⟩

omit [Hashes] in
/-- Extending an input so that it has a given number of bytes at least. -/
theorem extend (r : Bytes) (n : Nat) : ∃ p s r', s.length = n ∧ r ++ p = s ++ r' ∧ r'.length ≤ r.length := by
  rcases body_cases (n := n) r with h | ⟨s, r', h1, h2⟩
  · exact ⟨List.replicate (n - r.length) 0, r ++ List.replicate (n - r.length) 0, [], by simp; omega, by simp, by simp⟩
  · exact ⟨[], s, r', h1, by simp [h2], by rw [h2]; simp⟩

omit [Hashes] in
/-- Extending an input by the rest of a four-byte length. -/
theorem extend_header (r : Bytes) :
    ∃ p n r', n < 2 ^ 32 ∧ r ++ p = beBytes 4 n ++ r' ∧ r'.length ≤ r.length := by
  obtain ⟨p, s, r', hs, he, hl⟩ := extend r 4
  rcases header_cases s with h | ⟨n, q, hn, hq⟩
  · omega
  · have : q = [] := by
      have := congrArg List.length hq
      rw [List.length_append, beBytes_length] at this
      exact List.eq_nil_of_length_eq_zero (by omega)
    subst this
    exact ⟨p, n, r', hn, by rw [he, hq]; simp, hl⟩

theorem completable (m : Nat) : ∀ b : Bytes, b.length ≤ m → Completable b := by
  induction m with
  | zero =>
    intro b hb
    have : b = [] := List.eq_nil_of_length_eq_zero (by omega)
    subst this
    exact ⟨[3], by intro h; cases h⟩
  | succ m ih =>
    intro b hb
    match b with
    | [] => exact ⟨[3], by intro h; cases h⟩
    | t :: r =>
      rw [List.length_cons] at hb
      have hr : r.length ≤ m := by omega
      -- it is enough to extend the input in two steps
      have two : ∀ p r', r ++ p = r' → (∃ q, decode (t :: (r' ++ q)) ≠ .panic) → Completable (t :: r) := by
        rintro p r' rfl ⟨q, h⟩
        exact ⟨p ++ q, by simpa using h⟩
      rcases tag_cases t with rfl | rfl | rfl | rfl | rfl | rfl | rfl | rfl | rfl | rfl | rfl | rfl | rfl | rfl | rfl | ht
      · refine ⟨List.replicate 16 0, ?_⟩
        intro h
        have := h.symm.trans (step_int _ _ _)
        rw [if_neg (by simp)] at this; cases this
      · refine ⟨List.replicate 16 0, ?_⟩
        intro h
        have := h.symm.trans (step_uint _ _ _)
        rw [if_neg (by simp)] at this; cases this
      · obtain ⟨p, n, r', hn, he, hl⟩ := extend_header r
        refine two p _ he ⟨List.replicate n 0, ?_⟩
        intro h
        have := h.symm.trans (step_buffer _ _ _)
        rw [← bind_assoc, List.append_assoc, bufferBody_eq 2 n _ hn, if_pos (by simp)] at this
        cases this
      · exact ⟨[], by intro h; cases h⟩
      · exact ⟨[], by intro h; cases h⟩
      · obtain ⟨p, s, r', hs, he, hl⟩ := extend r 21
        refine two p _ he ⟨[], ?_⟩
        match s, hs with
        | v :: x, hs =>
          have hx : x.length = 20 := by simpa using hs
          rw [List.append_nil, List.cons_append, dec_std v x r' hx]
          by_cases hv : KnownVersion v
          · obtain ⟨a, ha⟩ := c32Address_known (h := x) hv
            rw [ha]; simp
          · rw [c32Address_unknown hv]; simp
      · obtain ⟨p, s, r', hs, he, hl⟩ := extend r 22
        match s, hs with
        | v :: x, hs =>
          have hx : x.length = 21 := by simpa using hs
          obtain ⟨y, nl, rfl⟩ : ∃ y nl, x = y ++ [nl] := by
            rcases List.eq_nil_or_concat x with h | ⟨y, nl, h⟩
            · subst h; simp at hx
            · exact ⟨y, nl, by simpa using h⟩
          have hy : y.length = 20 := by simpa using hx
          obtain ⟨p2, s2, r2, hs2, he2, _⟩ := extend r' nl.toNat
          refine two p _ he ⟨p2, ?_⟩
          have : (6 : UInt8) :: (v :: (y ++ [nl]) ++ r' ++ p2) = 6 :: v :: (y ++ (nl :: (s2 ++ r2))) := by
            rw [← he2]; simp
          rw [this, dec_con v nl y s2 r2 hy hs2]
          by_cases hv : KnownVersion v
          · obtain ⟨a, ha⟩ := c32Address_known (h := y) hv
            rw [ha]
            rcases stringFromUtf8_cases s2 with ⟨_, _, hu⟩ | ⟨_, hu⟩ <;> rw [hu] <;> simp
          · rw [c32Address_unknown hv]; simp
      · obtain ⟨q, h⟩ := ih r hr
        exact ⟨q, by rw [List.cons_append, (dec_nested _).1]; exact not_panic_bind_ok h⟩
      · obtain ⟨q, h⟩ := ih r hr
        exact ⟨q, by rw [List.cons_append, (dec_nested _).2.1]; exact not_panic_bind_ok h⟩
      · exact ⟨[], by intro h; cases h⟩
      · obtain ⟨q, h⟩ := ih r hr
        exact ⟨q, by rw [List.cons_append, (dec_nested _).2.2]; exact not_panic_bind_ok h⟩
      · obtain ⟨p, n, r', hn, he, hl⟩ := extend_header r
        obtain ⟨q, h⟩ := elems_completable m ih n r' (by omega)
        refine two p _ he ⟨q, ?_⟩
        rw [List.append_assoc, dec_list n _ hn]
        exact not_panic_bind_ok h
      · obtain ⟨p, n, r', hn, he, hl⟩ := extend_header r
        obtain ⟨q, h⟩ := entries_completable m ih n r' (by omega)
        refine two p _ he ⟨q, ?_⟩
        rw [List.append_assoc, dec_tuple n _ hn]
        exact not_panic_bind_ok h
      · obtain ⟨p, n, r', hn, he, hl⟩ := extend_header r
        obtain ⟨p2, s2, r2, hs2, he2, _⟩ := extend r' n
        refine two p _ he ⟨p2, ?_⟩
        rw [List.append_assoc, he2, ← hs2, ← List.append_assoc, dec_string _ (.inl rfl) _ _ (by omega)]
        rcases stringFromUtf8_cases s2 with ⟨_, _, hu⟩ | ⟨_, hu⟩ <;> rw [hu] <;> simp
      · obtain ⟨p, n, r', hn, he, hl⟩ := extend_header r
        obtain ⟨p2, s2, r2, hs2, he2, _⟩ := extend r' n
        refine two p _ he ⟨p2, ?_⟩
        rw [List.append_assoc, he2, ← hs2, ← List.append_assoc, dec_string _ (.inr rfl) _ _ (by omega)]
        rcases stringFromUtf8_cases s2 with ⟨_, _, hu⟩ | ⟨_, hu⟩ <;> rw [hu] <;> simp
      · exact ⟨[], by rw [List.append_nil, (C27_unknown_identifier t r ht).1]; simp⟩

end Stacks.Clarity

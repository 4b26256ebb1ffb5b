import Verif.Spec.ClarityErrors
import Verif.Proofs.Clarity

/-! # The errors of the encoders -/

namespace Stacks.Clarity
open Stacks.Spec
variable [Hashes]

theorem addr_mapErr {a : Str} {e : C32.Error} (h : C32.c32AddressDecode a = .err e) :
    ((C32.c32AddressDecode a).mapErr Error.c32) = .err (.c32 e) := by rw [h]; rfl

theorem encodeAll_first {pre : List CV} {v : CV} {post : List CV} {e : Error}
    (hp : ∀ p ∈ pre, Encodable p) (hv : v.encode = .err e) :
    CV.encodeAll (pre ++ v :: post) = .err e := by
  induction pre with
  | nil => simp only [List.nil_append, CV.encodeAll, hv, Outcome.err_bind]
  | cons p pre ih =>
    simp only [List.cons_append, CV.encodeAll, encode_ok p (hp p (by simp)), Outcome.ok_bind,
      ih (fun q hq => hp q (by simp [hq])), Outcome.err_bind]

theorem encodeEntries_first {pre : List (Str × CV)} {k : Str} {v : CV} {post : List (Str × CV)} {e : Error}
    (hp : ∀ p ∈ pre, p.1.bytes.length ≤ 128 ∧ Encodable p.2)
    (hv : lpsEncode k = .err e ∨ k.bytes.length ≤ 128 ∧ v.encode = .err e) :
    CV.encodeEntries (pre ++ (k, v) :: post) = .err e := by
  induction pre with
  | nil =>
    rcases hv with hv | ⟨hk, hv⟩
    · simp only [List.nil_append, CV.encodeEntries, hv, Outcome.err_bind]
    · simp only [List.nil_append, CV.encodeEntries, hv, lpsEncode_ok hk, Outcome.ok_bind, Outcome.err_bind]
  | cons p pre ih =>
    obtain ⟨h1, h2⟩ := hp p (by simp)
    obtain ⟨k', v'⟩ := p
    simp only [List.cons_append, CV.encodeEntries, lpsEncode_ok h1, encode_ok v' h2, Outcome.ok_bind,
      ih (fun q hq => hp q (by simp [hq])), Outcome.err_bind]

theorem fails_encode {v : CV} {e : Error} (h : EncodeFails v e) : v.encode = .err e := by
  induction h with
  | principalStd h => simp only [CV.encode, addr_mapErr ((C32.address_err_iff _ _).2 h), Outcome.err_bind]
  | principalCon h => simp only [CV.encode, addr_mapErr ((C32.address_err_iff _ _).2 h), Outcome.err_bind]
  | contractName h hn =>
    obtain ⟨r, hr⟩ := C32.denotes_iff.1 h
    simp only [CV.encode, hr, Outcome.mapErr, Outcome.ok_bind,
      lpsEncode_err (Nat.not_le.2 hn), Outcome.err_bind]
  | lps h => simp only [CV.encode, lpsEncode_err (Nat.not_le.2 h)]
  | buffer h => simp only [CV.encode, lenBytes_err (Nat.not_lt.2 h), Outcome.err_bind]
  | @notAscii s h =>
    have : (!s.isAscii) = true := by
      rw [isAscii_false]; intro h'
      obtain ⟨c, hc, h⟩ := h
      exact absurd (h' c hc) (by omega)
    simp only [CV.encode, this, if_true]
  | @strAscii s h1 h2 =>
    have : (!s.isAscii) = false := by
      rw [← Bool.not_eq_true, isAscii_false]; simpa using h1
    simp only [CV.encode, this, lenBytes_err (Nat.not_lt.2 h2), Outcome.err_bind]
    rfl
  | strUtf8 h => simp only [CV.encode, lenBytes_err (Nat.not_lt.2 h), Outcome.err_bind]
  | ok _ ih | err _ ih | some _ ih => simp only [CV.encode, ih, Outcome.err_bind]
  | listSize h | fnArgsSize h | tupleSize h =>
    simp only [CV.encode, lenBytes_err (Nat.not_lt.2 h), Outcome.err_bind]
  | list hl hp _ ih | fnArgs hl hp _ ih =>
    simp only [CV.encode, lenBytes_ok hl, encodeAll_first hp ih, Outcome.ok_bind, Outcome.err_bind]
  | tupleKey hl hp hk =>
    simp only [CV.encode, lenBytes_ok hl, Outcome.ok_bind,
      encodeEntries_first hp (.inl (lpsEncode_err (Nat.not_le.2 hk))), Outcome.err_bind]
  | tuple hl hp hk _ ih =>
    simp only [CV.encode, lenBytes_ok hl, Outcome.ok_bind, encodeEntries_first hp (.inr ⟨hk, ih⟩), Outcome.err_bind]

omit [Hashes] in
/-- The first element without an encoding. -/
theorem first_bad {α : Type} {p : α → Prop} {l : List α} (h : ¬ ∀ x ∈ l, p x) :
    ∃ pre x post, l = pre ++ x :: post ∧ (∀ y ∈ pre, p y) ∧ ¬ p x := by
  induction l with
  | nil => simp at h
  | cons a l ih =>
    by_cases ha : p a
    · obtain ⟨pre, x, post, rfl, h1, h2⟩ := ih (fun h' => h (by simpa using ⟨ha, h'⟩))
      exact ⟨a :: pre, x, post, rfl, by simpa using ⟨ha, h1⟩, h2⟩
    · exact ⟨[], a, l, rfl, by simp, ha⟩

theorem fails_all (n : Nat) (ih : ∀ v : CV, sizeOf v < n → ¬ Encodable v → ∃ e, EncodeFails v e) {vs : List CV}
    (hs : sizeOf vs < n) (h : ¬ EncodableAll vs) :
    ∃ pre v post e, vs = pre ++ v :: post ∧ (∀ p ∈ pre, Spec.Encodable p) ∧ EncodeFails v e := by
  rw [encodableAll_iff] at h
  obtain ⟨pre, v, post, rfl, h1, h2⟩ := first_bad h
  obtain ⟨e, he⟩ := ih v (Nat.lt_trans (List.sizeOf_lt_of_mem (by simp)) hs) h2
  exact ⟨pre, v, post, e, rfl, h1, he⟩

theorem fails_exists (n : Nat) : ∀ v : CV, sizeOf v < n → ¬ Encodable v → ∃ e, EncodeFails v e := by
  induction n with
  | zero => intro v h; omega
  | succ n ih =>
    intro v hs h
    have addr : ∀ a, ¬ DenotesAddress a → ∃ e, AddressFails a e := fun a h =>
      (addr_err h).imp fun e => (C32.address_err_iff a e).1
    cases v with
    | int | uint | tru | fls | optNone => exact absurd trivial h
    | buffer bs => exact ⟨_, .buffer (Nat.not_lt.1 h)⟩
    | principalStd a =>
      obtain ⟨e, he⟩ := addr a h
      exact ⟨_, .principalStd he⟩
    | principalCon a m =>
      by_cases ha : DenotesAddress a
      · exact ⟨_, .contractName ha (Nat.not_le.1 (fun hm => h ⟨ha, hm⟩))⟩
      · obtain ⟨e, he⟩ := addr a ha
        exact ⟨_, .principalCon he⟩
    | respOk v =>
      obtain ⟨e, he⟩ := ih v (by simp at hs; omega) h
      exact ⟨e, .ok he⟩
    | respErr v =>
      obtain ⟨e, he⟩ := ih v (by simp at hs; omega) h
      exact ⟨e, .err he⟩
    | optSome v =>
      obtain ⟨e, he⟩ := ih v (by simp at hs; omega) h
      exact ⟨e, .some he⟩
    | list vs =>
      by_cases hl : vs.length < 2 ^ 32
      · obtain ⟨pre, v, post, e, rfl, h1, h2⟩ := fails_all n ih (by simp at hs; omega) (fun h' => h ⟨hl, h'⟩)
        exact ⟨e, .list hl h1 h2⟩
      · exact ⟨_, .listSize (Nat.not_lt.1 hl)⟩
    | fnArgs vs =>
      by_cases hl : vs.length < 2 ^ 32
      · obtain ⟨pre, v, post, e, rfl, h1, h2⟩ := fails_all n ih (by simp at hs; omega) (fun h' => h ⟨hl, h'⟩)
        exact ⟨e, .fnArgs hl h1 h2⟩
      · exact ⟨_, .fnArgsSize (Nat.not_lt.1 hl)⟩
    | tuple es =>
      by_cases hl : es.length < 2 ^ 32
      · have h' : ¬ EncodableEntries es := fun h' => h ⟨hl, h'⟩
        rw [encodableEntries_iff] at h'
        obtain ⟨pre, ⟨k, v⟩, post, rfl, h1, h2⟩ := first_bad h'
        by_cases hk : k.bytes.length ≤ 128
        · have hm : sizeOf (k, v) < sizeOf (pre ++ (k, v) :: post) := List.sizeOf_lt_of_mem (by simp)
          obtain ⟨e, he⟩ := ih v (by simp at hs hm; omega) (fun hv => h2 ⟨hk, hv⟩)
          exact ⟨e, .tuple hl h1 hk he⟩
        · exact ⟨_, .tupleKey hl h1 (Nat.not_le.1 hk)⟩
      · exact ⟨_, .tupleSize (Nat.not_lt.1 hl)⟩
    | strAscii s =>
      by_cases ha : ∀ c ∈ s, c.toNat < 128
      · exact ⟨_, .strAscii ha (Nat.not_lt.1 (fun hl => h ⟨ha, hl⟩))⟩
      · simp only [not_forall, Nat.not_lt] at ha
        obtain ⟨c, hc, h'⟩ := ha
        exact ⟨_, .notAscii ⟨c, hc, h'⟩⟩
    | strUtf8 s => exact ⟨_, .strUtf8 (Nat.not_lt.1 h)⟩
    | lps s => exact ⟨_, .lps (Nat.not_le.1 h)⟩

theorem encode_err_iff (v : CV) (e : Error) : v.encode = .err e ↔ EncodeFails v e := by
  refine ⟨fun h => ?_, fails_encode⟩
  have hv : ¬ Encodable v := fun hv => by rw [encode_ok v hv] at h; cases h
  obtain ⟨e', he⟩ := fails_exists _ v (Nat.lt_succ_self _) hv
  rw [fails_encode he] at h
  cases h; exact he

end Stacks.Clarity

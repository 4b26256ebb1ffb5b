import Verif.Spec.Resources
import Verif.Proofs.ClarityMain

/-! Helper lemmas about the depth of recursion. -/

namespace Stacks.Clarity
open Stacks.Spec

section
variable [Hashes]

omit [Hashes] in
theorem depth_pos (v : CV) : 0 < depth v := by
  cases v <;> simp only [depth] <;> omega

mutual
theorem depth_le_length : (v : CV) → Accepted v → depth v ≤ (sip005 v).length
  | .respOk v, h => by have := depth_le_length v h; simp only [depth, sip005, List.length_cons]; omega
  | .respErr v, h => by have := depth_le_length v h; simp only [depth, sip005, List.length_cons]; omega
  | .optSome v, h => by have := depth_le_length v h; simp only [depth, sip005, List.length_cons]; omega
  | .list vs, h => by
    have := depthAll_le_length vs (wellFormedAll_iff.2 h.2)
    simp only [depth, sip005, List.length_cons, List.length_append]; omega
  | .tuple es, h => by
    have := depthEntries_le_length es h.2
    simp only [depth, sip005, List.length_cons, List.length_append]; omega
  | .int _, _ => by simp [depth, sip005]
  | .uint _, _ => by simp [depth, sip005]
  | .buffer _, _ => by simp [depth, sip005]
  | .tru, _ => by simp [depth, sip005]
  | .fls, _ => by simp [depth, sip005]
  | .principalStd _, _ => by simp [depth, sip005]
  | .principalCon _ _, _ => by simp [depth, sip005]
  | .optNone, _ => by simp [depth, sip005]
  | .strAscii _, _ => by simp [depth, sip005]
  | .strUtf8 _, _ => by simp [depth, sip005]
theorem depthAll_le_length : (vs : List CV) → WellFormedAll vs → depthAll vs ≤ (sip005All vs).length
  | [], _ => by simp [depthAll]
  | v :: vs, h => by
    have h1 := depth_le_length v (wf_accepted v h.1)
    have h2 := depthAll_le_length vs h.2
    simp only [depthAll, sip005All, List.length_append]; omega
theorem depthEntries_le_length : (es : List (Str × CV)) → (∀ e ∈ es, e.1.bytes.length < 256 ∧ WellFormed e.2) →
    depthEntries es ≤ (sip005Entries es).length
  | [], _ => by simp [depthEntries]
  | (k, v) :: es, h => by
    have h1 := depth_le_length v (wf_accepted v (h (k, v) (by simp)).2)
    have h2 := depthEntries_le_length es (fun e he => h e (by simp [he]))
    simp only [depthEntries, sip005Entries, List.length_append]; omega
end

/-! ## Enough depth -/

theorem listLoop_shallow {rec rec' : Bytes → Outcome Error CV} (bytes : Bytes) (d : Nat)
    (h : ∀ b v, rec b = .ok v → depth v ≤ d → rec' b = .ok v) :
    ∀ (n off : Nat) (vs : List CV), listLoop rec bytes n off = .ok vs → depthAll vs ≤ d →
      listLoop rec' bytes n off = .ok vs := by
  intro n
  induction n with
  | zero => intro off vs h _; exact h
  | succ n ih =>
    intro off vs hl hd
    rw [listLoop] at hl ⊢
    simp only [Outcome.bind_eq_ok, Outcome.pure_def, Outcome.ok.injEq] at hl ⊢
    obtain ⟨r, hr, v, hv, e, he, vs', hvs, rfl⟩ := hl
    simp only [depthAll] at hd
    exact ⟨r, hr, v, h _ _ hv (by omega), e, he, vs', ih _ _ hvs (by omega), rfl⟩

theorem tupleLoop_shallow {rec rec' : Bytes → Outcome Error CV} (bytes : Bytes) (d : Nat)
    (h : ∀ b v, rec b = .ok v → depth v ≤ d → rec' b = .ok v) :
    ∀ (n off : Nat) (es : List (Str × CV)), tupleLoop rec bytes n off = .ok es → depthEntries es ≤ d →
      tupleLoop rec' bytes n off = .ok es := by
  intro n
  induction n with
  | zero => intro off vs h _; exact h
  | succ n ih =>
    intro off vs hl hd
    rw [tupleLoop] at hl ⊢
    simp only [Outcome.bind_eq_ok, Outcome.pure_def, Outcome.ok.injEq] at hl ⊢
    obtain ⟨kl, hkl, ks, hks, k, hk, r, hr, v, hv, e, he, vs', hvs, rfl⟩ := hl
    simp only [depthEntries] at hd
    exact ⟨kl, hkl, ks, hks, k, hk, r, hr, v, h _ _ hv (by omega), e, he, vs', ih _ _ hvs (by omega), rfl⟩

theorem listLoop_depth {rec : Bytes → Outcome Error CV} (bytes : Bytes) (d : Nat)
    (h : ∀ b v, rec b = .ok v → depth v ≤ d) :
    ∀ (n off : Nat) (vs : List CV), listLoop rec bytes n off = .ok vs → depthAll vs ≤ d := by
  intro n
  induction n with
  | zero => intro off vs h; cases h; simp [depthAll]
  | succ n ih =>
    intro off vs hl
    rw [listLoop] at hl
    simp only [Outcome.bind_eq_ok, Outcome.pure_def, Outcome.ok.injEq] at hl
    obtain ⟨r, hr, v, hv, e, he, vs', hvs, rfl⟩ := hl
    have := h _ _ hv
    have := ih _ _ hvs
    simp only [depthAll]; omega

theorem tupleLoop_depth {rec : Bytes → Outcome Error CV} (bytes : Bytes) (d : Nat)
    (h : ∀ b v, rec b = .ok v → depth v ≤ d) :
    ∀ (n off : Nat) (es : List (Str × CV)), tupleLoop rec bytes n off = .ok es → depthEntries es ≤ d := by
  intro n
  induction n with
  | zero => intro off vs h; cases h; simp [depthEntries]
  | succ n ih =>
    intro off vs hl
    rw [tupleLoop] at hl
    simp only [Outcome.bind_eq_ok, Outcome.pure_def, Outcome.ok.injEq] at hl
    obtain ⟨kl, hkl, ks, hks, k, hk, r, hr, v, hv, e, he, vs', hvs, rfl⟩ := hl
    have := h _ _ hv
    have := ih _ _ hvs
    simp only [depthEntries]; omega

/-- With fuel `f`, nothing deeper than `f` is returned. -/
theorem decodeAt_depth (f : Nat) : ∀ b v, decodeAt .panic f b = .ok v → depth v ≤ f := by
  induction f with
  | zero => intro b v h; cases h
  | succ f ih =>
    intro b v h
    match b with
    | [] => cases h
    | t :: r =>
      rcases tag_cases t with rfl | rfl | rfl | rfl | rfl | rfl | rfl | rfl | rfl | rfl | rfl | rfl | rfl | rfl | rfl | ht
      · rw [step_int] at h; split at h <;> cases h; simp [depth]
      · rw [step_uint] at h; split at h <;> cases h; simp [depth]
      · rw [step_buffer] at h; simp only [Outcome.bind_eq_ok] at h; obtain ⟨_, _, _, _, h⟩ := h; cases h; simp [depth]
      · cases h; simp [depth]
      · cases h; simp [depth]
      · rw [step_std] at h; simp only [Outcome.bind_eq_ok] at h; obtain ⟨_, _, h⟩ := h; cases h; simp [depth]
      · rw [step_con] at h; simp only [Outcome.bind_eq_ok] at h
        obtain ⟨_, _, _, _, _, _, _, _, h⟩ := h; cases h; simp [depth]
      · rw [step_respOk] at h; simp only [Outcome.bind_eq_ok] at h
        obtain ⟨w, hw, h⟩ := h; cases h; have := ih _ _ hw; simp only [depth]; omega
      · rw [step_respErr] at h; simp only [Outcome.bind_eq_ok] at h
        obtain ⟨w, hw, h⟩ := h; cases h; have := ih _ _ hw; simp only [depth]; omega
      · cases h; simp [depth]
      · rw [step_some] at h; simp only [Outcome.bind_eq_ok] at h
        obtain ⟨w, hw, h⟩ := h; cases h; have := ih _ _ hw; simp only [depth]; omega
      · rw [step_list] at h; simp only [Outcome.bind_eq_ok] at h
        obtain ⟨n, _, w, hw, h⟩ := h; cases h
        have := listLoop_depth _ f ih _ _ _ hw; simp only [depth]; omega
      · rw [step_tuple] at h; simp only [Outcome.bind_eq_ok] at h
        obtain ⟨n, _, w, hw, h⟩ := h; cases h
        have := tupleLoop_depth _ f ih _ _ _ hw; simp only [depth]; omega
      · rw [step_strAscii] at h; simp only [Outcome.bind_eq_ok] at h; obtain ⟨_, _, h⟩ := h; cases h; simp [depth]
      · rw [step_strUtf8] at h; simp only [Outcome.bind_eq_ok] at h; obtain ⟨_, _, h⟩ := h; cases h; simp [depth]
      · rw [step_unknown (h := ht)] at h; cases h

/-- Fuel equal to the depth is enough. -/
theorem decodeAt_enough (stop : Outcome Error CV) (f : Nat) : ∀ (F : Nat) (b : Bytes) (v : CV),
    decodeAt .panic F b = .ok v → depth v ≤ f → decodeAt stop f b = .ok v := by
  induction f with
  | zero => intro F b v _ h; have := depth_pos v; omega
  | succ f ih =>
    intro F b v h hd
    match F, b with
    | 0, _ => cases h
    | F + 1, [] => cases h
    | F + 1, t :: r =>
      rcases tag_cases t with rfl | rfl | rfl | rfl | rfl | rfl | rfl | rfl | rfl | rfl | rfl | rfl | rfl | rfl | rfl | ht
      · rw [step_int] at h ⊢; exact h
      · rw [step_uint] at h ⊢; exact h
      · rw [step_buffer] at h ⊢; exact h
      · exact h
      · exact h
      · rw [step_std] at h ⊢; exact h
      · rw [step_con] at h ⊢; exact h
      · rw [step_respOk] at h ⊢; simp only [Outcome.bind_eq_ok] at h ⊢
        obtain ⟨w, hw, h⟩ := h; cases h; simp only [depth] at hd
        exact ⟨w, ih F _ _ hw (by omega), rfl⟩
      · rw [step_respErr] at h ⊢; simp only [Outcome.bind_eq_ok] at h ⊢
        obtain ⟨w, hw, h⟩ := h; cases h; simp only [depth] at hd
        exact ⟨w, ih F _ _ hw (by omega), rfl⟩
      · exact h
      · rw [step_some] at h ⊢; simp only [Outcome.bind_eq_ok] at h ⊢
        obtain ⟨w, hw, h⟩ := h; cases h; simp only [depth] at hd
        exact ⟨w, ih F _ _ hw (by omega), rfl⟩
      · rw [step_list] at h ⊢; simp only [Outcome.bind_eq_ok] at h ⊢
        obtain ⟨n, hn, w, hw, h⟩ := h; cases h; simp only [depth] at hd
        exact ⟨n, hn, w, listLoop_shallow _ f (fun b v => ih F b v) _ _ _ hw (by omega), rfl⟩
      · rw [step_tuple] at h ⊢; simp only [Outcome.bind_eq_ok] at h ⊢
        obtain ⟨n, hn, w, hw, h⟩ := h; cases h; simp only [depth] at hd
        exact ⟨n, hn, w, tupleLoop_shallow _ f (fun b v => ih F b v) _ _ _ hw (by omega), rfl⟩
      · rw [step_strAscii] at h ⊢; exact h
      · rw [step_strUtf8] at h ⊢; exact h
      · rw [step_unknown (h := ht)] at h; cases h

end

end Stacks.Clarity

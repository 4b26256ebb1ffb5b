import Verif.Spec.Canonical
import Verif.Proofs.Basic

/-! # Lemmas about sorting the entries of tuples -/

namespace Stacks.Tx
open Stacks.Spec Stacks.Clarity

theorem bytesLt_irrefl : ∀ a : Bytes, bytesLt a a = false
  | [] => rfl
  | a :: as => by rw [bytesLt, if_pos rfl, bytesLt_irrefl as]

theorem bytesLt_trans : ∀ {a b c : Bytes}, bytesLt a b = true → bytesLt b c = true → bytesLt a c = true
  | _, [], [], _, h | _, _ :: _, [], _, h => by cases h
  | [], [], _ :: _, h, _ | _ :: _, [], _ :: _, h, _ => by cases h
  | [], _ :: _, _ :: _, _, _ => rfl
  | a :: as, b :: bs, c :: cs, h, g => by
    rw [bytesLt] at h g ⊢
    by_cases hab : a = b
    · subst hab
      rw [if_pos rfl] at h
      by_cases hac : a = c
      · subst hac
        rw [if_pos rfl] at g ⊢
        exact bytesLt_trans h g
      · rw [if_neg hac] at g ⊢
        exact g
    · rw [if_neg hab] at h
      by_cases hbc : b = c
      · subst hbc
        rw [if_neg hab]; exact h
      · rw [if_neg hbc] at g
        have h' := UInt8.lt_iff_toNat_lt.1 (of_decide_eq_true h)
        have g' := UInt8.lt_iff_toNat_lt.1 (of_decide_eq_true g)
        rw [if_neg (by rintro rfl; omega)]
        exact decide_eq_true (UInt8.lt_iff_toNat_lt.2 (by omega))

theorem bytesLt_total : ∀ {a b : Bytes}, a ≠ b → bytesLt a b = true ∨ bytesLt b a = true
  | [], [], h => absurd rfl h
  | [], _ :: _, _ => .inl rfl
  | _ :: _, [], _ => .inr rfl
  | a :: as, b :: bs, h => by
    rw [bytesLt, bytesLt]
    by_cases hab : a = b
    · subst hab
      rw [if_pos rfl, if_pos rfl]
      exact bytesLt_total (fun e => h (by rw [e]))
    · rw [if_neg hab, if_neg (Ne.symm hab)]
      have : a.toNat ≠ b.toNat := fun e => hab (UInt8.toNat_inj.1 e)
      rcases Nat.lt_or_gt_of_ne this with hl | hl
      · exact .inl (decide_eq_true (UInt8.lt_iff_toNat_lt.2 hl))
      · exact .inr (decide_eq_true (UInt8.lt_iff_toNat_lt.2 hl))

theorem nameLt_irrefl (a : Str) : ¬ nameLt a a := by
  rw [nameLt, bytesLt_irrefl]; exact Bool.noConfusion

theorem nameLt_trans {a b c : Str} (h : nameLt a b) (g : nameLt b c) : nameLt a c := bytesLt_trans h g

theorem nameLt_total {a b : Str} (h : a ≠ b) : nameLt a b ∨ nameLt b a :=
  bytesLt_total (fun e => h (Str.bytes_injective e))

theorem insertEntry_perm (e : Str × CV) : ∀ fs, (insertEntry e fs).Perm (e :: fs)
  | [] => .refl _
  | f :: fs => by
    rw [insertEntry]
    split
    · exact .refl _
    · exact ((insertEntry_perm e fs).cons f).trans (.swap _ _ _)

theorem insertEntry_pairwise (e : Str × CV) : ∀ fs : List (Str × CV), (fs.map Prod.fst).Pairwise nameLt →
    e.1 ∉ fs.map Prod.fst → ((insertEntry e fs).map Prod.fst).Pairwise nameLt
  | [], _, _ => by simp [insertEntry]
  | f :: fs, h, hn => by
    rw [List.map_cons, List.pairwise_cons] at h
    rw [insertEntry]
    split
    · rename_i hl
      rw [List.map_cons, List.map_cons, List.pairwise_cons, List.pairwise_cons]
      refine ⟨fun k hk => ?_, h⟩
      rcases List.mem_cons.1 hk with rfl | hk
      · exact hl
      · exact nameLt_trans hl (h.1 k hk)
    · rename_i hl
      rw [List.map_cons, List.pairwise_cons]
      rw [List.map_cons, List.mem_cons, not_or] at hn
      refine ⟨fun k hk => ?_, insertEntry_pairwise e fs h.2 hn.2⟩
      have := ((insertEntry_perm e fs).map Prod.fst).mem_iff.1 hk
      rcases List.mem_cons.1 this with rfl | hk
      · exact (nameLt_total hn.1).resolve_left hl
      · exact h.1 k hk

theorem insertEntry_first (e : Str × CV) : ∀ fs : List (Str × CV), (∀ k ∈ fs.map Prod.fst, nameLt e.1 k) →
    insertEntry e fs = e :: fs
  | [], _ => rfl
  | f :: fs, h => by rw [insertEntry, if_pos (h f.1 (by simp))]

theorem sortedAll_eq (vs : List CV) : sortedAll vs = vs.map sorted := by
  induction vs with
  | nil => rfl
  | cons v vs ih => rw [sortedAll, ih, List.map_cons]

theorem sortedEntries_perm : ∀ es : List (Str × CV), (sortedEntries es).Perm (es.map fun e => (e.1, sorted e.2))
  | [] => .refl _
  | (k, v) :: es => by
    rw [sortedEntries, List.map_cons]
    exact (insertEntry_perm _ _).trans ((sortedEntries_perm es).cons _)

theorem sortedEntries_keys (es : List (Str × CV)) : ((sortedEntries es).map Prod.fst).Perm (es.map Prod.fst) := by
  have := (sortedEntries_perm es).map Prod.fst
  rwa [List.map_map] at this

theorem sortedEntries_pairwise : ∀ es : List (Str × CV), (es.map Prod.fst).Nodup →
    ((sortedEntries es).map Prod.fst).Pairwise nameLt
  | [], _ => .nil
  | (k, v) :: es, h => by
    rw [List.map_cons, List.nodup_cons] at h
    rw [sortedEntries]
    exact insertEntry_pairwise _ _ (sortedEntries_pairwise es h.2)
      (fun hk => h.1 ((sortedEntries_keys es).mem_iff.1 hk))

theorem ascendingEntries_insert (e : Str × CV) (he : Ascending e.2) : ∀ fs, AscendingEntries fs →
    AscendingEntries (insertEntry e fs)
  | [], _ => by obtain ⟨k, v⟩ := e; exact ⟨he, trivial⟩
  | (k, v) :: fs, h => by
    rw [insertEntry]
    split
    · obtain ⟨k, v⟩ := e; exact ⟨he, h⟩
    · exact ⟨h.1, ascendingEntries_insert e he fs h.2⟩

mutual
theorem sorted_ascending : (v : CV) → NamesDiffer v → Ascending (sorted v)
  | .int _, _ | .uint _, _ | .buffer _, _ | .tru, _ | .fls, _ | .principalStd _, _ | .principalCon _ _, _
  | .optNone, _ | .strAscii _, _ | .strUtf8 _, _ | .lps _, _ => by rw [sorted] <;> simp [Ascending]
  | .respOk v, h | .respErr v, h | .optSome v, h => sorted_ascending v h
  | .list vs, h | .fnArgs vs, h => sortedAll_ascending vs h
  | .tuple es, h => ⟨sortedEntries_pairwise es h.1, sortedEntries_ascending es h.2⟩
theorem sortedAll_ascending : (vs : List CV) → NamesDifferAll vs → AscendingAll (sortedAll vs)
  | [], _ => trivial
  | v :: vs, h => ⟨sorted_ascending v h.1, sortedAll_ascending vs h.2⟩
theorem sortedEntries_ascending : (es : List (Str × CV)) → NamesDifferEntries es → AscendingEntries (sortedEntries es)
  | [], _ => trivial
  | (k, v) :: es, h => by
    rw [sortedEntries]
    exact ascendingEntries_insert _ (sorted_ascending v h.1) _ (sortedEntries_ascending es h.2)
end

mutual
theorem sorted_fix : (v : CV) → Ascending v → sorted v = v
  | .int _, _ | .uint _, _ | .buffer _, _ | .tru, _ | .fls, _ | .principalStd _, _ | .principalCon _ _, _
  | .optNone, _ | .strAscii _, _ | .strUtf8 _, _ | .lps _, _ => by rw [sorted] <;> simp
  | .respOk v, h => by rw [sorted, sorted_fix v h]
  | .respErr v, h => by rw [sorted, sorted_fix v h]
  | .optSome v, h => by rw [sorted, sorted_fix v h]
  | .list vs, h => by rw [sorted, sortedAll_fix vs h]
  | .fnArgs vs, h => by rw [sorted, sortedAll_fix vs h]
  | .tuple es, h => by rw [sorted, sortedEntries_fix es h.1 h.2]
theorem sortedAll_fix : (vs : List CV) → AscendingAll vs → sortedAll vs = vs
  | [], _ => rfl
  | v :: vs, h => by rw [sortedAll, sorted_fix v h.1, sortedAll_fix vs h.2]
theorem sortedEntries_fix : (es : List (Str × CV)) → (es.map Prod.fst).Pairwise nameLt → AscendingEntries es →
    sortedEntries es = es
  | [], _, _ => rfl
  | (k, v) :: es, h, g => by
    rw [List.map_cons, List.pairwise_cons] at h
    rw [sortedEntries, sortedEntries_fix es h.2 g.2, sorted_fix v g.1, insertEntry_first _ _ h.1]
end

mutual
theorem ascending_differ : (v : CV) → Ascending v → NamesDiffer v
  | .int _, _ | .uint _, _ | .buffer _, _ | .tru, _ | .fls, _ | .principalStd _, _ | .principalCon _ _, _
  | .optNone, _ | .strAscii _, _ | .strUtf8 _, _ | .lps _, _ => by simp [NamesDiffer]
  | .respOk v, h | .respErr v, h | .optSome v, h => ascending_differ v h
  | .list vs, h | .fnArgs vs, h => ascendingAll_differ vs h
  | .tuple es, h => ⟨h.1.imp (fun {a b} (hl : nameLt a b) (e : a = b) => nameLt_irrefl a (e ▸ hl)), ascendingEntries_differ es h.2⟩
theorem ascendingAll_differ : (vs : List CV) → AscendingAll vs → NamesDifferAll vs
  | [], _ => trivial
  | v :: vs, h => ⟨ascending_differ v h.1, ascendingAll_differ vs h.2⟩
theorem ascendingEntries_differ : (es : List (Str × CV)) → AscendingEntries es → NamesDifferEntries es
  | [], _ => trivial
  | (_, v) :: es, h => ⟨ascending_differ v h.1, ascendingEntries_differ es h.2⟩
end

section
variable [Hashes]

theorem wfEntries_insert (e : Str × CV) (hk : e.1.bytes.length ≤ 128) (hv : WellFormed e.2) :
    ∀ fs, WellFormedEntries fs → WellFormedEntries (insertEntry e fs)
  | [], _ => by obtain ⟨k, v⟩ := e; exact ⟨hk, hv, trivial⟩
  | (k, v) :: fs, h => by
    rw [insertEntry]
    split
    · obtain ⟨k, v⟩ := e; exact ⟨hk, hv, h⟩
    · exact ⟨h.1, h.2.1, wfEntries_insert e hk hv fs h.2.2⟩

mutual
theorem sorted_wf : (v : CV) → WellFormed v → WellFormed (sorted v)
  | .int _, h | .uint _, h | .buffer _, h | .tru, h | .fls, h | .principalStd _, h | .principalCon _ _, h
  | .optNone, h | .strAscii _, h | .strUtf8 _, h | .lps _, h => by rw [sorted] <;> first | exact h | simp
  | .respOk v, h | .respErr v, h | .optSome v, h => sorted_wf v h
  | .list vs, h => ⟨by rw [sortedAll_eq, List.length_map]; exact h.1, sortedAll_wf vs h.2⟩
  | .tuple es, h => ⟨by rw [(sortedEntries_perm es).length_eq, List.length_map]; exact h.1, sortedEntries_wf es h.2⟩
theorem sortedAll_wf : (vs : List CV) → WellFormedAll vs → WellFormedAll (sortedAll vs)
  | [], _ => trivial
  | v :: vs, h => ⟨sorted_wf v h.1, sortedAll_wf vs h.2⟩
theorem sortedEntries_wf : (es : List (Str × CV)) → WellFormedEntries es → WellFormedEntries (sortedEntries es)
  | [], _ => trivial
  | (k, v) :: es, h => by
    rw [sortedEntries]
    exact wfEntries_insert _ h.1 (sorted_wf v h.2.1) _ (sortedEntries_wf es h.2.2)
end

end

end Stacks.Tx

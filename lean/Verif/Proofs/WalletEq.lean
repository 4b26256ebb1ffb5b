import Verif.Spec.Wallet
import Mathlib.Data.List.Nodup
import Mathlib.Data.List.Perm.Subperm

/-! Helper lemmas about equality of wallets. -/

namespace Stacks.Wallet
open Stacks.Spec

section
variable [Secp] [Bip]

/-- No key twice. -/
def Distinct (m : StacksAccounts) : Prop := (m.map Prod.fst).Nodup

theorem find_cons (k : UInt32) (a : StacksAccount) (m : StacksAccounts) (i : UInt32) :
    StacksAccounts.find ((k, a) :: m) i = if i = k then some a else m.find i := by
  unfold StacksAccounts.find
  rw [List.lookup_cons]
  by_cases h : i = k
  · subst h; simp
  · rw [if_neg h]
    have : (i == k) = false := by simpa using h
    rw [this]

theorem find_mem {m : StacksAccounts} {i : UInt32} {a : StacksAccount} (h : m.find i = some a) : (i, a) ∈ m := by
  induction m with
  | nil => cases h
  | cons e m ih =>
    obtain ⟨k, b⟩ := e
    rw [find_cons] at h
    by_cases hk : i = k
    · rw [if_pos hk] at h; cases h; subst hk; exact List.mem_cons_self ..
    · rw [if_neg hk] at h; exact List.mem_cons_of_mem _ (ih h)

theorem find_of_mem {m : StacksAccounts} (hm : Distinct m) {i : UInt32} {a : StacksAccount} (h : (i, a) ∈ m) :
    m.find i = some a := by
  induction m with
  | nil => cases h
  | cons e m ih =>
    obtain ⟨k, b⟩ := e
    have hm' : k ∉ m.map Prod.fst ∧ Distinct m := by
      unfold Distinct at hm ⊢
      rw [List.map_cons, List.nodup_cons] at hm
      exact hm
    rw [find_cons]
    rcases List.mem_cons.1 h with h | h
    · cases h; rw [if_pos rfl]
    · have hne : i ≠ k := by
        intro e
        exact hm'.1 (e ▸ List.mem_map.2 ⟨(i, a), h, rfl⟩)
      rw [if_neg hne]
      exact ih hm'.2 h

theorem find_filter_ne (m : StacksAccounts) {k i : UInt32} (h : i ≠ k) :
    StacksAccounts.find (m.filter fun e => e.1 != k) i = m.find i := by
  induction m with
  | nil => rfl
  | cons e m ih =>
    obtain ⟨j, b⟩ := e
    rw [find_cons, List.filter_cons]
    by_cases hj : j = k
    · subst hj
      rw [if_neg (by simp), ih, if_neg h]
    · rw [if_pos (by simpa using hj), find_cons, ih]

theorem find_insert_key (m : StacksAccounts) (k : UInt32) (a : StacksAccount) (i : UInt32) :
    (m.insert k a).find i = if i = k then some a else m.find i := by
  unfold StacksAccounts.insert
  rw [find_cons]
  by_cases h : i = k
  · rw [if_pos h, if_pos h]
  · rw [if_neg h, if_neg h, find_filter_ne m h]

theorem distinct_insert {m : StacksAccounts} (hm : Distinct m) (k : UInt32) (a : StacksAccount) :
    Distinct (m.insert k a) := by
  unfold Distinct StacksAccounts.insert at *
  rw [List.map_cons, List.nodup_cons]
  refine ⟨?_, ?_⟩
  · intro h
    obtain ⟨e, he, hk⟩ := List.mem_map.1 h
    have := (List.mem_filter.1 he).2
    simp_all
  · exact (List.Sublist.map Prod.fst (List.filter_sublist (l := m))).nodup hm

theorem afterCalls_inv (root : Bip.XPrv) (ops : List WalletOp) : ∀ (m : StacksAccounts), Distinct m →
    (afterCalls ⟨root, m⟩ ops).ext = root ∧ Distinct (afterCalls ⟨root, m⟩ ops).accounts ∧
      ∀ i, (afterCalls ⟨root, m⟩ ops).accounts.find i = remembered root i (m.find i) ops := by
  induction ops with
  | nil => intro m hm; exact ⟨rfl, hm, fun _ => rfl⟩
  | cons op ops ih =>
    intro m hm
    cases op with
    | set j a =>
      obtain ⟨h1, h2, h3⟩ := ih (m.insert j a) (distinct_insert hm j a)
      refine ⟨h1, h2, fun i => ?_⟩
      have := h3 i
      rw [find_insert_key] at this
      simp only [remembered, eq_comm (a := j) (b := i)]
      exact this
    | get j =>
      have key : ∃ m', (StacksWallet.getAccount ⟨root, m⟩ j).2 = ⟨root, m'⟩ ∧ Distinct m' ∧
          ∀ i, m'.find i = if j = i then
            (match m.find i, derivedAccount root i with
              | some a, _ => some a
              | none, .ok a => some a
              | none, _ => none) else m.find i := by
        unfold StacksWallet.getAccount
        rcases hf : m.find j with _ | a
        · simp only []
          unfold StacksAccount.derive derivedAccount
          rcases hd : Bip.deriveChild root j with e | x
          · refine ⟨m, rfl, hm, fun i => ?_⟩
            by_cases hji : j = i
            · subst hji; rw [if_pos rfl, hf, hd]
            · rw [if_neg hji]
          · refine ⟨m.insert j ⟨x, j⟩, rfl, distinct_insert hm _ _, fun i => ?_⟩
            rw [find_insert_key]
            by_cases hji : j = i
            · subst hji; rw [if_pos rfl, if_pos rfl, hf, hd]
            · rw [if_neg hji, if_neg (Ne.symm hji)]
        · refine ⟨m, rfl, hm, fun i => ?_⟩
          by_cases hji : j = i
          · subst hji; rw [if_pos rfl, hf]
          · rw [if_neg hji]
      obtain ⟨m', e1, e2, e3⟩ := key
      obtain ⟨h1, h2, h3⟩ := ih m' e2
      unfold afterCalls
      rw [e1]
      refine ⟨h1, h2, fun i => ?_⟩
      rw [h3 i, e3 i]
      rfl

/-- What is remembered after asking for accounts only. -/
theorem remembered_gets (r : Bip.XPrv) (i : UInt32) (is : List UInt32) :
    remembered r i none (is.map .get) =
      match derivedAccount r i with
      | .ok a => if i ∈ is then some a else none
      | _ => none := by
  have keep : ∀ (a : StacksAccount) (is : List UInt32), remembered r i (some a) (is.map .get) = some a := by
    intro a is
    induction is with
    | nil => rfl
    | cons j is ih => simp only [List.map_cons, remembered, ite_self, ih]
  induction is with
  | nil => rcases derivedAccount r i with _ | _ | _ <;> rfl
  | cons j is ih =>
    have e : remembered r i none ((j :: is).map .get) = remembered r i
        (if j = i then
          match (none : Option StacksAccount), derivedAccount r i with
          | some a, _ => some a
          | none, .ok a => some a
          | none, _ => none
        else none) (is.map .get) := rfl
    rw [e]
    by_cases hj : j = i
    · subst hj
      rw [if_pos rfl]
      rcases hd : derivedAccount r j with a | e | _
      · simp only [keep, List.mem_cons_self, if_true]
      · simp only [ih, hd]
      · simp only [ih, hd]
    · rw [if_neg hj, ih]
      simp only [List.mem_cons, Ne.symm hj, false_or]

variable [DecidableEq Bip.XPrv]

theorem account_eq_iff (a b : StacksAccount) : a.eq b = true ↔ a = b := by
  obtain ⟨x, i⟩ := a
  obtain ⟨y, j⟩ := b
  unfold StacksAccount.eq
  simp

/-- Maps without repeated keys are equal if they have the same value under every key. -/
theorem accounts_eq_iff {m n : StacksAccounts} (hm : Distinct m) (hn : Distinct n) :
    StacksAccounts.eq m n = true ↔ ∀ i, m.find i = n.find i := by
  unfold StacksAccounts.eq
  rw [Bool.and_eq_true, beq_iff_eq, List.all_eq_true]
  constructor
  · rintro ⟨hl, hall⟩ i
    have hsub : ∀ i a, m.find i = some a → n.find i = some a := by
      intro i a h
      have := hall _ (find_mem h)
      simp only [] at this
      rcases hf : n.find i with _ | b
      · rw [hf] at this; cases this
      · rw [hf] at this
        simp only [account_eq_iff] at this
        rw [this]
    have hk : (m.map Prod.fst).Perm (n.map Prod.fst) := by
      apply List.Subperm.perm_of_length_le
      · apply List.subperm_of_subset hm
        intro k hk
        obtain ⟨⟨k', a⟩, he, rfl⟩ := List.mem_map.1 hk
        exact List.mem_map.2 ⟨_, find_mem (hsub _ _ (find_of_mem hm he)), rfl⟩
      · rw [List.length_map, List.length_map]; omega
    rcases hf : n.find i with _ | b
    · rcases hg : m.find i with _ | a
      · rfl
      · rw [hsub _ _ hg] at hf; cases hf
    · have : i ∈ m.map Prod.fst := hk.symm.subset (List.mem_map.2 ⟨_, find_mem hf, rfl⟩)
      obtain ⟨⟨k', a⟩, he, rfl⟩ := List.mem_map.1 this
      have h1 := find_of_mem hm he
      rw [← hf, hsub _ _ h1, h1]
  · intro h
    have hsub : ∀ {m n : StacksAccounts}, Distinct m → (∀ i, m.find i = n.find i) →
        (m.map Prod.fst) ⊆ (n.map Prod.fst) := by
      intro m n hm h k hk
      obtain ⟨⟨k', a⟩, he, rfl⟩ := List.mem_map.1 hk
      have := find_of_mem hm he
      rw [h] at this
      exact List.mem_map.2 ⟨_, find_mem this, rfl⟩
    have hk : (m.map Prod.fst).Perm (n.map Prod.fst) :=
      List.Subperm.antisymm (List.subperm_of_subset hm (hsub hm h))
        (List.subperm_of_subset hn (hsub hn fun i => (h i).symm))
    refine ⟨by simpa using hk.length_eq, ?_⟩
    rintro ⟨k, a⟩ he
    have := find_of_mem hm he
    rw [h] at this
    simp only [this, account_eq_iff]

end

end Stacks.Wallet

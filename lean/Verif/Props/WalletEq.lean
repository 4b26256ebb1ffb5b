import Verif.Proofs.WalletEq
import Verif.Props.Wallet

/-! # Properties of `==` on wallets (C97) -/

namespace Stacks.Wallet
open Stacks.Spec Stacks.Tx

section
variable [Secp] [Bip] [DecidableEq Bip.XPrv]

/-- **C97** Two wallets made by any two histories of calls are equal exactly when their root keys
are equal and they remember the same account, or none, at every index. -/
theorem C97_equal_iff (r r' : Bip.XPrv) (h h' : List WalletOp) :
    (afterCalls ⟨r, []⟩ h).eq (afterCalls ⟨r', []⟩ h') = true ↔
      r = r' ∧ ∀ i, remembered r i none h = remembered r' i none h' := by
  obtain ⟨a1, a2, a3⟩ := afterCalls_inv r h [] List.nodup_nil
  obtain ⟨b1, b2, b3⟩ := afterCalls_inv r' h' [] List.nodup_nil
  unfold StacksWallet.eq
  rw [Bool.and_eq_true, beq_iff_eq, accounts_eq_iff a2 b2, a1, b1]
  constructor
  · rintro ⟨e, f⟩
    exact ⟨e, fun i => (a3 i).symm.trans ((f i).trans (b3 i))⟩
  · rintro ⟨e, f⟩
    exact ⟨e, fun i => (a3 i).trans ((f i).trans (b3 i).symm)⟩

/-- **C97** Wallets that were only asked for accounts are equal exactly when their root keys are
equal and the same derivable indexes were asked for, in whatever order and however often. -/
theorem C97_asked (r r' : Bip.XPrv) (is js : List UInt32) :
    (afterCalls ⟨r, []⟩ (is.map .get)).eq (afterCalls ⟨r', []⟩ (js.map .get)) = true ↔
      r = r' ∧ ∀ i a, derivedAccount r i = .ok a → (i ∈ is ↔ i ∈ js) := by
  rw [C97_equal_iff]
  refine and_congr_right ?_
  rintro rfl
  constructor
  · intro h i a hd
    have := h i
    rw [remembered_gets, remembered_gets, hd] at this
    by_cases h1 : i ∈ is <;> by_cases h2 : i ∈ js <;> simp_all
  · intro h i
    rw [remembered_gets, remembered_gets]
    rcases hd : derivedAccount r i with a | e | _
    · simp only [h i a hd]
    · rfl
    · rfl

/-- **C97** So asking a wallet for an account changes `==` with the wallet it was before, if the
account is derivable and was not asked for or set yet; and in no other case. -/
theorem C97_get_changes (r : Bip.XPrv) (h : List WalletOp) (i : UInt32) :
    (afterCalls ⟨r, []⟩ h).eq (afterCalls ⟨r, []⟩ (h ++ [.get i])) = false ↔
      remembered r i none h = none ∧ ∃ a, derivedAccount r i = .ok a := by
  have app : ∀ (h : List WalletOp) (j : UInt32) (s : Option StacksAccount),
      remembered r j s (h ++ [.get i]) = remembered r j (remembered r j s h) [.get i] := by
    intro h j
    induction h with
    | nil => intro s; rfl
    | cons op h ih => intro s; cases op <;> simp only [List.cons_append, remembered, ih]
  rw [← Bool.not_eq_true, C97_equal_iff]
  constructor
  · intro hn
    by_contra hc
    refine hn ⟨rfl, fun j => ?_⟩
    rw [app]
    simp only [remembered]
    by_cases hj : i = j
    · subst hj
      rw [if_pos rfl]
      rcases hr : remembered r i none h with _ | b
      · rcases hd : derivedAccount r i with a | e | _
        · exact absurd ⟨hr, a, hd⟩ hc
        · rfl
        · rfl
      · rfl
    · rw [if_neg hj]
  · rintro ⟨hr, a, hd⟩ ⟨_, hall⟩
    have := hall i
    rw [app, hr] at this
    simp only [remembered, if_true, hd] at this
    cases this

/-- **C97** Equal wallets answer every further call alike, and are equal after it. -/
theorem C97_equal_answers (r r' : Bip.XPrv) (h h' : List WalletOp)
    (he : (afterCalls ⟨r, []⟩ h).eq (afterCalls ⟨r', []⟩ h') = true) :
    (∀ i, ((afterCalls ⟨r, []⟩ h).getAccount i).1 = ((afterCalls ⟨r', []⟩ h').getAccount i).1) ∧
      ∀ more, (afterCalls ⟨r, []⟩ (h ++ more)).eq (afterCalls ⟨r', []⟩ (h' ++ more)) = true := by
  obtain ⟨rfl, hall⟩ := (C97_equal_iff r r' h h').1 he
  refine ⟨fun i => ?_, fun more => ?_⟩
  · obtain ⟨a1, _, a3⟩ := afterCalls_inv r h [] List.nodup_nil
    obtain ⟨b1, _, b3⟩ := afterCalls_inv r h' [] List.nodup_nil
    have hf := ((a3 i).trans (hall i)).trans (b3 i).symm
    unfold StacksWallet.getAccount
    rw [a1, b1, hf]
    rcases (afterCalls ⟨r, []⟩ h').accounts.find i with _ | a
    · rcases StacksAccount.derive i r with _ | _ | _ <;> rfl
    · rfl
  · have app : ∀ (h : List WalletOp) (j : UInt32) (s : Option StacksAccount),
        remembered r j s (h ++ more) = remembered r j (remembered r j s h) more := by
      intro h j
      induction h with
      | nil => intro s; rfl
      | cons op h ih => intro s; cases op <;> simp only [List.cons_append, remembered, ih]
    rw [C97_equal_iff]
    exact ⟨rfl, fun i => by rw [app, app, hall i]⟩

end

/-! ## The hypotheses are satisfiable -/

section
attribute [local instance] Concrete.toySecp toyBip

local instance toyKeyEq : DecidableEq Bip.XPrv := inferInstanceAs (DecidableEq (Arr 32))

/-- C97: order, repeats and underivable indexes do not matter; an index more does, and so does a
different account set. -/
example :
    (afterCalls ⟨exKey 1, []⟩ [.get 1, .get 2]).eq
      (afterCalls ⟨exKey 1, []⟩ [.get 2, .get 0xffffffff, .get 1, .get 2]) = true ∧
    (afterCalls ⟨exKey 1, []⟩ [.get 1]).eq (afterCalls ⟨exKey 1, []⟩ [.get 1, .get 2]) = false ∧
    (afterCalls ⟨exKey 1, []⟩ [.get 1]).eq (afterCalls ⟨exKey 1, []⟩ [.set 1 ⟨exKey 2, 1⟩]) = true ∧
    (afterCalls ⟨exKey 1, []⟩ [.get 1]).eq (afterCalls ⟨exKey 1, []⟩ [.set 1 ⟨exKey 2, 2⟩]) = false ∧
    (afterCalls ⟨exKey 1, []⟩ []).eq (afterCalls ⟨exKey 2, []⟩ []) = false := by
  decide +kernel

example : remembered (exKey 1) 2 none [.get 1] = none ∧ ∃ a, derivedAccount (exKey 1) 2 = .ok a := ⟨rfl, _, rfl⟩

end

end Stacks.Wallet

import Verif.Spec.Canonical

/-! # What the network does with post-conditions

After a transaction has been executed the reference node compares what left the accounts with the
post-conditions, and undoes everything unless they are met. The rules are not in /repo and are taken
from SIP-005 and the node's source as commonly known. -/

namespace Stacks.Spec
open Stacks.Tx
open Stacks.Clarity (CV)

/-- What an execution takes from accounts: of STX (sent or burned) and of each fungible token an amount, of
each non-fungible token the items, named by values. -/
structure Effects where
  stx : CV → Nat
  tokens : CV → AssetInfo → Nat
  items : CV → AssetInfo → CV → Prop

/-- The amount that was sent compared with the amount of the condition. -/
def Compares (code : ConditionCode) (sent amount : Nat) : Prop :=
  match code with
  | .eq => sent = amount
  | .gt => sent > amount
  | .gte => sent ≥ amount
  | .lt => sent < amount
  | .lte => sent ≤ amount
  | .has | .hasNot => False

/-- A condition is met. For items: the account has it no more, that is, has sent it; or still has it, that
is, has not sent it. -/
def Met (e : Effects) : Condition → Prop
  | .stx account amount code => Compares code (e.stx account) amount.toNat
  | .fungible account amount code asset => Compares code (e.tokens account asset) amount.toNat
  | .nonFungible account item code asset =>
    match code with
    | .hasNot => e.items account asset item
    | .has => ¬ e.items account asset item
    | _ => False

/-- Of everything that left an account there is a condition. -/
def Covered (e : Effects) (cs : List Condition) : Prop :=
  (∀ account, e.stx account ≠ 0 → ∃ amount code, .stx account amount code ∈ cs) ∧
  (∀ account asset, e.tokens account asset ≠ 0 → ∃ amount code, .fungible account amount code asset ∈ cs) ∧
  ∀ account asset item, e.items account asset item → ∃ code, .nonFungible account item code asset ∈ cs

/-- Nothing left any account. -/
def NoEffects (e : Effects) : Prop :=
  (∀ account, e.stx account = 0) ∧ (∀ account asset, e.tokens account asset = 0) ∧
  ∀ account asset item, ¬ e.items account asset item

/-- A node that receives the bytes keeps the effects of the execution: all conditions are met, and in the mode
with number 2 there is one for everything. (Values are compared with the entries of tuples in order.) -/
def NodeKeeps [Secp] [Hashes] (parse : Arr 33 → Option Secp.PK) (bytes : Bytes) (e : Effects) : Prop :=
  ∃ t, (readTransaction parse).run bytes = some (t, []) ∧
    (∀ c ∈ t.postConditions, Met e (sortedCondition c)) ∧
    (postModeNumber t.postConditionMode = 2 → Covered e (t.postConditions.map sortedCondition))

end Stacks.Spec

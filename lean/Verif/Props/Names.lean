import Verif.Spec.Names
import Verif.Props.Canonical

/-! # C115: names that the network refuses -/

namespace Stacks.Tx
open Stacks.Spec Stacks.Clarity

theorem ascii_bytes (s : Str) (h : ∀ c ∈ s, c.toNat < 128) : s.bytes.length = s.length := by
  induction s with
  | nil => rfl
  | cons c cs ih =>
    have h1 : (Str.bytes (c :: cs)) = String.utf8EncodeChar c ++ Str.bytes cs := by
      simp [Str.bytes]
    rw [h1, List.length_append, ih fun d hd => h d (List.mem_cons_of_mem _ hd)]
    have h2 : (String.utf8EncodeChar c).length = 1 := by
      rw [String.length_utf8EncodeChar]
      exact Char.utf8Size_eq_one_iff.2 (by
        have := h c List.mem_cons_self
        exact (by simpa using Nat.le_of_lt_succ this : c.val.toNat ≤ 127))
    rw [h2, List.length_cons, Nat.add_comm]

/-- **C115** Good names can be written: they have at most 40 or 128 bytes, of which 128 are allowed. -/
theorem C115_good_names_fit (s : Str) : (ContractName s → s.bytes.length ≤ 40) ∧ (ClarityName s → s.bytes.length ≤ 128) := by
  have hl : ∀ {c : Char}, Letter c → c.toNat < 128 := fun h => by unfold Letter at h; omega
  have hd : ∀ {c : Char}, Digit c → c.toNat < 128 := fun h => by unfold Digit at h; omega
  have hp : ∀ c ∈ "-_!?+<>=/*".toList, c.toNat < 128 := by decide
  have hq : ∀ c ∈ "-_".toList, c.toNat < 128 := by decide
  constructor
  · intro h
    cases s with
    | nil => exact absurd h id
    | cons c cs =>
      obtain ⟨h1, h2, h3⟩ := h
      rw [ascii_bytes _ fun d hm => by
        rcases List.mem_cons.1 hm with rfl | hm
        · exact hl h1
        · rcases h2 d hm with h | h | h
          · exact hl h
          · exact hd h
          · exact hq d h]
      exact h3
  · rintro (h | h)
    · cases s with
      | nil => exact absurd h id
      | cons c cs =>
        obtain ⟨h1, h2, h3⟩ := h
        rw [ascii_bytes _ fun d hm => by
          rcases List.mem_cons.1 hm with rfl | hm
          · exact hl h1
          · rcases h2 d hm with h | h | h
            · exact hl h
            · exact hd h
            · exact hp d h]
        exact h3
    · revert s; decide +kernel

section
variable [Secp] [Hashes]

omit [Hashes] in
theorem goodNames_readBack (t : Transaction) : GoodNames { t with payload := readBack t.payload } ↔ GoodNames t := by
  unfold GoodNames
  cases t.payload <;> exact Iff.rfl

/-- **C115** A node with these rules accepts a transaction of the crate, with tuples in ascending order, exactly when
the names and texts are good and a node without them accepts it. -/
theorem C115_decides (parse : Arr 33 → Option Secp.PK) (hp : ∀ k, parse (Secp.serialize k) = some k) (t : Transaction)
    (ht : WellFormedTransaction t) (ha : ∀ v ∈ valuesIn t, Ascending v) (bs : Bytes) (he : t.encode = .ok bs) :
    SortingNodeAccepts GoodNames parse bs ↔ GoodNames t ∧ NodeAccepts parse bs := by
  rw [C112_ascending GoodNames parse hp t ht ha bs he, goodNames_readBack]

/-- **C115** A contract call is built, signed, verified and encoded whatever the names, as long as they are not too
long to be written; the node accepts it exactly when they are good. -/
theorem C115_call [Secp.Lawful] (parse : Arr 33 → Option Secp.PK) (hp : ∀ k, parse (Secp.serialize k) = some k)
    (b : STXContractCall) (t : Transaction) (ht : b.transaction = .ok t)
    (hlen : b.contract.bytes.length ≤ 128 ∧ b.fnName.bytes.length ≤ 128)
    (hargs : b.fnArgs.length < 2 ^ 32 ∧ ∀ v ∈ b.fnArgs, WellFormed v ∧ Ascending v)
    (hconds : b.postConditions.length < 2 ^ 32 ∧ ∀ c ∈ b.postConditions, WellFormedCondition c ∧ CodeFits c ∧
      ∀ a v code info, c = .nonFungible a v code info → Ascending v) :
    ∃ t' n bs, t.sign b.sender = .ok t' ∧ t'.verifyOrigin = .ok n ∧ t'.encode = .ok bs ∧
      (SortingNodeAccepts GoodNames parse bs ↔ ContractName b.contract ∧ ClarityName b.fnName ∧
        (∀ v ∈ b.fnArgs, ValueNames v) ∧ ∀ c ∈ b.postConditions, ConditionNames c) := by
  obtain ⟨hs, bytes, v, hd, hl⟩ := (C57_ok_iff b).1 ⟨t, ht⟩
  obtain ⟨t2, c, g1, _, _, g2, g3, _, _, _, _, _, _, g4, g5⟩ := (C57_contract_call b).2.2.2 bytes v hl hd hs
  rw [ht] at g1
  cases g1
  have hb : AcceptableBody t.postConditions t.payload := by
    rw [g4, g5]
    exact ⟨hconds.1, fun c hc => ⟨(hconds.2 c hc).1, (hconds.2 c hc).2.1⟩,
      ⟨hlen.1, hlen.2, hargs.1, fun v hv => (hargs.2 v hv).1⟩, trivial⟩
  obtain ⟨t', bs, h1, h2, h3⟩ := C80_call_accepted parse hp b t ht hb
  obtain ⟨_, _, _, e⟩ := (sign_iff _ _ _).1 h1
  have hpc : t'.postConditions = b.postConditions := by rw [e]; exact g4
  have hpl : t'.payload = .contractCall ⟨⟨⟨bytes, hl⟩, v⟩, b.contract, b.fnName, b.fnArgs⟩ := by rw [e]; exact g5
  have hau : ∃ c' : SingleSig, c'.mode = .p2pkh ∧ t'.auth = .standard (.single c') := by
    rw [e, g2]; refine ⟨{ c with signature := _ }, ?_, rfl⟩; exact g3
  obtain ⟨c', hm, hau⟩ := hau
  have hw : WellFormedTransaction t' := acceptable_wf (by rw [hau]; exact .inl hm) (by rw [hpc, hpl, ← g4, ← g5]; exact hb)
  obtain ⟨_, _, ⟨⟨n, hv⟩, _⟩, _⟩ := (C80_accepts_iff parse hp t' hw (by rw [hau]; exact trivial) bs h2).1 h3
  refine ⟨t', n, bs, h1, hv, h2, ?_⟩
  rw [C115_decides parse hp t' hw ?_ bs h2]
  · unfold GoodNames
    rw [hpc, hpl]
    exact ⟨fun ⟨⟨q1, q2, q3, q4⟩, _⟩ => ⟨q2, q3, q4, q1⟩, fun ⟨q2, q3, q4, q1⟩ => ⟨⟨q1, q2, q3, q4⟩, h3⟩⟩
  · intro w hv
    rcases List.mem_append.1 hv with hv | hv
    · rw [hpl] at hv; exact (hargs.2 w hv).2
    · obtain ⟨c, hm, e⟩ := List.mem_filterMap.1 hv
      rw [hpc] at hm
      cases c with
      | stx => cases e
      | fungible => cases e
      | nonFungible a x code info => cases e; exact (hconds.2 _ hm).2.2 a w code info rfl

/-- **C115** The same for a transfer: what counts is the name in the recipient, if it is a contract, and the names in
the post-conditions. -/
theorem C115_transfer [Secp.Lawful] (parse : Arr 33 → Option Secp.PK) (hp : ∀ k, parse (Secp.serialize k) = some k)
    (b : STXTokenTransfer) (hs : b.sponsored = false)
    (hb : AcceptableBody b.postConditions (.tokenTransfer ⟨b.recipient, b.amount, b.memo⟩))
    (hconds : ∀ a v code info, .nonFungible a v code info ∈ b.postConditions → Ascending v) :
    ∃ t n bs, (b.transaction >>= fun t => t.sign b.sender) = .ok t ∧ t.verifyOrigin = .ok n ∧ t.encode = .ok bs ∧
      (SortingNodeAccepts GoodNames parse bs ↔ ValueNames b.recipient ∧ ∀ c ∈ b.postConditions, ConditionNames c) := by
  obtain ⟨t, c, g1, _, _, g2, g3, _, _, _, _, _, _, g4, g5⟩ := C56_token_transfer TxError b hs
  obtain ⟨t', bs, h1, h2, h3⟩ := C80_transfer_accepted parse hp b hs hb
  have h1' : t.sign b.sender = .ok t' := by rw [g1] at h1; exact h1
  obtain ⟨_, _, _, e⟩ := (sign_iff _ _ _).1 h1'
  have hpc : t'.postConditions = b.postConditions := by rw [e]; exact g4
  have hpl : t'.payload = .tokenTransfer ⟨b.recipient, b.amount, b.memo⟩ := by rw [e]; exact g5
  have hau : ∃ c' : SingleSig, c'.mode = .p2pkh ∧ t'.auth = .standard (.single c') := by
    rw [e, g2]; refine ⟨{ c with signature := _ }, ?_, rfl⟩; exact g3
  obtain ⟨c', hm, hau⟩ := hau
  have hw : WellFormedTransaction t' := acceptable_wf (by rw [hau]; exact .inl hm) (by rw [hpc, hpl]; exact hb)
  obtain ⟨_, _, ⟨⟨n, hv⟩, _⟩, _⟩ := (C80_accepts_iff parse hp t' hw (by rw [hau]; exact trivial) bs h2).1 h3
  refine ⟨t', n, bs, h1, hv, h2, ?_⟩
  rw [C115_decides parse hp t' hw ?_ bs h2]
  · unfold GoodNames
    rw [hpc, hpl]
    exact ⟨fun ⟨⟨q1, q2⟩, _⟩ => ⟨q2, q1⟩, fun ⟨q2, q1⟩ => ⟨⟨q1, q2⟩, h3⟩⟩
  · intro w hv
    rcases List.mem_append.1 hv with hv | hv
    · rw [hpl] at hv; exact absurd hv List.not_mem_nil
    · obtain ⟨c, hm, e⟩ := List.mem_filterMap.1 hv
      rw [hpc] at hm
      cases c with
      | stx => cases e
      | fungible => cases e
      | nonFungible a x code info => cases e; exact hconds a w code info hm

end

/-! ## The hypotheses are satisfiable, and the refusals happen -/

section
open Stacks.Concrete.Ecdsa
attribute [local instance] realSecp Concrete.realHashes
local instance namesLawful : Secp.Lawful := realLawful

/-- A call without arguments. -/
def exNamedCall (contract fn : String) : STXContractCall :=
  { address := "SP2J6ZY48GV1EZ5V2V5RB9MP66SW86PYKKNRV9EJ7".toList, contract := contract.toList, fnName := fn.toList,
    fnArgs := [], sender := ⟨7, by decide⟩, network := .mainnet }

theorem exNamedCall_built (contract fn : String) : ∃ t, (exNamedCall contract fn).transaction = .ok t :=
  (C57_ok_iff _).2 ⟨rfl, [0xa4, 0x6f, 0xf8, 0x88, 0x86, 0xc2, 0xef, 0x97, 0x62, 0xd9, 0x70, 0xb4, 0xd2, 0xc6, 0x36,
    0x78, 0x83, 0x5b, 0xd3, 0x9d], 22, (by
      show C32.c32AddressDecode "SP2J6ZY48GV1EZ5V2V5RB9MP66SW86PYKKNRV9EJ7".toList = _
      decide +kernel), rfl⟩

/-- `pool.stack-stx` is accepted; `my pool.stack-stx`, `.stack-stx`, a name of 41 characters and `pool.2x` are
signed, verified and encoded, and refused. -/
example (parse : Arr 33 → Option Secp.PK) (hp : ∀ k, parse (Secp.serialize k) = some k) :
    ∀ p ∈ [("pool", "stack-stx", true), ("my pool", "stack-stx", false), ("", "stack-stx", false),
      ("a0123456789012345678901234567890123456789", "stack-stx", false), ("pool", "2x", false), ("pool", "<=", true)],
    ∃ t t' n bs, (exNamedCall p.1 p.2.1).transaction = .ok t ∧ t.sign ⟨7, by decide⟩ = .ok t' ∧
      t'.verifyOrigin = .ok n ∧ t'.encode = .ok bs ∧ (SortingNodeAccepts GoodNames parse bs ↔ p.2.2 = true) := by
  intro p hmem
  have hfacts : (Str.bytes p.1.toList).length ≤ 128 ∧ (Str.bytes p.2.1.toList).length ≤ 128 ∧
      ((ContractName p.1.toList ∧ ClarityName p.2.1.toList) ↔ p.2.2 = true) := by
    revert p; decide +kernel
  obtain ⟨t, ht⟩ := exNamedCall_built p.1 p.2.1
  obtain ⟨t', n, bs, h1, h2, h3, h4⟩ := C115_call parse hp _ t ht ⟨hfacts.1, hfacts.2.1⟩
    ⟨by show 0 < _; decide, fun _ h => absurd h List.not_mem_nil⟩
    ⟨by show 0 < _; decide, fun _ h => absurd h List.not_mem_nil⟩
  refine ⟨t, t', n, bs, ht, h1, h2, h3, h4.trans ?_⟩
  rw [← hfacts.2.2]
  exact ⟨fun ⟨q1, q2, _⟩ => ⟨q1, q2⟩, fun ⟨q1, q2⟩ => ⟨q1, q2, fun _ h => absurd h List.not_mem_nil,
    fun _ h => absurd h List.not_mem_nil⟩⟩

/-- A payment to the contract `a.b`, likewise. -/
example (parse : Arr 33 → Option Secp.PK) (hp : ∀ k, parse (Secp.serialize k) = some k) :
    ∃ t n bs, ((⟨.principalCon testnetAddr "a.b".toList, 5, ⟨7, by decide⟩, .testnet, 0, 0,
      .any, [], .allow, [], false⟩ : STXTokenTransfer).transaction >>= fun t => t.sign ⟨7, by decide⟩) = .ok t ∧
      t.verifyOrigin = .ok n ∧ t.encode = .ok bs ∧ ¬ SortingNodeAccepts GoodNames parse bs := by
  obtain ⟨t, n, bs, h1, h2, h3, h4⟩ := C115_transfer parse hp
    ⟨.principalCon testnetAddr "a.b".toList, 5, ⟨7, by decide⟩, .testnet, 0, 0,
      .any, [], .allow, [], false⟩ rfl
    ⟨by show 0 < _; decide, fun _ h => absurd h List.not_mem_nil,
      ⟨⟨testnetAddr_canonical, by decide +kernel⟩, by decide +kernel⟩, .inr ⟨_, _, rfl⟩⟩
    (fun _ _ _ _ h => absurd h List.not_mem_nil)
  exact ⟨t, n, bs, h1, h2, h3, fun h => absurd (h4.1 h).1 (by
    show ¬ ContractName "a.b".toList
    decide)⟩

example : ¬ ValueNames (.principalCon "SP2J6ZY48GV1EZ5V2V5RB9MP66SW86PYKKNRV9EJ7".toList "a.b".toList) := by
  show ¬ ContractName "a.b".toList
  decide
example : ¬ ValueNames (.tuple []) := fun h => h.1 rfl

end

end Stacks.Tx

import Verif.Spec.Enforce
import Verif.Props.Canonical

/-! # C116: what post-conditions make the network enforce -/

namespace Stacks.Tx
open Stacks.Spec Stacks.Clarity

section
variable [Secp] [Hashes]

/-- **C116** Which effects a node keeps is what the transaction says: each of its conditions is met and, in deny
mode, there is a condition for whatever left an account. -/
theorem C116_enforced (parse : Arr 33 → Option Secp.PK) (hp : ∀ k, parse (Secp.serialize k) = some k)
    (t : Transaction) (ht : WellFormedTransaction t) (bs : Bytes) (he : t.encode = .ok bs) (e : Effects) :
    NodeKeeps parse bs e ↔ (∀ c ∈ t.postConditions, Met e (sortedCondition c)) ∧
      (t.postConditionMode = .deny → Covered e (t.postConditions.map sortedCondition)) := by
  obtain ⟨bs', he', hr⟩ := C43_reader_recovers parse hp t ht []
  obtain rfl := Outcome.ok.inj (he.symm.trans he')
  rw [List.append_nil] at hr
  have hm : ∀ m : PostConditionMode, postModeNumber m = 2 ↔ m = .deny := by intro m; cases m <;> decide
  constructor
  · rintro ⟨u, h1, h2, h3⟩
    rw [hr] at h1
    cases h1
    exact ⟨h2, fun h => h3 ((hm _).2 h)⟩
  · rintro ⟨h2, h3⟩
    exact ⟨_, hr, h2, fun h => h3 ((hm _).1 h)⟩

/-- **C116** A contract call that is built, signed and encoded: the conditions and the mode are those given to the
builder. -/
theorem C116_call (parse : Arr 33 → Option Secp.PK) (hp : ∀ k, parse (Secp.serialize k) = some k)
    (b : STXContractCall) (t t' : Transaction) (ht : b.transaction = .ok t)
    (hb : AcceptableBody t.postConditions t.payload) (k : Secp.SK) (hsign : t.sign k = .ok t') (bs : Bytes)
    (he : t'.encode = .ok bs) (e : Effects) :
    NodeKeeps parse bs e ↔ (∀ c ∈ b.postConditions, Met e (sortedCondition c)) ∧
      (b.postConditionMode = .deny → Covered e (b.postConditions.map sortedCondition)) := by
  obtain ⟨hs, bytes, v, hd, hl⟩ := (C57_ok_iff b).1 ⟨t, ht⟩
  obtain ⟨t2, c, g1, _, _, g2, g3, _, _, _, _, _, gm, g4, g5⟩ := (C57_contract_call b).2.2.2 bytes v hl hd hs
  rw [ht] at g1
  cases g1
  obtain ⟨_, _, _, e'⟩ := (sign_iff _ _ _).1 hsign
  have hau : ∃ c' : SingleSig, c'.mode = .p2pkh ∧ t'.auth = .standard (.single c') := by
    rw [e', g2]; refine ⟨{ c with signature := _ }, ?_, rfl⟩; exact g3
  obtain ⟨c', hm, hau⟩ := hau
  have hpc : t'.postConditions = t.postConditions := by rw [e']
  have hpl : t'.payload = t.payload := by rw [e']
  have hpm : t'.postConditionMode = t.postConditionMode := by rw [e']
  rw [C116_enforced parse hp t' (acceptable_wf (by rw [hau]; exact .inl hm) (by rw [hpc, hpl]; exact hb)) bs he e,
    hpc, hpm, g4, gm]

/-- **C116** A limit holds in both modes: what leaves the account, if the node keeps it, is within the limit; and an
item that the account `Has` stays. -/
theorem C116_limits (parse : Arr 33 → Option Secp.PK) (hp : ∀ k, parse (Secp.serialize k) = some k)
    (t : Transaction) (ht : WellFormedTransaction t) (bs : Bytes) (he : t.encode = .ok bs) (e : Effects)
    (hk : NodeKeeps parse bs e) :
    (∀ a n, .stx a n .lte ∈ t.postConditions → e.stx a ≤ n.toNat) ∧
    (∀ a n, .stx a n .lt ∈ t.postConditions → e.stx a < n.toNat) ∧
    (∀ a n, .stx a n .eq ∈ t.postConditions → e.stx a = n.toNat) ∧
    (∀ a n i, .fungible a n .lte i ∈ t.postConditions → e.tokens a i ≤ n.toNat) ∧
    (∀ a n i, .fungible a n .lt i ∈ t.postConditions → e.tokens a i < n.toNat) ∧
    (∀ a n i, .fungible a n .eq i ∈ t.postConditions → e.tokens a i = n.toNat) ∧
    (∀ a v i, .nonFungible a v .has i ∈ t.postConditions → ¬ e.items a i (sorted v)) ∧
    (∀ a v i, .nonFungible a v .hasNot i ∈ t.postConditions → e.items a i (sorted v)) := by
  have h := ((C116_enforced parse hp t ht bs he e).1 hk).1
  exact ⟨fun a n hm => h _ hm, fun a n hm => h _ hm, fun a n hm => h _ hm, fun a n i hm => h _ hm,
    fun a n i hm => h _ hm, fun a n i hm => h _ hm, fun a v i hm => h _ hm, fun a v i hm => h _ hm⟩

/-- **C116** In deny mode, what no condition is about stays where it is; without conditions, everything. -/
theorem C116_deny (parse : Arr 33 → Option Secp.PK) (hp : ∀ k, parse (Secp.serialize k) = some k)
    (t : Transaction) (ht : WellFormedTransaction t) (hd : t.postConditionMode = .deny) (bs : Bytes)
    (he : t.encode = .ok bs) (e : Effects) (hk : NodeKeeps parse bs e) :
    (∀ a, (∀ n code, .stx a n code ∉ t.postConditions) → e.stx a = 0) ∧
    (∀ a i, (∀ n code, .fungible a n code i ∉ t.postConditions) → e.tokens a i = 0) ∧
    (∀ a i v, (∀ w code, .nonFungible a w code i ∈ t.postConditions → sorted w ≠ v) → ¬ e.items a i v) ∧
    (t.postConditions = [] → NoEffects e) := by
  obtain ⟨h1, h2, h3⟩ := ((C116_enforced parse hp t ht bs he e).1 hk).2 hd
  have k1 : ∀ a, (∀ n code, .stx a n code ∉ t.postConditions) → e.stx a = 0 := by
    intro a hn
    by_contra hne
    obtain ⟨n, code, hm⟩ := h1 a hne
    obtain ⟨c, hc, ec⟩ := List.mem_map.1 hm
    cases c <;> cases ec
    exact hn n code hc
  have k2 : ∀ a i, (∀ n code, .fungible a n code i ∉ t.postConditions) → e.tokens a i = 0 := by
    intro a i hn
    by_contra hne
    obtain ⟨n, code, hm⟩ := h2 a i hne
    obtain ⟨c, hc, ec⟩ := List.mem_map.1 hm
    cases c <;> cases ec
    exact hn n code hc
  have k3 : ∀ a i v, (∀ w code, .nonFungible a w code i ∈ t.postConditions → sorted w ≠ v) → ¬ e.items a i v := by
    intro a i v hn hi
    obtain ⟨code, hm⟩ := h3 a i v hi
    obtain ⟨c, hc, ec⟩ := List.mem_map.1 hm
    cases c with
    | stx => cases ec
    | fungible => cases ec
    | nonFungible a' w code' i' =>
      cases ec
      exact hn w code hc rfl
  refine ⟨k1, k2, k3, fun h0 => ?_⟩
  rw [h0] at k1 k2 k3
  exact ⟨fun a => k1 a fun _ _ => List.not_mem_nil, fun a i => k2 a i fun _ _ => List.not_mem_nil,
    fun a i v => k3 a i v fun _ _ h => absurd h List.not_mem_nil⟩

/-- **C116** In allow mode, which is the builders' default, without conditions, their default too, everything is
kept. -/
theorem C116_default_keeps (parse : Arr 33 → Option Secp.PK) (hp : ∀ k, parse (Secp.serialize k) = some k)
    (t : Transaction) (ht : WellFormedTransaction t) (hd : t.postConditionMode = .allow)
    (hn : t.postConditions = []) (bs : Bytes) (he : t.encode = .ok bs) (e : Effects) : NodeKeeps parse bs e :=
  (C116_enforced parse hp t ht bs he e).2 ⟨fun c hc => (List.not_mem_nil (hn ▸ hc)).elim,
    fun h => by rw [hd] at h; cases h⟩

/-- **C116** But allow mode does not turn conditions off, as the documentation of `PostConditionMode` has it: one
that is not met is enough, in either mode. -/
theorem C116_allow_still_checks (parse : Arr 33 → Option Secp.PK) (hp : ∀ k, parse (Secp.serialize k) = some k)
    (t : Transaction) (ht : WellFormedTransaction t) (bs : Bytes) (he : t.encode = .ok bs) (e : Effects)
    (c : Condition) (hc : c ∈ t.postConditions) (hn : ¬ Met e (sortedCondition c)) : ¬ NodeKeeps parse bs e :=
  fun hk => hn (((C116_enforced parse hp t ht bs he e).1 hk).1 c hc)

/-- **C116** The order of the conditions and repetitions make no difference, although the bytes and the signatures
differ; nor do the other parts of the transactions. -/
theorem C116_order (parse : Arr 33 → Option Secp.PK) (hp : ∀ k, parse (Secp.serialize k) = some k)
    (t u : Transaction) (ht : WellFormedTransaction t) (hu : WellFormedTransaction u)
    (hm : t.postConditionMode = u.postConditionMode) (hc : ∀ c, c ∈ t.postConditions ↔ c ∈ u.postConditions)
    (bs bu : Bytes) (he : t.encode = .ok bs) (he' : u.encode = .ok bu) (e : Effects) :
    NodeKeeps parse bs e ↔ NodeKeeps parse bu e := by
  have hmap : ∀ c, c ∈ t.postConditions.map sortedCondition ↔ c ∈ u.postConditions.map sortedCondition := by
    intro c; simp only [List.mem_map, hc]
  rw [C116_enforced parse hp t ht bs he e, C116_enforced parse hp u hu bu he' e, hm]
  simp only [Covered, hc, hmap]

end

/-! ## A concrete case -/

section
open Stacks.Concrete.Ecdsa
attribute [local instance] realSecp Concrete.realHashes
local instance enforceLawful : Secp.Lawful := realLawful

/-- A call that may take at most 1000 microSTX from the account of condition.rs:489-503 and must leave it an item. -/
def exLimitedCall (mode : PostConditionMode) : STXContractCall :=
  { address := "SP2J6ZY48GV1EZ5V2V5RB9MP66SW86PYKKNRV9EJ7".toList, contract := "pool".toList, fnName := "swap".toList,
    fnArgs := [], sender := ⟨7, by decide⟩, network := .mainnet, postConditionMode := mode,
    postConditions := [.stx (.principalStd exAddr) 1000 .lte, .nonFungible (.principalStd exAddr) (.uint 1) .has exAsset] }

/-- Some STX leave that account, and some of a fungible token. -/
def exTaken (stx tokens : Nat) : Effects where
  stx a := if a = .principalStd exAddr then stx else 0
  tokens a i := if a = .principalStd exAddr ∧ i = exAsset then tokens else 0
  items _ _ _ := False

/-- The call is built, signed, encoded and accepted. In either mode the node keeps an execution that takes 1000
microSTX and undoes one that takes 1001; one that takes a token besides is kept in allow mode only. -/
example (parse : Arr 33 → Option Secp.PK) (hp : ∀ k, parse (Secp.serialize k) = some k) (mode : PostConditionMode) :
    ∃ t t' bs, (exLimitedCall mode).transaction = .ok t ∧ t.sign ⟨7, by decide⟩ = .ok t' ∧ t'.encode = .ok bs ∧
      NodeAccepts parse bs ∧ NodeKeeps parse bs (exTaken 1000 0) ∧ ¬ NodeKeeps parse bs (exTaken 1001 0) ∧
      (NodeKeeps parse bs (exTaken 1000 1) ↔ mode = .allow) := by
  obtain ⟨t, ht⟩ : ∃ t, (exLimitedCall mode).transaction = .ok t :=
    (C57_ok_iff _).2 ⟨rfl, [0xa4, 0x6f, 0xf8, 0x88, 0x86, 0xc2, 0xef, 0x97, 0x62, 0xd9, 0x70, 0xb4, 0xd2, 0xc6, 0x36,
      0x78, 0x83, 0x5b, 0xd3, 0x9d], 22, (by
        show C32.c32AddressDecode "SP2J6ZY48GV1EZ5V2V5RB9MP66SW86PYKKNRV9EJ7".toList = _
        decide +kernel), rfl⟩
  obtain ⟨hs, bytes, v, hd, hl⟩ := (C57_ok_iff _).1 ⟨t, ht⟩
  obtain ⟨t2, c, g1, _, _, _, _, _, _, _, _, _, _, g4, g5⟩ := (C57_contract_call _).2.2.2 bytes v hl hd hs
  rw [ht] at g1
  cases g1
  have hb : AcceptableBody t.postConditions t.payload := by
    rw [g4, g5]
    refine ⟨by show 2 < _; decide, fun c hc => ?_,
      ⟨by show (Str.bytes "pool".toList).length ≤ 128; decide +kernel,
        by show (Str.bytes "swap".toList).length ≤ 128; decide +kernel, by show 0 < _; decide,
        fun _ h => absurd h List.not_mem_nil⟩, trivial⟩
    rcases List.mem_cons.1 hc with rfl | hc
    · exact ⟨⟨.inl ⟨_, rfl⟩, exAddr_canonical⟩, rfl⟩
    · cases List.mem_singleton.1 hc
      exact ⟨⟨⟨.inl ⟨_, rfl⟩, exAddr_canonical⟩, ⟨exAddr_canonical, by decide +kernel, by decide +kernel⟩, trivial⟩, rfl⟩
  obtain ⟨t', bs, h1, h2, h3⟩ := C80_call_accepted parse hp _ t ht hb
  have key := C116_call parse hp _ t t' ht hb _ h1 bs h2
  refine ⟨t, t', bs, ht, h1, h2, h3, (key _).2 ⟨fun c hc => ?_, fun _ => ⟨fun a ha => ?_, fun a i hi => ?_, fun _ _ _ h => h.elim⟩⟩,
    fun hk => ?_, fun hk => ?_, fun hk => (key _).2 ⟨fun c hc => ?_, fun hd => ?_⟩⟩
  · rcases List.mem_cons.1 hc with rfl | hc
    · show (exTaken 1000 0).stx _ ≤ 1000
      simp [exTaken]
    · cases List.mem_singleton.1 hc
      exact id
  · by_cases h : a = .principalStd exAddr
    · exact ⟨1000, .lte, by rw [h]; exact List.mem_cons_self⟩
    · simp [exTaken, h] at ha
  · simp [exTaken] at hi
  · have := ((key _).1 hk).1 _ List.mem_cons_self
    have h2 : (exTaken 1001 0).stx (.principalStd exAddr) ≤ 1000 := this
    simp [exTaken] at h2
  · cases mode with
    | allow => rfl
    | deny =>
      obtain ⟨_, hcov, _⟩ := ((key _).1 hk).2 rfl
      obtain ⟨n, code, hm⟩ := hcov (.principalStd exAddr) exAsset (by simp [exTaken])
      rcases List.mem_cons.1 hm with h | h
      · cases h
      · cases List.mem_singleton.1 h
  · rcases List.mem_cons.1 hc with rfl | hc
    · show (exTaken 1000 1).stx _ ≤ 1000
      simp [exTaken]
    · cases List.mem_singleton.1 hc
      exact id
  · exact absurd (show mode = .deny from hd) (by rw [hk]; decide)

end

end Stacks.Tx

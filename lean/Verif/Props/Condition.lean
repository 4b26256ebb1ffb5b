import Verif.Proofs.Condition
import Verif.Props.Payload

/-! # Properties C41 - C42: post-conditions -/

namespace Stacks.Tx
open Stacks.Spec Stacks.Clarity

section
variable [Hashes]

/-- **C41** A condition encodes exactly when it is encodable, and then to SIP-005's bytes. -/
theorem C41_condition_layout (c : Condition) (bs : Bytes) :
    c.encode = .ok bs ↔ EncodableCondition c ∧ bs = conditionBytes c := by
  constructor
  · intro h
    by_cases hc : EncodableCondition c
    · rw [condition_encode_ok c hc] at h
      exact ⟨hc, (Outcome.ok.inj h).symm⟩
    · by_cases hp : IsPrincipal (conditionAddress c)
      · obtain ⟨e, he, _⟩ := condition_encode_err c hp hc
        rw [he] at h; cases h
      · rw [condition_encode_downcast c hp] at h; cases h
  · rintro ⟨h, rfl⟩; exact condition_encode_ok c h

/-- **C41** Encoding fails with `BadDowncast` exactly when the address is not a principal. -/
theorem C41_bad_downcast_iff (c : Condition) :
    c.encode = .err .badDowncast ↔ ¬ IsPrincipal (conditionAddress c) := by
  constructor
  · intro h hp
    by_cases hc : EncodableCondition c
    · rw [condition_encode_ok c hc] at h; cases h
    · obtain ⟨e, he, hne⟩ := condition_encode_err c hp hc
      rw [h] at he; exact hne (Outcome.err.inj he).symm
  · exact condition_encode_downcast c

/-- **C41** Encoding a condition never panics. -/
theorem C41_no_panic (c : Condition) : c.encode ≠ .panic := by
  by_cases hc : EncodableCondition c
  · rw [condition_encode_ok c hc]; simp
  · by_cases hp : IsPrincipal (conditionAddress c)
    · obtain ⟨e, he, _⟩ := condition_encode_err c hp hc
      rw [he]; simp
    · rw [condition_encode_downcast c hp]; simp

/-- **C42** The bytes of a list: a 4-byte count and the conditions in order. It encodes exactly
when there are fewer than 2^32 conditions and each is encodable; otherwise it is an error. -/
theorem C42_conditions_layout (cs : List Condition) (bs : Bytes) :
    postConditionsEncode cs = .ok bs ↔
      cs.length < 2 ^ 32 ∧ (∀ c ∈ cs, EncodableCondition c) ∧ bs = conditionsBytes cs := by
  unfold postConditionsEncode
  by_cases hl : cs.length < 2 ^ 32
  · rw [lenBytes_ok hl, Outcome.ok_bind]
    by_cases hc : ∀ c ∈ cs, EncodableCondition c
    · rw [conditions_encode_ok cs hc, Outcome.ok_bind, Outcome.pure_def, Outcome.ok.injEq]
      exact ⟨fun h => ⟨hl, hc, h.symm⟩, fun h => h.2.2.symm⟩
    · have : ∃ c ∈ cs, ¬ EncodableCondition c := by push Not at hc; exact hc
      obtain ⟨e, he⟩ := conditions_encode_err cs this
      rw [he]
      exact ⟨fun h => by simp at h, fun h => absurd h.2.1 hc⟩
  · rw [lenBytes_err hl]
    exact ⟨fun h => by simp at h, fun h => absurd h.1 hl⟩

/-- **C42** A reader recovers the list from its encoding followed by any bytes. -/
theorem C42_reader_recovers (cs : List Condition) (hl : cs.length < 2 ^ 32)
    (h : ∀ c ∈ cs, WellFormedCondition c) (rest : Bytes) :
    ∃ bs, postConditionsEncode cs = .ok bs ∧ readConditions.run (bs ++ rest) = some (cs, rest) :=
  ⟨_, (C42_conditions_layout cs _).2 ⟨hl, fun c hc => wf_encodableCondition c (h c hc), rfl⟩,
    reads_conditions cs hl h rest⟩

/-- **C42** So the encodings of different lists are different, and none is a prefix of another. -/
theorem C42_conditions_prefix_free (cs ds : List Condition) (hc : ∀ c ∈ cs, WellFormedCondition c)
    (hd : ∀ d ∈ ds, WellFormedCondition d) (bc bd : Bytes) (ec : postConditionsEncode cs = .ok bc)
    (ed : postConditionsEncode ds = .ok bd) (hp : bc <+: bd) : cs = ds := by
  obtain ⟨l1, _, rfl⟩ := (C42_conditions_layout cs bc).1 ec
  obtain ⟨l2, _, rfl⟩ := (C42_conditions_layout ds bd).1 ed
  obtain ⟨r, hr⟩ := hp
  have h1 := reads_conditions cs l1 hc r
  have h2 := reads_conditions ds l2 hd []
  rw [List.append_nil, ← hr, h1] at h2
  exact (Prod.mk.inj (Option.some.inj h2)).1

end

deriving instance DecidableEq for Condition

section
attribute [local instance] Concrete.realHashes

/-- The asset of condition.rs:489-503. -/
def exAsset : AssetInfo := ⟨exAddr, "my-contract".toList, "my-asset".toList⟩

/-- One condition of each kind. -/
def exConditions : List Condition :=
  [.stx (.principalStd exAddr) 1000000 .gte,
   .fungible (.principalCon exAddr "test".toList) 1000000 .eq exAsset,
   .nonFungible (.principalStd exAddr) exValue .has exAsset]

theorem exConditions_wf : ∀ c ∈ exConditions, WellFormedCondition c := by
  have ha : WellFormedAsset exAsset := ⟨exAddr_canonical, by decide +kernel, by decide +kernel⟩
  intro c hc
  simp only [exConditions, List.mem_cons, List.not_mem_nil, or_false] at hc
  rcases hc with rfl | rfl | rfl
  · exact ⟨.inl ⟨_, rfl⟩, exAddr_canonical⟩
  · exact ⟨⟨.inr ⟨_, _, rfl⟩, exAddr_canonical, by decide +kernel⟩, ha⟩
  · exact ⟨⟨.inl ⟨_, rfl⟩, exAddr_canonical⟩, ha, exValue_wf⟩

/-- C41, on the repository's vectors (condition.rs:361-398). -/
example : (postConditionsEncode [.stx (.principalStd exAddr) 1000000 .gte,
      .stx (.principalCon exAddr "test".toList) 1000000 .gte,
      .nonFungible (.principalStd exAddr) (.lps "test".toList) .has exAsset,
      .fungible (.principalCon exAddr "test".toList) 1000000 .gte exAsset] >>= fun bs => .ok (Hex.bytesToHex bs)) =
    .ok "00000004000216a5d9d331000f5b79578ce56bd157f29a9056f0d60300000000000f4240000316a5d9d331000f5b79578ce56bd157f29a9056f0d604746573740300000000000f4240020216a5d9d331000f5b79578ce56bd157f29a9056f0d616a5d9d331000f5b79578ce56bd157f29a9056f0d60b6d792d636f6e7472616374086d792d6173736574047465737411010316a5d9d331000f5b79578ce56bd157f29a9056f0d6047465737416a5d9d331000f5b79578ce56bd157f29a9056f0d60b6d792d636f6e7472616374086d792d61737365740300000000000f4240".toList := by
  decide +kernel

example : (Condition.stx .tru 1 .eq).encode = .err .badDowncast := by decide +kernel
example : (Condition.stx (.principalStd "SP1".toList) 1 .eq).encode = .err (.c32 (.badAddress "SP1".toList)) := by
  decide +kernel

/-- C42. -/
example : ∃ bs, postConditionsEncode exConditions = .ok bs ∧
    readConditions.run (bs ++ [1, 2]) = some (exConditions, [1, 2]) :=
  C42_reader_recovers exConditions (by decide) exConditions_wf _

example : ∃ bs, postConditionsEncode exConditions = .ok bs ∧ ¬ bs <+: [0, 0, 0, 0] := by
  obtain ⟨bs, h, _⟩ := C42_reader_recovers exConditions (by decide) exConditions_wf []
  refine ⟨bs, h, fun hp => absurd (C42_conditions_prefix_free exConditions [] exConditions_wf
    (fun _ h => absurd h List.not_mem_nil) bs _ h (by decide +kernel : postConditionsEncode [] = .ok [0, 0, 0, 0]) hp) (by simp [exConditions])⟩

end
end Stacks.Tx

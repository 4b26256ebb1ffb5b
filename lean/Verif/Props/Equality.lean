import Verif.Proofs.Debug
import Verif.Props.Payload
import Verif.Props.Condition

/-! # Properties C77 and C78: what `==` of post-conditions, payloads and builders means -/

namespace Stacks.Tx
open Stacks.Clarity Stacks.Spec

theorem fnArgs_eq (vs ws : List CV) : CV.eq (.fnArgs vs) (.fnArgs ws) = true ↔ CV.displayAll vs = CV.displayAll ws := by
  have e : ∀ us : List CV, (CV.fnArgs us).display = "(fn-args ".toList ++ CV.displayAll us ++ ")".toList := fun _ => rfl
  rw [CV.eq, beq_iff_eq, e, e]
  exact ⟨fun h => List.append_cancel_left (List.append_cancel_right h), fun h => by rw [h]⟩

theorem lps_eq (s t : Str) : CV.eq (.lps s) (.lps t) = true ↔ s = t := by
  have e : ∀ u : Str, (CV.lps u).display = u := fun _ => rfl
  rw [CV.eq, beq_iff_eq, e, e]

theorem exists_ok {ε α : Type} {o : Outcome ε α} (h : (match o with | .ok _ => true | _ => false) = true) :
    ∃ x, o = .ok x := by
  cases o with
  | ok x => exact ⟨x, rfl⟩
  | _ => simp at h

attribute [local irreducible] CV.display CV.displayAll

/-! ## C77 -/

/-- **C77** Two lists of post-conditions whose names and addresses contain no delimiters compare
equal exactly when they are the same post-conditions in the same order. -/
theorem C77_equal_iff_same (cs ds : List Condition) (hc : ∀ c ∈ cs, PlainCondition c)
    (hd : ∀ d ∈ ds, PlainCondition d) : postConditionsEq cs ds = true ↔ cs = ds := by
  rw [postConditionsEq, beq_iff_eq]
  exact ⟨postConditionsDisplay_inj cs ds hc hd, fun h => by rw [h]⟩

/-- **C77** Whatever the post-conditions are, `==` is an equivalence relation. -/
theorem C77_equivalence (cs ds es : List Condition) :
    postConditionsEq cs cs = true ∧ (postConditionsEq cs ds = true → postConditionsEq ds cs = true) ∧
      (postConditionsEq cs ds = true → postConditionsEq ds es = true → postConditionsEq cs es = true) := by
  simp only [postConditionsEq, beq_iff_eq]
  exact ⟨trivial, Eq.symm, Eq.trans⟩

/-- Two assets whose names swallow part of the text. -/
def textAsset (name asset : String) : AssetInfo := ⟨testnetAddr, name.toList, asset.toList⟩

section
attribute [local instance] Concrete.realHashes

/-- **C77** Without that condition it fails: two post-conditions that compare equal, can both be
encoded, and are about different assets. -/
theorem C77_equal_but_different :
    ∃ (c d : Condition), postConditionsEq [c] [d] = true ∧ (∃ x, postConditionsEncode [c] = .ok x) ∧
      (∃ y, postConditionsEncode [d] = .ok y) ∧ postConditionsEncode [c] ≠ postConditionsEncode [d] :=
  ⟨.fungible (.principalStd testnetAddr) 5 .lte (textAsset "a" "b), asset: LengthPrefixedStr(c"),
    .fungible (.principalStd testnetAddr) 5 .lte (textAsset "a), asset: LengthPrefixedStr(b" "c"),
    by decide +kernel, exists_ok (by decide +kernel), exists_ok (by decide +kernel), by decide +kernel⟩

end

/-! ## C78 -/

/-- **C78** Contract-call payloads whose arguments have an unambiguous text compare equal exactly when
address, contract, function and every argument are the same. -/
theorem C78_call_equal_iff_same (p q : ContractCall) (hp : PlainTextAll p.args) (hq : PlainTextAll q.args) :
    p.eq q = true ↔ p = q := by
  obtain ⟨a, c, n, vs⟩ := p
  obtain ⟨a', c', n', ws⟩ := q
  simp only [ContractCall.eq, Bool.and_eq_true, decide_eq_true_eq, lps_eq, fnArgs_eq, ContractCall.mk.injEq, and_assoc]
  refine and_congr_right fun _ => and_congr_right fun _ => and_congr_right fun _ => ⟨fun h => ?_, fun h => by rw [h]⟩
  exact (displayAll_inj vs ws hp hq [] [] (by rw [h])).1

section
attribute [local instance] Concrete.realHashes

/-- **C78** Without that condition it fails: two payloads that compare equal, can both be encoded, and
call the function with different numbers of arguments. -/
theorem C78_equal_but_different :
    ∃ (p q : ContractCall), p.eq q = true ∧ p.args.length ≠ q.args.length ∧ (∃ x, p.encode = .ok x) ∧
      (∃ y, q.encode = .ok y) ∧ p.encode ≠ q.encode :=
  ⟨⟨⟨testnetHash, 26⟩, "contract".toList, "function".toList, [.strAscii "a\" \"b".toList]⟩,
    ⟨⟨testnetHash, 26⟩, "contract".toList, "function".toList, [.strAscii "a".toList, .strAscii "b".toList]⟩,
    by decide +kernel, by decide, exists_ok (by decide +kernel), exists_ok (by decide +kernel), by decide +kernel⟩

end

section
variable [Secp] [Hashes]

/-- **C78** Contract-call builders that compare equal build the same transaction, if the texts of their
arguments and post-conditions are unambiguous. -/
theorem C78_equal_calls_build_the_same (b c : STXContractCall) (hb : PlainTextAll b.fnArgs) (hc : PlainTextAll c.fnArgs)
    (hb' : ∀ x ∈ b.postConditions, PlainCondition x) (hc' : ∀ x ∈ c.postConditions, PlainCondition x)
    (h : b.Eq c) : b.transaction = c.transaction := by
  obtain ⟨a, k, n, vs, sk, net, fee, nonce, am, pm, pcs, sp⟩ := b
  obtain ⟨a', k', n', ws, sk', net', fee', nonce', am', pm', pcs', sp'⟩ := c
  obtain ⟨h1, h2, h3, h4, h5, h6, h7, h8, h9, h10, h11, h12⟩ := h
  simp only [] at h1 h2 h3 h4 h5 h6 h7 h8 h9 h10 h11 h12 hb hc hb' hc'
  have e := (C77_equal_iff_same _ _ hb' hc').1 h11
  have e' := (displayAll_inj vs ws hb hc [] [] (by rw [(fnArgs_eq vs ws).1 h5])).1
  subst h1 h2 h3 h4 h6 h7 h8 h9 h10 h12 e e'
  rfl

/-- **C78** Token-transfer builders that compare equal build the same transaction, if the texts of
their recipients and post-conditions are unambiguous. -/
theorem C78_equal_transfers_build_the_same (ε : Type) (b c : STXTokenTransfer) (hb : PlainText b.recipient)
    (hc : PlainText c.recipient) (hb' : ∀ x ∈ b.postConditions, PlainCondition x)
    (hc' : ∀ x ∈ c.postConditions, PlainCondition x) (h : b.Eq c) :
    (b.transaction : Outcome ε Transaction) = c.transaction := by
  obtain ⟨r, am, sk, net, fee, nonce, an, memo, pm, pcs, sp⟩ := b
  obtain ⟨r', am', sk', net', fee', nonce', an', memo', pm', pcs', sp'⟩ := c
  obtain ⟨_, h2, h3, h4, h5, h6, h7, h8, h9, h10, h11, h12⟩ := h
  simp only [] at h2 h3 h4 h5 h6 h7 h8 h9 h10 h11 h12 hb hc hb' hc'
  have e := (C77_equal_iff_same _ _ hb' hc').1 h11
  rw [CV.eq, beq_iff_eq] at h3
  have e' := (display_inj r r' hb hc [] [] (.inl rfl) (.inl rfl) (by rw [h3])).1
  subst h2 h4 h5 h6 h7 h8 h9 h10 h12 e e'
  rfl

end

/-! ## The hypotheses are satisfiable -/

/-- One condition of each kind. -/
def plainConditions : List Condition :=
  [.stx (.principalStd exAddr) 1000000 .gte, .fungible (.principalCon exAddr "test".toList) 1000000 .eq exAsset,
   .nonFungible (.principalStd exAddr) (.tuple [("id".toList, .optSome (.uint 3))]) .has exAsset]

theorem plainConditions_plain : ∀ c ∈ plainConditions, PlainCondition c := by
  have ha : PlainAsset exAsset := ⟨by decide +kernel, by decide +kernel, by decide +kernel⟩
  have hp : ')' ∉ exAddr := by decide +kernel
  intro c hc
  simp only [plainConditions, List.mem_cons, List.not_mem_nil, or_false] at hc
  rcases hc with rfl | rfl | rfl
  · exact hp
  · exact ⟨⟨by decide +kernel, hp, by decide +kernel⟩, ha⟩
  · exact ⟨hp, ⟨⟨by decide, by decide⟩, trivial, trivial⟩, ha⟩

example : postConditionsEq plainConditions plainConditions = true ∧
    postConditionsEq plainConditions plainConditions.reverse = false :=
  ⟨(C77_equal_iff_same _ _ plainConditions_plain plainConditions_plain).2 rfl, by decide +kernel⟩
example : PlainTextAll [.uint 7, .strUtf8 "hé".toList, .principalStd "SP1".toList] :=
  ⟨trivial, (by decide : '"' ∉ "hé".toList), ⟨['P', '1'], rfl, by decide⟩, trivial⟩
example [Secp] (b : STXContractCall) : b.Eq b := by simp [STXContractCall.Eq, CV.eq, postConditionsEq]
example [Secp] (b : STXTokenTransfer) : b.Eq b := by simp [STXTokenTransfer.Eq, CV.eq, postConditionsEq]


/-- C77, the text of one of them. -/
example : (Condition.nonFungible (.principalStd "SP1".toList) (.tuple [("id".toList, .optSome (.uint 3))]) .has
      ⟨"SP2".toList, "c".toList, "n".toList⟩).debug =
    ("NonFungiblePostCondition { address: StandardPrincipalCV(SP1), name: TupleCV(id: SomeCV(u3)), code: Has, " ++
      "info: AssetInfo { address: StandardPrincipalCV(SP2), name: LengthPrefixedStr(c), " ++
      "asset: LengthPrefixedStr(n) } }").toList := by decide +kernel

end Stacks.Tx

import Verif.Proofs.Canonical
import Verif.Props.Node
import Verif.Props.Binding

/-! # C112: the order of a tuple's entries -/

namespace Stacks.Tx
open Stacks.Spec Stacks.Clarity

/-! ## Sorting -/

/-- **C112** `sorted` is sorting: if the names of each tuple differ, all tuples come out in ascending
order; the entries of a tuple are the same ones, with their values sorted; and a value whose tuples are
in ascending order, and no other, is unchanged. -/
theorem C112_sorted (v : CV) (h : NamesDiffer v) :
    Ascending (sorted v) ∧ (∀ es, v = .tuple es → ∃ es', sorted v = .tuple es' ∧
      es'.Perm (es.map fun e => (e.1, sorted e.2))) ∧ (sorted v = v ↔ Ascending v) := by
  refine ⟨sorted_ascending v h, ?_, fun e => e ▸ sorted_ascending v h, sorted_fix v⟩
  rintro es rfl
  exact ⟨_, rfl, sortedEntries_perm es⟩

section
variable [Secp]

theorem valuesIn_arg {t : Transaction} {p : ContractCall} (h : t.payload = .contractCall p) {v : CV} (hv : v ∈ p.args) :
    v ∈ valuesIn t := by
  rw [valuesIn, h]; exact List.mem_append_left _ hv

theorem valuesIn_token {t : Transaction} {a v : CV} {code : ConditionCode} {info : AssetInfo}
    (h : .nonFungible a v code info ∈ t.postConditions) : v ∈ valuesIn t :=
  List.mem_append_right _ (List.mem_filterMap.2 ⟨_, h, rfl⟩)

theorem sortedTransaction_fix (t : Transaction) (h : ∀ v ∈ valuesIn t, sorted v = v) : sortedTransaction t = t := by
  have h1 : t.postConditions.map sortedCondition = t.postConditions := by
    conv_rhs => rw [← List.map_id t.postConditions]
    refine List.map_congr_left fun c hc => ?_
    cases c with
    | stx => rfl
    | fungible => rfl
    | nonFungible a v code info => show Condition.nonFungible a (sorted v) code info = _; rw [h v (valuesIn_token hc)]; rfl
  have h2 : sortedPayload t.payload = t.payload := by
    cases hp : t.payload with
    | tokenTransfer p => rfl
    | contractCall p =>
      have : p.args.map sorted = p.args := by
        conv_rhs => rw [← List.map_id p.args]
        exact List.map_congr_left fun v hv => h v (valuesIn_arg hp hv)
      show Payload.contractCall { p with args := p.args.map sorted } = _
      rw [this]
  rw [sortedTransaction, h1, h2]

omit [Secp] in
theorem map_fix {α : Type} {f : α → α} {l : List α} (h : l.map f = l) : ∀ x ∈ l, f x = x := by
  induction l with
  | nil => exact fun _ h => absurd h List.not_mem_nil
  | cons a l ih =>
    obtain ⟨h1, h2⟩ := List.cons.inj h
    intro x hx
    rcases List.mem_cons.1 hx with rfl | hx
    · exact h1
    · exact ih h2 x hx

theorem sorted_of_fix {t : Transaction} (h1 : t.postConditions.map sortedCondition = t.postConditions)
    (h2 : readBack (sortedPayload t.payload) = readBack t.payload) : ∀ v ∈ valuesIn t, sorted v = v := by
  intro v hv
  rcases List.mem_append.1 hv with hv | hv
  · cases hp : t.payload with
    | tokenTransfer p => rw [hp] at hv; exact absurd hv List.not_mem_nil
    | contractCall p =>
      rw [hp] at hv h2
      have : p.args.map sorted = p.args := congrArg ContractCall.args (Payload.contractCall.inj h2)
      exact map_fix this v hv
  · obtain ⟨c, hc, e⟩ := List.mem_filterMap.1 hv
    have := map_fix h1 c hc
    cases c with
    | stx => cases e
    | fungible => cases e
    | nonFungible a w code info =>
      cases e
      exact (Condition.nonFungible.inj this).2.1

variable [Hashes]

theorem sortedTransaction_wf (t : Transaction) (h : WellFormedTransaction t) : WellFormedTransaction (sortedTransaction t) := by
  refine ⟨h.1, by show (t.postConditions.map _).length < _; rw [List.length_map]; exact h.2.1, fun c hc => ?_, ?_⟩
  · obtain ⟨c, hm, rfl⟩ := List.mem_map.1 hc
    have := h.2.2.1 c hm
    cases c with
    | stx => exact this
    | fungible => exact this
    | nonFungible a v code info => exact ⟨this.1, this.2.1, sorted_wf v this.2.2⟩
  · have := h.2.2.2
    show WellFormedPayload (sortedPayload t.payload)
    cases hp : t.payload with
    | tokenTransfer p => rw [hp] at this; exact this
    | contractCall p =>
      rw [hp] at this
      obtain ⟨h1, h2, h3, h4⟩ := this
      refine ⟨h1, h2, by show (p.args.map sorted).length < _; rw [List.length_map]; exact h3, fun v hv => ?_⟩
      obtain ⟨w, hw, rfl⟩ := List.mem_map.1 hv
      exact sorted_wf w (h4 w hw)

omit [Hashes] in
theorem sorted_codes (t : Transaction) : (∀ c ∈ (sortedTransaction t).postConditions, CodeFits c) ↔
    ∀ c ∈ t.postConditions, CodeFits c := by
  have : ∀ c, CodeFits (sortedCondition c) ↔ CodeFits c := fun c => by cases c <;> exact Iff.rfl
  show (∀ c ∈ t.postConditions.map sortedCondition, CodeFits c) ↔ _
  simp [this]

omit [Hashes] in
theorem valuesIn_readBack (t : Transaction) : valuesIn { t with payload := readBack t.payload } = valuesIn t := by
  unfold valuesIn
  cases t.payload <;> rfl

omit [Hashes] in
theorem sorted_readBack (t : Transaction) : sortedTransaction { t with payload := readBack t.payload } =
    { sortedTransaction t with payload := readBack (sortedTransaction t).payload } := by
  unfold sortedTransaction
  cases hp : t.payload <;> rfl

/-! ## What such a node accepts -/

/-- **C112** Such a node sees the transaction with sorted tuples and the signatures it was sent: it
accepts the bytes of a transaction exactly when names in tuples differ, its rules are met, and a node
that takes tuples as they come would accept the transaction with sorted tuples. (The rules are about
the transaction as it is read, with the memo padded.) -/
theorem C112_sees_sorted (rules : Transaction → Prop) (parse : Arr 33 → Option Secp.PK)
    (hp : ∀ k, parse (Secp.serialize k) = some k) (t : Transaction) (ht : WellFormedTransaction t) (bs bs' : Bytes)
    (he : t.encode = .ok bs) (he' : (sortedTransaction t).encode = .ok bs') :
    SortingNodeAccepts rules parse bs ↔
      (∀ v ∈ valuesIn t, NamesDiffer v) ∧ rules { t with payload := readBack t.payload } ∧ NodeAccepts parse bs' := by
  obtain ⟨b, e, hr⟩ := C43_reader_recovers parse hp t ht []
  obtain rfl := Outcome.ok.inj (he.symm.trans e)
  obtain ⟨b, e, hr'⟩ := C43_reader_recovers parse hp _ (sortedTransaction_wf t ht) []
  obtain rfl := Outcome.ok.inj (he'.symm.trans e)
  rw [List.append_nil] at hr hr'
  have hacc : ∀ p : Payload, ToAccount (readBack (sortedPayload p)) ↔ ToAccount (readBack p) := by
    intro p; cases p <;> exact Iff.rfl
  constructor
  · rintro ⟨t', h1, h2, h3, h4, h5, h6⟩
    rw [hr] at h1
    cases h1
    refine ⟨by rwa [valuesIn_readBack] at h3, h2, _, hr', (sorted_codes t).2 h4, (hacc _).2 h5, ?_⟩
    rw [sorted_readBack] at h6
    exact h6
  · rintro ⟨h1, h2, t', h3, h4, h5, h6⟩
    rw [hr'] at h3
    cases h3
    refine ⟨_, hr, h2, by rwa [valuesIn_readBack], (sorted_codes t).1 h4, (hacc _).1 h5, ?_⟩
    rw [sorted_readBack]
    exact h6

/-- **C112** If all tuples are in ascending order it makes no difference. -/
theorem C112_ascending (rules : Transaction → Prop) (parse : Arr 33 → Option Secp.PK)
    (hp : ∀ k, parse (Secp.serialize k) = some k) (t : Transaction) (ht : WellFormedTransaction t)
    (ha : ∀ v ∈ valuesIn t, Ascending v) (bs : Bytes) (he : t.encode = .ok bs) :
    SortingNodeAccepts rules parse bs ↔ rules { t with payload := readBack t.payload } ∧ NodeAccepts parse bs := by
  have hf := sortedTransaction_fix t (fun v hv => sorted_fix v (ha v hv))
  rw [C112_sees_sorted rules parse hp t ht bs bs he (by rw [hf]; exact he)]
  exact ⟨And.right, fun h => ⟨fun v hv => ascending_differ v (ha v hv), h⟩⟩

/-- **C112** So a contract call whose tuples, in arguments and post-conditions, are in ascending order,
built with the builder and signed, is accepted if it meets the rules. -/
theorem C112_call_accepted [Secp.Lawful] (rules : Transaction → Prop) (parse : Arr 33 → Option Secp.PK)
    (hp : ∀ k, parse (Secp.serialize k) = some k) (b : STXContractCall) (t : Transaction)
    (ht : b.transaction = .ok t) (hb : AcceptableBody t.postConditions t.payload)
    (ha : ∀ v ∈ b.fnArgs, Ascending v)
    (hc : ∀ a v code info, .nonFungible a v code info ∈ b.postConditions → Ascending v)
    (hr : ∀ t', t.sign b.sender = .ok t' → rules t') :
    ∃ t' bs, t.sign b.sender = .ok t' ∧ t'.encode = .ok bs ∧ SortingNodeAccepts rules parse bs := by
  obtain ⟨t', bs, h1, h2, h3⟩ := C80_call_accepted parse hp b t ht hb
  obtain ⟨hs, bytes, v, hd, hl⟩ := (C57_ok_iff b).1 ⟨t, ht⟩
  obtain ⟨t2, c, g1, _, _, g2, g3, _, _, _, _, _, _, g4, g5⟩ := (C57_contract_call b).2.2.2 bytes v hl hd hs
  rw [ht] at g1
  cases g1
  obtain ⟨_, _, _, e⟩ := (sign_iff _ _ _).1 h1
  have hpc : t'.postConditions = b.postConditions := by rw [e]; exact g4
  have hpl : t'.payload = .contractCall ⟨⟨⟨bytes, hl⟩, v⟩, b.contract, b.fnName, b.fnArgs⟩ := by rw [e]; exact g5
  have hau : ∃ c' : SingleSig, c'.mode = .p2pkh ∧ t'.auth = .standard (.single c') := by
    rw [e, g2]; refine ⟨{ c with signature := _ }, ?_, rfl⟩; exact g3
  obtain ⟨c', hm, hau⟩ := hau
  have hw : WellFormedTransaction t' := acceptable_wf (by rw [hau]; exact .inl hm) (by rw [hpc, hpl, ← g4, ← g5]; exact hb)
  refine ⟨t', bs, h1, h2, (C112_ascending rules parse hp t' hw ?_ bs h2).2 ⟨?_, h3⟩⟩
  · intro w hv
    rcases List.mem_append.1 hv with hv | hv
    · rw [hpl] at hv; exact ha w hv
    · obtain ⟨c, hm, e⟩ := List.mem_filterMap.1 hv
      rw [hpc] at hm
      cases c with
      | stx => cases e
      | fungible => cases e
      | nonFungible a x code info => cases e; exact hc a w code info hm
  · have : readBack t'.payload = t'.payload := by rw [hpl]; rfl
    rw [this]
    exact hr t' h1

/-- **C112** A name that occurs twice in a tuple is refused. -/
theorem C112_repeated_name_refused (rules : Transaction → Prop) (parse : Arr 33 → Option Secp.PK)
    (hp : ∀ k, parse (Secp.serialize k) = some k) (t : Transaction) (ht : WellFormedTransaction t)
    (hn : ∃ v ∈ valuesIn t, ¬ NamesDiffer v) (bs : Bytes) (he : t.encode = .ok bs) :
    ¬ SortingNodeAccepts rules parse bs := by
  intro h
  have he' := (transaction_encode_iff _ _).2 ⟨wf_encodable_tx _ (sortedTransaction_wf t ht), rfl⟩
  obtain ⟨v, hv, hn⟩ := hn
  exact hn (((C112_sees_sorted rules parse hp t ht bs _ he he').1 h).1 v hv)

end

section
open Stacks.Concrete.Ecdsa
attribute [local instance] realSecp
local instance canonicalLawful : Secp.Lawful := realLawful
variable [Hashes]

/-- **C112** And a transaction with a tuple in any other order, although it is signed, encodes and
verifies, is refused whatever the rules, unless explicit digests or accounts collide: the signature
would have to be one of the transaction with sorted tuples, too. -/
theorem C112_other_order_refused (rules : Transaction → Prop) (parse : Arr 33 → Option Secp.PK)
    (hp : ∀ k, parse (Secp.serialize k) = some k) (t : Transaction) (ht : WellFormedTransaction t)
    (hs : SmallScript t.auth.origin) (hone : SameSignatures t.auth.origin t.auth.origin) (n : Arr 32)
    (hv : t.verifyOrigin = .ok n) (hno : ∃ v ∈ valuesIn t, ¬ Ascending v) (bs : Bytes) (he : t.encode = .ok bs)
    (hacc : SortingNodeAccepts rules parse bs) :
    (signingPreimage t ≠ signingPreimage (sortedTransaction t) ∧
      Hashes.sha512_256 (signingPreimage t) = Hashes.sha512_256 (signingPreimage (sortedTransaction t))) ∨
    DigestsMeet (firstSigned (Hashes.sha512_256 (signingPreimage t)) 4 t.auth.origin)
      (firstSigned (Hashes.sha512_256 (signingPreimage (sortedTransaction t))) 4 t.auth.origin) ∨
    SignersCollide (Hashes.sha512_256 (signingPreimage t)) 4 (Hashes.sha512_256 (signingPreimage (sortedTransaction t))) 4
      t.auth.origin t.auth.origin := by
  have hw := sortedTransaction_wf t ht
  have he' := (transaction_encode_iff _ _).2 ⟨wf_encodable_tx _ hw, rfl⟩
  obtain ⟨hd, _, hn⟩ := (C112_sees_sorted rules parse hp t ht bs _ he he').1 hacc
  obtain ⟨b, e, hr⟩ := C43_reader_recovers parse hp _ hw []
  obtain rfl := Outcome.ok.inj (he'.symm.trans e)
  rw [List.append_nil] at hr
  obtain ⟨t', h1, _, _, h4⟩ := hn
  rw [hr] at h1
  cases h1
  rw [preimage_readBack _ (wf_encodable_tx _ hw).2.2.2] at h4
  have hv' : ∃ n', (sortedTransaction t).verifyOrigin = .ok n' := by
    simp only [verifyOrigin_iff]
    have hb := (wf_encodable_tx _ hw).2
    have h4 : SatisfiedAuth (Hashes.sha512_256 (signingPreimage (sortedTransaction t))) t.auth := h4
    show ∃ n', _ ∧ t.auth.origin.verify _ 4 = .ok n'
    cases ha : t.auth with
    | standard o =>
      rw [ha] at h4 hs
      cases h4 with | standard h5 => exact ⟨_, hb, ((satisfied_iff _ _ _ _ hs).1 h5).1⟩
    | sponsored o s =>
      rw [ha] at h4 hs
      cases h4 with | sponsored h5 _ => exact ⟨_, hb, ((satisfied_iff _ _ _ _ hs).1 h5).1⟩
  obtain ⟨n', hv'⟩ := hv'
  rcases C99_origin t (sortedTransaction t) n n' ht hw hone hv hv' with ⟨hc, _⟩ | h
  · exfalso
    obtain ⟨v, hm, hv⟩ := hno
    have e1 : t.postConditions = t.postConditions.map sortedCondition := congrArg SignedContent.postConditions hc
    have e2 : readBack t.payload = readBack (sortedPayload t.payload) := congrArg SignedContent.payload hc
    exact hv (((C112_sorted v (hd v hm)).2.2).1 (sorted_of_fix e1.symm e2.symm v hm))
  · exact h

end

/-! ## The hypotheses are satisfiable, and the refusal happens

With the real hash functions and the real signature scheme. -/

section
open Stacks.Concrete.Ecdsa
attribute [local instance] realSecp Concrete.realHashes
local instance canonicalLawful' : Secp.Lawful := realLawful

/-- A call with a tuple of two entries. -/
def exTupleCall (k1 k2 : String) : Transaction :=
  ⟨.testnet, .testnet, .standard (.single ⟨.p2pkh, 3, 1, hash160Of (serialize (pub ⟨7, by decide⟩)).1, noSignature⟩),
    .any, .deny, [], .contractCall ⟨⟨testnetHash, 26⟩, "contract".toList, "function".toList,
      [.tuple [(k1.toList, .uint 1), (k2.toList, .uint 2)]]⟩⟩

theorem exTupleCall_body (k1 k2 : String) (h1 : (Str.bytes k1.toList).length ≤ 128) (h2 : (Str.bytes k2.toList).length ≤ 128) :
    AcceptableBody (exTupleCall k1 k2).postConditions (exTupleCall k1 k2).payload := by
  refine ⟨by show 0 < _; decide, fun _ h => absurd h List.not_mem_nil, ⟨?_, ?_, ?_, fun v hv => ?_⟩, trivial⟩
  · show (Str.bytes "contract".toList).length ≤ 128; decide
  · show (Str.bytes "function".toList).length ≤ 128; decide
  · show 1 < _; decide
  · obtain rfl := List.mem_singleton.1 hv
    exact ⟨by show 2 < _; decide, h1, trivial, h2, trivial, trivial⟩

theorem exTupleCall_new : (SingleSig.new (Secp.pub (⟨7, by decide⟩ : SK)) 3 1 .p2pkh : Outcome TxError SingleSig) =
    .ok ⟨.p2pkh, 3, 1, hash160Of (serialize (pub ⟨7, by decide⟩)).1, noSignature⟩ :=
  (single_new_iff _ _ _ _ _).2 ⟨rfl, rfl, rfl, rfl, rfl⟩

/-- "a" before "b": accepted. -/
example (parse : Arr 33 → Option Secp.PK) (hp : ∀ k, parse (Secp.serialize k) = some k) :
    ∃ t bs, (exTupleCall "a" "b").sign ⟨7, by decide⟩ = .ok t ∧ t.encode = .ok bs ∧
      SortingNodeAccepts (fun _ => True) parse bs := by
  obtain ⟨t, bs, h1, h2, h3⟩ := C80_single_accepted parse hp (exTupleCall "a" "b") ⟨7, by decide⟩ 3 1 .p2pkh _
    exTupleCall_new rfl (exTupleCall_body "a" "b" (by decide) (by decide))
  obtain ⟨_, _, _, e⟩ := (sign_iff _ _ _).1 h1
  refine ⟨t, bs, h1, h2, (C112_ascending _ parse hp t ?_ ?_ bs h2).2 ⟨trivial, h3⟩⟩
  · rw [e]
    exact acceptable_wf (show _ ∨ _ from .inl rfl) (exTupleCall_body "a" "b" (by decide) (by decide))
  · rw [e]
    intro v hv
    obtain rfl := List.mem_singleton.1 hv
    exact ⟨by decide, trivial, trivial, trivial⟩

/-- The verification of what was signed, and of what the node makes of it. -/
def checkBoth : Outcome TxError Transaction → Bool × Bool
  | .ok t => ((match t.verifyOrigin with | .ok _ => true | _ => false),
      (match (sortedTransaction t).verifyOrigin with | .ok _ => true | _ => false))
  | _ => (false, false)

theorem checkBoth_ok {t : Transaction} {n n' : Arr 32} (hv : t.verifyOrigin = .ok n)
    (hv' : (sortedTransaction t).verifyOrigin = .ok n') : checkBoth (.ok t) = (true, true) := by
  rw [checkBoth, hv, hv']

theorem exTupleCheck_wrong : checkBoth ((exTupleCall "b" "a").sign ⟨7, by decide⟩) = (true, false) := by decide +kernel
example : checkBoth ((exTupleCall "a" "b").sign ⟨7, by decide⟩) = (true, true) := by decide +kernel

/-- "b" before "a": signed, verified and encoded all the same, and refused whatever the rules. -/
example (rules : Transaction → Prop) (parse : Arr 33 → Option Secp.PK) (hp : ∀ k, parse (Secp.serialize k) = some k) :
    ∃ t n bs, (exTupleCall "b" "a").sign ⟨7, by decide⟩ = .ok t ∧ t.verifyOrigin = .ok n ∧ t.encode = .ok bs ∧
      NodeAccepts parse bs ∧ ¬ SortingNodeAccepts rules parse bs := by
  obtain ⟨t, bs, h1, h2, h3⟩ := C80_single_accepted parse hp (exTupleCall "b" "a") ⟨7, by decide⟩ 3 1 .p2pkh _
    exTupleCall_new rfl (exTupleCall_body "b" "a" (by decide) (by decide))
  obtain ⟨_, _, _, e⟩ := (sign_iff _ _ _).1 h1
  have hw : WellFormedTransaction t := by
    rw [e]
    exact acceptable_wf (show _ ∨ _ from .inl rfl) (exTupleCall_body "b" "a" (by decide) (by decide))
  have hs : BothParts SmallScript t.auth := by rw [e]; exact trivial
  obtain ⟨_, _, ⟨⟨n, hv⟩, _⟩, _⟩ := (C80_accepts_iff parse hp t hw hs bs h2).1 h3
  refine ⟨t, n, bs, h1, hv, h2, h3, fun ha => ?_⟩
  have he' := (transaction_encode_iff _ _).2 ⟨wf_encodable_tx _ (sortedTransaction_wf t hw), rfl⟩
  obtain ⟨_, _, hn⟩ := (C112_sees_sorted rules parse hp t hw bs _ h2 he').1 ha
  obtain ⟨_, _, ⟨⟨n', hv'⟩, _⟩, _⟩ := (C80_accepts_iff parse hp _ (sortedTransaction_wf t hw) hs _ he').1 hn
  have h4 := exTupleCheck_wrong.symm.trans ((congrArg checkBoth h1).trans (checkBoth_ok hv hv'))
  exact Bool.noConfusion (congrArg Prod.snd h4)

/-- With the builder. -/
def exTupleBuilder : STXContractCall :=
  { address := "SP2J6ZY48GV1EZ5V2V5RB9MP66SW86PYKKNRV9EJ7".toList, contract := "pool".toList, fnName := "stack".toList,
    fnArgs := [.tuple [("amount".toList, .uint 1), ("until".toList, .uint 2)]], sender := ⟨7, by decide⟩,
    network := .mainnet }

example (parse : Arr 33 → Option Secp.PK) (hp : ∀ k, parse (Secp.serialize k) = some k) :
    ∃ t t' bs, exTupleBuilder.transaction = .ok t ∧ t.sign ⟨7, by decide⟩ = .ok t' ∧ t'.encode = .ok bs ∧
      SortingNodeAccepts (fun t => t.anchorMode = .any) parse bs := by
  obtain ⟨t, c, h1, _, _, _, _, _, _, _, _, h4, _, h2, h3⟩ := (C57_contract_call exTupleBuilder).2.2.2
    [0xa4, 0x6f, 0xf8, 0x88, 0x86, 0xc2, 0xef, 0x97, 0x62, 0xd9, 0x70, 0xb4, 0xd2, 0xc6, 0x36, 0x78, 0x83, 0x5b, 0xd3, 0x9d]
    22 rfl (by decide +kernel) rfl
  have hb : AcceptableBody t.postConditions t.payload := by
    rw [h2, h3]
    refine ⟨by show 0 < _; decide, fun _ h => absurd h List.not_mem_nil,
      ⟨by decide +kernel, by decide +kernel, by show 1 < _; decide, fun v hv => ?_⟩, trivial⟩
    obtain rfl := List.mem_singleton.1 hv
    exact ⟨by show 2 < _; decide, by decide +kernel, trivial, by decide +kernel, trivial, trivial⟩
  obtain ⟨t', bs, g1, g2, g3⟩ := C112_call_accepted (fun t => t.anchorMode = .any) parse hp exTupleBuilder t h1 hb
    (fun v hv => by obtain rfl := List.mem_singleton.1 hv; exact ⟨by decide +kernel, trivial, trivial, trivial⟩)
    (fun _ _ _ _ h => absurd h List.not_mem_nil)
    (fun t' hs => by obtain ⟨_, _, _, e⟩ := (sign_iff _ _ _).1 hs; rw [e]; exact h4)
  exact ⟨t, t', bs, h1, g1, g2, g3⟩

/-- A name twice. -/
example : ¬ NamesDiffer (.tuple [("a".toList, .uint 1), ("a".toList, .uint 2)]) := fun h => absurd h.1 (by decide)

/-- Nested tuples are sorted inside and out. -/
example : sorted (.list [.tuple [("b".toList, .tru), ("ab".toList, .tuple [("z".toList, .fls), ("a".toList, .uint 1)])]]) =
    .list [.tuple [("ab".toList, .tuple [("a".toList, .uint 1), ("z".toList, .fls)]), ("b".toList, .tru)]] := rfl

end

end Stacks.Tx

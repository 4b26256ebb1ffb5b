import Verif.Proofs.Condition
import Verif.Props.Condition
import Verif.Props.Hash
import Verif.Spec.Transaction

/-! # Lemmas about authorizations and transactions -/

namespace Stacks.Tx
open Stacks.Spec Stacks.Clarity

/-! ## Encoding -/

theorem payload_encode_iff [Hashes] (p : Payload) (bs : Bytes) :
    p.encode = .ok bs ↔ EncodablePayload p ∧ bs = payloadBytes p := by
  cases p with
  | tokenTransfer p =>
    show p.encode = .ok bs ↔ _
    by_cases h : p.memo.bytes.length ≤ 34
    · rw [transfer_encode p h, Outcome.bind_eq_ok]
      constructor
      · rintro ⟨a, ha, hb⟩
        obtain ⟨h1, rfl⟩ := encode_eq_ok.1 ha
        exact ⟨⟨h1, h⟩, (Outcome.ok.inj hb).symm⟩
      · rintro ⟨⟨h1, _⟩, rfl⟩
        exact ⟨_, encode_ok _ h1, rfl⟩
    · rw [C37_long_memo p (by omega)]
      exact ⟨fun h' => (by cases h'), fun h' => absurd h'.1.2 h⟩
  | contractCall p =>
    show p.encode = .ok bs ↔ _
    unfold ContractCall.encode
    simp only [Outcome.bind_eq_ok, encode_eq_ok, Outcome.pure_def, Outcome.ok.injEq]
    constructor
    · rintro ⟨_, ⟨h1, rfl⟩, _, ⟨h2, rfl⟩, _, ⟨h3, rfl⟩, rfl⟩
      refine ⟨⟨h1, h2, h3.1, encodableAll_iff.1 h3.2⟩, ?_⟩
      simp only [payloadBytes, contractCallBytes, sip005, fnArgs_bytes]
      simp [payloadContractCall]
    · rintro ⟨⟨h1, h2, h3, h4⟩, rfl⟩
      refine ⟨_, ⟨h1, rfl⟩, _, ⟨h2, rfl⟩, _, ⟨⟨h3, encodableAll_iff.2 h4⟩, rfl⟩, ?_⟩
      simp only [payloadBytes, contractCallBytes, sip005, fnArgs_bytes]
      simp [payloadContractCall]

theorem wf_encodablePayload [Hashes] (p : Payload) (h : WellFormedPayload p) : EncodablePayload p := by
  cases p with
  | tokenTransfer p => exact ⟨wf_encodable _ h.1, h.2⟩
  | contractCall p => exact ⟨h.1, h.2.1, h.2.2.1, fun v hv => wf_encodable v (h.2.2.2 v hv)⟩

theorem mode_eq (m : C32.Mode) : m.toU8 = modeNumber m := by cases m <;> rfl
theorem version_eq (v : TransactionVersion) : v.toU8 = versionNumber v := by cases v <;> rfl
theorem chain_eq (c : ChainID) : c.toU32.toNat = chainNumber c := by cases c <;> rfl
theorem anchor_eq (a : AnchorMode) : a.toU8 = anchorNumber a := by cases a <;> rfl
theorem postMode_eq (m : PostConditionMode) : m.toU8 = postModeNumber m := by cases m <;> rfl

variable [Secp]

theorem field_encode_eq (f : AuthField) : f.encode = fieldBytes f := by cases f <;> rfl

theorem spending_encode_iff (c : Spending) (bs : Bytes) :
    c.encode = .ok bs ↔ SmallSpending c ∧ bs = spendingBytes c := by
  cases c with
  | single c =>
    show Outcome.ok _ = Outcome.ok _ ↔ _
    rw [Outcome.ok.injEq, mode_eq]
    exact ⟨fun h => ⟨trivial, h.symm⟩, fun h => h.2.symm⟩
  | multi c =>
    show c.encode = _ ↔ _
    have hf : c.fields.flatMap AuthField.encode = (c.fields.map fieldBytes).flatten := by
      rw [List.flatMap_def, show AuthField.encode = fieldBytes from funext field_encode_eq]
    unfold MultiSig.encode
    by_cases hl : c.fields.length < 2 ^ 32
    · rw [lenBytes_ok hl, Outcome.ok_bind, Outcome.pure_def, Outcome.ok.injEq, mode_eq, hf]
      exact ⟨fun h => ⟨hl, h.symm⟩, fun h => h.2.symm⟩
    · rw [lenBytes_err hl]
      exact ⟨fun h => by simp at h, fun h => absurd h.1 hl⟩

theorem auth_encode_iff (a : Auth) (bs : Bytes) :
    a.encode = .ok bs ↔ SmallAuth a ∧ bs = authBytes a := by
  cases a with
  | standard o =>
    rw [Auth.encode, Outcome.bind_eq_ok]
    simp only [spending_encode_iff, Outcome.pure_def, Outcome.ok.injEq]
    constructor
    · rintro ⟨_, ⟨h, rfl⟩, rfl⟩; exact ⟨h, rfl⟩
    · rintro ⟨h, rfl⟩; exact ⟨_, ⟨h, rfl⟩, rfl⟩
  | sponsored o s =>
    rw [Auth.encode]
    simp only [Outcome.bind_eq_ok, spending_encode_iff, Outcome.pure_def, Outcome.ok.injEq]
    constructor
    · rintro ⟨_, ⟨h, rfl⟩, _, ⟨h', rfl⟩, rfl⟩; exact ⟨⟨h, h'⟩, rfl⟩
    · rintro ⟨⟨h, h'⟩, rfl⟩; exact ⟨_, ⟨h, rfl⟩, _, ⟨h', rfl⟩, rfl⟩

variable [Hashes]

theorem transaction_encode_iff (t : Transaction) (bs : Bytes) :
    t.encode = .ok bs ↔ (SmallAuth t.auth ∧ EncodableBody t) ∧ bs = transactionBytes t := by
  unfold Transaction.encode
  simp only [Outcome.bind_eq_ok, auth_encode_iff, C42_conditions_layout, payload_encode_iff, Outcome.pure_def,
    Outcome.ok.injEq]
  have e : ∀ t : Transaction, [t.version.toU8] ++ beBytes 4 t.chainId.toU32.toNat ++ authBytes t.auth ++
      [t.anchorMode.toU8] ++ [t.postConditionMode.toU8] ++ conditionsBytes t.postConditions ++
      payloadBytes t.payload = transactionBytes t := by
    intro t
    rw [transactionBytes, version_eq, chain_eq, anchor_eq, postMode_eq]
    simp
  constructor
  · rintro ⟨_, ⟨h1, rfl⟩, _, ⟨h2, h3, rfl⟩, _, ⟨h4, rfl⟩, rfl⟩
    exact ⟨⟨h1, h2, h3, h4⟩, e t⟩
  · rintro ⟨⟨h1, h2, h3, h4⟩, rfl⟩
    exact ⟨_, ⟨h1, rfl⟩, _, ⟨h2, h3, rfl⟩, _, ⟨h4, rfl⟩, e t⟩

omit [Hashes] in
theorem wf_smallAuth (a : Auth) (h : WellFormedAuth a) : SmallAuth a := by
  have hs : ∀ c : Spending, WellFormedSpending c → SmallSpending c := by
    intro c hc
    cases c with
    | single c => trivial
    | multi c => exact hc.2
  cases a with
  | standard o => exact hs o h
  | sponsored o s => exact ⟨hs o h.1, hs s h.2⟩

theorem wf_encodable_tx (t : Transaction) (h : WellFormedTransaction t) : SmallAuth t.auth ∧ EncodableBody t :=
  ⟨wf_smallAuth _ h.1, h.2.1, fun c hc => wf_encodableCondition c (h.2.2.1 c hc), wf_encodablePayload _ h.2.2.2⟩

/-! ## The reader -/

omit [Secp] [Hashes] in
theorem reads_arr {n : Nat} (a : Arr n) : Reads (readArr n) a a.1 := by
  intro rest
  show (if h : n ≤ (a.1 ++ rest).length then _ else _) = _
  rw [dif_pos (by rw [List.length_append, a.2]; omega)]
  rw [List.drop_left' a.2]
  congr 2
  exact Subtype.ext (List.take_left' a.2)

omit [Secp] [Hashes] in
theorem reads_enum {α : Type} (table : List (UInt8 × α)) (b : UInt8) (a : α) (h : table.lookup b = some a) :
    Reads (readEnum table) a [b] := by
  refine Reads.bind (b2 := []) (reads_byte b) ?_
  rw [h]; exact Reads.pure a

omit [Hashes] in
theorem reads_field {parse : Arr 33 → Option Secp.PK} (hp : ∀ k, parse (Secp.serialize k) = some k)
    (f : AuthField) : Reads (readField parse) f (fieldBytes f) := by
  cases f with
  | pk k =>
    refine Reads.bind (b1 := [0]) (reads_byte 0) ?_
    rw [if_pos rfl, ← List.append_nil (Secp.serialize k).1]
    refine Reads.bind (reads_arr (Secp.serialize k)) ?_
    rw [hp]; exact Reads.pure _
  | msg s =>
    refine Reads.bind (b1 := [2]) (reads_byte 2) ?_
    rw [if_neg (by decide), if_pos rfl]
    exact Reads.bindPure (g := fun s => AuthField.msg s) (reads_arr s)

omit [Hashes] in
theorem reads_spending {parse : Arr 33 → Option Secp.PK} (c : Spending)
    (hp : ∀ f ∈ fieldsOf c, Reads (readField parse) f (fieldBytes f)) (h : WellFormedSpending c) : Reads (readSpending parse) c (spendingBytes c) := by
  cases c with
  | single c =>
    obtain ⟨mode, fee, nonce, signer, signature⟩ := c
    rw [spendingBytes]; simp only [List.append_assoc]
    refine Reads.bind (reads_enum _ _ mode (by cases mode <;> rfl)) (Reads.bind (reads_arr signer)
      (Reads.bind (reads_amount nonce) (Reads.bind (reads_amount fee) ?_)))
    rw [if_pos (by exact h)]
    refine Reads.bind (reads_byte 0) ?_
    rw [← List.append_nil signature.1]
    refine Reads.bind (reads_arr signature) ?_
    rw [if_pos rfl]
    simp only [UInt64.ofNat_toNat]
    exact Reads.pure _
  | multi c =>
    obtain ⟨mode, fee, nonce, signer, fields, required⟩ := c
    rw [spendingBytes]; simp only [List.append_assoc]
    refine Reads.bind (reads_enum _ _ mode (by cases mode <;> rfl)) (Reads.bind (reads_arr signer)
      (Reads.bind (reads_amount nonce) (Reads.bind (reads_amount fee) ?_)))
    rw [if_neg (by rcases h.1 with h' | h' <;> (dsimp only at h'; subst h'; decide))]
    refine Reads.bind (reads_nat (by have := h.2; dsimp only at this; norm_num at this ⊢; omega)) ?_
    refine Reads.bind (reads_many fields (fun f hf => hp f hf)) ?_
    rw [← List.append_nil (beBytes 2 required.toNat)]
    refine Reads.bind (reads_nat (by have := required.toNat_lt; norm_num; omega)) ?_
    rw [if_pos (by exact required.toNat_lt)]
    simp only [UInt64.ofNat_toNat, UInt8.ofNat_toNat]
    exact Reads.pure _

omit [Hashes] in
theorem reads_auth {parse : Arr 33 → Option Secp.PK} (a : Auth)
    (hp : ∀ f ∈ authFields a, Reads (readField parse) f (fieldBytes f)) (h : WellFormedAuth a) : Reads (readAuth parse) a (authBytes a) := by
  cases a with
  | standard o =>
    refine Reads.bind (b1 := [4]) (b2 := spendingBytes o) (reads_byte 4) ?_
    rw [← List.append_nil (spendingBytes o)]
    refine Reads.bind (reads_spending o hp h) ?_
    exact Reads.pure _
  | sponsored o s =>
    refine Reads.bind (b1 := [5]) (reads_byte 5) ?_
    refine Reads.bind (reads_spending o (fun f hf => hp f (List.mem_append_left _ hf)) h.1) ?_
    exact Reads.bindPure (g := fun s => Auth.sponsored o s) (reads_spending s (fun f hf => hp f (List.mem_append_right _ hf)) h.2)

omit [Secp] in
theorem reads_payload (p : Payload) (h : WellFormedPayload p) : Reads readPayload (readBack p) (payloadBytes p) := by
  cases p with
  | tokenTransfer p =>
    show Reads _ _ (tokenTransferBytes p)
    have e : tokenTransferBytes p = [0] ++ (sip005 p.address ++ (beBytes 8 p.amount.toNat ++ (memoField p.memo ++ []))) := by
      simp [tokenTransferBytes]
    rw [e]
    refine Reads.bind (reads_byte 0) ?_
    rw [if_pos rfl]
    refine Reads.bind (reads_value p.address h.1) (Reads.bind (reads_amount p.amount) ?_)
    have hm := reads_bytes (memoField p.memo)
    rw [memoField_length _ h.2] at hm
    refine Reads.bind hm ?_
    rw [fromUtf8_eq_some.2 (paddedMemo_bytes p.memo)]
    simp only [UInt64.ofNat_toNat]
    exact Reads.pure _
  | contractCall p =>
    show Reads _ _ (contractCallBytes p)
    have e : contractCallBytes p = [2] ++ ([p.address.version] ++ (p.address.hash.1 ++ (sized8 p.contract ++
        (sized8 p.name ++ (beBytes 4 p.args.length ++ (p.args.map sip005).flatten))))) := by
      simp [contractCallBytes]
    rw [e]
    refine Reads.bind (reads_byte 2) ?_
    rw [if_neg (by decide), if_pos rfl]
    refine Reads.bind (reads_byte _) (Reads.bind (reads_arr _) (Reads.bind (reads_name _ h.1)
      (Reads.bind (reads_name _ h.2.1) (Reads.bind (reads_nat (by have := h.2.2.1; norm_num at this ⊢; omega)) ?_))))
    exact Reads.bindPure (g := fun args => Payload.contractCall ⟨⟨p.address.hash, p.address.version⟩, p.contract, p.name, args⟩)
      (reads_many p.args (fun v hv => reads_value v (h.2.2.2 v hv)))

theorem reads_transaction {parse : Arr 33 → Option Secp.PK} (t : Transaction)
    (hp : ∀ f ∈ authFields t.auth, Reads (readField parse) f (fieldBytes f)) (h : WellFormedTransaction t) :
    Reads (readTransaction parse) { t with payload := readBack t.payload } (transactionBytes t) := by
  obtain ⟨version, chain, auth, anchor, mode, conditions, payload⟩ := t
  have e : transactionBytes ⟨version, chain, auth, anchor, mode, conditions, payload⟩ =
      [versionNumber version] ++ (beBytes 4 (chainNumber chain) ++ (authBytes auth ++ ([anchorNumber anchor] ++
      ([postModeNumber mode] ++ (conditionsBytes conditions ++ (payloadBytes payload ++ [])))))) := by
    simp [transactionBytes]
  rw [e]
  refine Reads.bind (reads_enum _ _ version (by cases version <;> rfl)) ?_
  refine Reads.bind (reads_nat (by cases chain <;> decide)) (Reads.bind (reads_auth auth hp h.1) ?_)
  refine Reads.bind (reads_enum _ _ anchor (by cases anchor <;> rfl)) ?_
  refine Reads.bind (reads_enum _ _ mode (by cases mode <;> rfl)) ?_
  refine Reads.bind (reads_conditions conditions h.2.1 h.2.2.1) (Reads.bind (reads_payload payload h.2.2.2) ?_)
  cases chain
  · exact Reads.pure _
  · exact Reads.pure _

omit [Hashes] in
/-- A parser for public keys exists when serialization is injective. -/
theorem parser_exists [Secp.Lawful] : ∃ parse : Arr 33 → Option Secp.PK, ∀ k, parse (Secp.serialize k) = some k := by
  classical
  refine ⟨fun a => if h : ∃ k, Secp.serialize k = a then some h.choose else none, fun k => ?_⟩
  have h : ∃ k', Secp.serialize k' = Secp.serialize k := ⟨k, rfl⟩
  show (if h : ∃ k', Secp.serialize k' = Secp.serialize k then some h.choose else none) = some k
  rw [dif_pos h, Secp.Lawful.serialize_injective _ _ h.choose_spec]

/-! ## Clearing -/

omit [Hashes] in
theorem spending_reset (c : Spending) : c.reset = clearedSpending c := by cases c <;> rfl

omit [Hashes] in
theorem auth_reset (a : Auth) : a.reset = clearedAuth a := by
  cases a with
  | standard o => rw [Auth.reset, spending_reset]; rfl
  | sponsored o s => rw [Auth.reset, spending_reset]; rfl

omit [Hashes] in
theorem cleared_small (a : Auth) : SmallAuth (clearedAuth a) := by
  have hs : ∀ c : Spending, SmallSpending (clearedSpending c) := by
    intro c; cases c with
    | single c => trivial
    | multi c => show (0 : Nat) < 2 ^ 32; decide
  cases a with
  | standard o => exact hs o
  | sponsored o s => exact ⟨hs o, trivial⟩

/-- The signing hash is the hash of the signing preimage, if the body has an encoding. -/
theorem initialHash_eq (t : Transaction) (h : EncodableBody t) :
    t.initialHash = .ok (Hashes.sha512_256 (signingPreimage t)) := by
  unfold Transaction.initialHash Transaction.hash
  rw [auth_reset]
  have := (transaction_encode_iff { t with auth := clearedAuth t.auth } (signingPreimage t)).2
    ⟨⟨cleared_small _, h⟩, rfl⟩
  rw [this]; rfl

theorem initialHash_iff (t : Transaction) (x : Arr 32) :
    t.initialHash = .ok x ↔ EncodableBody t ∧ x = Hashes.sha512_256 (signingPreimage t) := by
  constructor
  · intro h
    by_cases hb : EncodableBody t
    · rw [initialHash_eq t hb] at h
      exact ⟨hb, (Outcome.ok.inj h).symm⟩
    · exfalso
      unfold Transaction.initialHash Transaction.hash at h
      rw [Outcome.bind_eq_ok] at h
      obtain ⟨bs, h1, _⟩ := h
      rw [Outcome.mapErr_eq_ok] at h1
      exact hb ((transaction_encode_iff _ bs).1 h1).1.2
  · rintro ⟨hb, rfl⟩; exact initialHash_eq t hb

end Stacks.Tx

import Mathlib.Logic.Relation
import Verif.Proofs.TxLemmas
import Verif.Props.Condition
import Verif.Concrete.ToySecp

/-! # Properties C43 - C46 and C48: transactions -/

namespace Stacks.Tx
open Stacks.Spec Stacks.Clarity

section
variable [Secp] [Hashes]

/-- **C43** A transaction encodes exactly when its post-conditions and payload are encodable and it
has fewer than 2^32 authorization fields, and then to SIP-005's bytes. -/
theorem C43_transaction_layout (t : Transaction) (bs : Bytes) :
    t.encode = .ok bs ↔ (SmallAuth t.auth ∧ EncodableBody t) ∧ bs = transactionBytes t :=
  transaction_encode_iff t bs

/-- **C43** An independent reader recovers every part of a well-formed transaction from its encoding
followed by any bytes (the memo comes back padded, see C40). `parse` is any parser of serialized
public keys. -/
theorem C43_reader_recovers (parse : Arr 33 → Option Secp.PK) (hp : ∀ k, parse (Secp.serialize k) = some k)
    (t : Transaction) (h : WellFormedTransaction t) (rest : Bytes) :
    ∃ bs, t.encode = .ok bs ∧
      (readTransaction parse).run (bs ++ rest) = some ({ t with payload := readBack t.payload }, rest) :=
  ⟨_, (transaction_encode_iff t _).2 ⟨wf_encodable_tx t h, rfl⟩,
    reads_transaction t (fun f _ => reads_field hp f) h rest⟩

/-- **C43** No encoding is a prefix of another transaction's. -/
theorem C43_prefix_free [Secp.Lawful] (t t' : Transaction) (h : WellFormedTransaction t)
    (h' : WellFormedTransaction t') (bs bs' : Bytes) (e : t.encode = .ok bs) (e' : t'.encode = .ok bs')
    (hpre : bs <+: bs') :
    { t with payload := readBack t.payload } = { t' with payload := readBack t'.payload } := by
  obtain ⟨parse, hp⟩ := (parser_exists : ∃ parse : Arr 33 → Option Secp.PK, _)
  obtain ⟨b1, e1, r1⟩ := C43_reader_recovers parse hp t h (bs'.drop bs.length)
  obtain ⟨b2, e2, r2⟩ := C43_reader_recovers parse hp t' h' []
  obtain rfl := Outcome.ok.inj (e1.symm.trans e)
  obtain rfl := Outcome.ok.inj (e2.symm.trans e')
  rw [List.append_nil] at r2
  have hb : b1 ++ b2.drop b1.length = b2 := by
    obtain ⟨r, rfl⟩ := hpre; simp
  rw [hb] at r1
  exact (Prod.mk.inj (Option.some.inj (r1.symm.trans r2))).1

/-- **C43** Different well-formed transactions have different encodings (memos that end in a NUL
character are set apart, because the memo field is padded with NULs). -/
theorem C43_injective [Secp.Lawful] (t t' : Transaction) (h : WellFormedTransaction t)
    (h' : WellFormedTransaction t') (hm : MemoUnpadded t.payload) (hm' : MemoUnpadded t'.payload)
    (he : t.encode = t'.encode) : t = t' := by
  have e := (transaction_encode_iff t _).2 ⟨wf_encodable_tx t h, rfl⟩
  have hh := C43_prefix_free t t' h h' _ _ e (he ▸ e) (List.prefix_refl _)
  obtain ⟨v, c, a, am, pm, pcs, p⟩ := t
  obtain ⟨v', c', a', am', pm', pcs', p'⟩ := t'
  simp only [Transaction.mk.injEq] at hh ⊢
  obtain ⟨rfl, rfl, rfl, rfl, rfl, rfl, hp⟩ := hh
  exact ⟨rfl, rfl, rfl, rfl, rfl, rfl, readBack_inj p p' hm hm' hp⟩

/-- **C43** Encoding never panics. -/
theorem C43_no_panic (t : Transaction) : t.encode ≠ .panic := transaction_encode_no_panic t

/-! ## C44 -/

/-- **C44** No sequence of calls changes the signing hash, nor whether there is one. -/
theorem C44_hash_invariant (t t' : Transaction) (h : Relation.ReflTransGen Step t t') :
    t'.initialHash = t.initialHash := by
  have key : ∀ t t' : Transaction, Step t t' →
      { t' with auth := t'.auth.reset } = { t with auth := t.auth.reset } := by
    intro t t' h
    obtain ⟨ha, h1, h2, h3, h4, h5, h6⟩ := step_cleared t t' h
    obtain ⟨v, c, a, am, pm, pcs, p⟩ := t
    obtain ⟨v', c', a', am', pm', pcs', p'⟩ := t'
    simp only [] at ha h1 h2 h3 h4 h5 h6
    subst h1 h2 h3 h4 h5 h6
    simp only [auth_reset, ha]
  induction h with
  | refl => rfl
  | tail _ hs ih =>
    rw [← ih]
    unfold Transaction.initialHash
    rw [key _ _ hs]

/-- **C44** The signing hash is SHA-512/256 of the encoding without fee, nonce, signatures and
sponsor. -/
theorem C44_hash_of_preimage (t : Transaction) (x : Arr 32) :
    t.initialHash = .ok x ↔ EncodableBody t ∧ x = Hashes.sha512_256 (signingPreimage t) :=
  initialHash_iff t x

/-- **C44** The preimage determines everything else the transaction says. -/
theorem C44_preimage_determines (t t' : Transaction) (h : WellFormedTransaction t) (h' : WellFormedTransaction t')
    (he : signingPreimage t = signingPreimage t') : signedContent t = signedContent t' := by
  have r : ∀ t : Transaction, WellFormedTransaction t → (readTransaction (fun _ => none)).run (signingPreimage t) =
      some ({ t with auth := clearedAuth t.auth, payload := readBack t.payload }, []) := by
    intro t h
    have := reads_transaction (parse := fun _ => none) { t with auth := clearedAuth t.auth }
      (by rw [cleared_fields]; intro f hf; cases hf) ⟨cleared_wf t.auth h.1, h.2⟩ []
    rwa [List.append_nil] at this
  have h1 := r t h
  rw [he, r t' h'] at h1
  have h2 := (Prod.mk.inj (Option.some.inj h1)).1
  simp only [Transaction.mk.injEq] at h2
  obtain ⟨hv, hc, ha, hm, hpm, hpc, hp⟩ := h2
  obtain ⟨h3, h4, h5, h6⟩ := cleared_content ha
  unfold signedContent
  rw [hv, hc, hm, hpm, hpc, hp, h3, h4, h5, h6]

/-- **C44** So two transactions with the same signing hash agree on that, or collide in SHA-512/256. -/
theorem C44_hash_determines (t t' : Transaction) (h : WellFormedTransaction t) (h' : WellFormedTransaction t')
    (he : t.initialHash = t'.initialHash) :
    signedContent t = signedContent t' ∨
      (signingPreimage t ≠ signingPreimage t' ∧
        Hashes.sha512_256 (signingPreimage t) = Hashes.sha512_256 (signingPreimage t')) := by
  rw [initialHash_eq t (wf_encodable_tx t h).2, initialHash_eq t' (wf_encodable_tx t' h').2] at he
  by_cases hp : signingPreimage t = signingPreimage t'
  · exact .inl (C44_preimage_determines t t' h h' hp)
  · exact .inr ⟨hp, Outcome.ok.inj he⟩

/-! ## C45 -/

omit [Hashes] in
/-- **C45** `set_fee` sets the origin's fee; nothing else differs. -/
theorem C45_set_fee (t : Transaction) (x : UInt64) :
    (t.setFee x).auth.origin.fee = x ∧ (t.setFee x).auth.origin.nonce = t.auth.origin.nonce ∧
    OtherwiseEqual (t.setFee x) t := by
  obtain ⟨v, c, a, am, pm, pcs, p⟩ := t
  rcases a with (c | c) | ⟨c | c, s⟩ <;> exact ⟨rfl, rfl, rfl, rfl, rfl, rfl, rfl, rfl, rfl, rfl, rfl, rfl, rfl, rfl⟩

omit [Hashes] in
/-- **C45** `set_nonce` sets the origin's nonce; nothing else differs. -/
theorem C45_set_nonce (t : Transaction) (x : UInt64) :
    (t.setNonce x).auth.origin.nonce = x ∧ (t.setNonce x).auth.origin.fee = t.auth.origin.fee ∧
    OtherwiseEqual (t.setNonce x) t := by
  obtain ⟨v, c, a, am, pm, pcs, p⟩ := t
  rcases a with (c | c) | ⟨c | c, s⟩ <;> exact ⟨rfl, rfl, rfl, rfl, rfl, rfl, rfl, rfl, rfl, rfl, rfl, rfl, rfl, rfl⟩

omit [Hashes] in
/-- **C45** After any sequence of the two, fee and nonce are those last written, and everything
else, the sponsor in particular, is as it was. -/
theorem C45_last_write_wins (ss : List Setter) : ∀ t : Transaction,
    (runSetters t ss).auth.origin.fee = lastFee t.auth.origin.fee ss ∧
    (runSetters t ss).auth.origin.nonce = lastNonce t.auth.origin.nonce ss ∧
    OtherwiseEqual (runSetters t ss) t := by
  induction ss with
  | nil => intro t; exact ⟨rfl, rfl, rfl, rfl, rfl, rfl, rfl, rfl, rfl, rfl, rfl, rfl, rfl, rfl⟩
  | cons s ss ih =>
    intro t
    cases s with
    | fee x =>
      obtain ⟨h1, h2, h3⟩ := ih (t.setFee x)
      obtain ⟨g1, g2, g3⟩ := C45_set_fee t x
      rw [g1] at h1; rw [g2] at h2
      exact ⟨h1, h2, otherwiseEqual_trans h3 g3⟩
    | nonce x =>
      obtain ⟨h1, h2, h3⟩ := ih (t.setNonce x)
      obtain ⟨g1, g2, g3⟩ := C45_set_nonce t x
      rw [g2] at h1; rw [g1] at h2
      exact ⟨h1, h2, otherwiseEqual_trans h3 g3⟩

omit [Hashes] in
/-- **C45** The order of the two does not matter, and the last write wins. -/
theorem C45_commute (t : Transaction) (f f' n n' : UInt64) :
    (t.setFee f).setNonce n = (t.setNonce n).setFee f ∧ (t.setFee f').setFee f = t.setFee f ∧
    (t.setNonce n').setNonce n = t.setNonce n := by
  obtain ⟨v, c, a, am, pm, pcs, p⟩ := t
  rcases a with (c | c) | ⟨c | c, s⟩ <;> exact ⟨rfl, rfl, rfl⟩

/-- **C45** On the wire: `set_fee` overwrites the 8 bytes at offset 35. -/
theorem C45_set_fee_bytes (t : Transaction) (x : UInt64) (bs : Bytes) (h : t.encode = .ok bs) :
    (t.setFee x).encode = .ok (bs.take 35 ++ beBytes 8 x.toNat ++ bs.drop 43) := by
  obtain ⟨⟨hs, hb⟩, rfl⟩ := (transaction_encode_iff t bs).1 h
  have hs' : SmallAuth (t.setFee x).auth := by
    obtain ⟨v, c, a, am, pm, pcs, p⟩ := t
    rcases a with (c | c) | ⟨c | c, s⟩ <;> exact hs
  refine (transaction_encode_iff _ _).2 ⟨⟨hs', hb⟩, ?_⟩
  rw [transaction_split t, transaction_split (t.setFee x), (C45_set_fee t x).1, (C45_set_fee t x).2.1]
  have e1 : txHead (t.setFee x) = txHead t := by
    obtain ⟨v, c, a, am, pm, pcs, p⟩ := t
    rcases a with (c | c) | ⟨c | c, s⟩ <;> rfl
  have e2 : spendingTail (t.setFee x).auth.origin = spendingTail t.auth.origin := by
    obtain ⟨v, c, a, am, pm, pcs, p⟩ := t
    rcases a with (c | c) | ⟨c | c, s⟩ <;> rfl
  have e3 : txTail (t.setFee x) = txTail t := by
    obtain ⟨v, c, a, am, pm, pcs, p⟩ := t
    rcases a with (c | c) | ⟨c | c, s⟩ <;> rfl
  rw [e1, e2, e3]
  have := splice (txHead t ++ beBytes 8 t.auth.origin.nonce.toNat) (beBytes 8 t.auth.origin.fee.toNat)
    (beBytes 8 x.toNat) (spendingTail t.auth.origin ++ txTail t) (n := 35) (m := 43) (by simp [txHead_length]) (by simp)
  simpa only [List.append_assoc] using this.symm

/-- **C45** On the wire: `set_nonce` overwrites the 8 bytes at offset 27. -/
theorem C45_set_nonce_bytes (t : Transaction) (x : UInt64) (bs : Bytes) (h : t.encode = .ok bs) :
    (t.setNonce x).encode = .ok (bs.take 27 ++ beBytes 8 x.toNat ++ bs.drop 35) := by
  obtain ⟨⟨hs, hb⟩, rfl⟩ := (transaction_encode_iff t bs).1 h
  have hs' : SmallAuth (t.setNonce x).auth := by
    obtain ⟨v, c, a, am, pm, pcs, p⟩ := t
    rcases a with (c | c) | ⟨c | c, s⟩ <;> exact hs
  refine (transaction_encode_iff _ _).2 ⟨⟨hs', hb⟩, ?_⟩
  rw [transaction_split t, transaction_split (t.setNonce x), (C45_set_nonce t x).1, (C45_set_nonce t x).2.1]
  have e1 : txHead (t.setNonce x) = txHead t := by
    obtain ⟨v, c, a, am, pm, pcs, p⟩ := t
    rcases a with (c | c) | ⟨c | c, s⟩ <;> rfl
  have e2 : spendingTail (t.setNonce x).auth.origin = spendingTail t.auth.origin := by
    obtain ⟨v, c, a, am, pm, pcs, p⟩ := t
    rcases a with (c | c) | ⟨c | c, s⟩ <;> rfl
  have e3 : txTail (t.setNonce x) = txTail t := by
    obtain ⟨v, c, a, am, pm, pcs, p⟩ := t
    rcases a with (c | c) | ⟨c | c, s⟩ <;> rfl
  rw [e1, e2, e3]
  have := splice (txHead t) (beBytes 8 t.auth.origin.nonce.toNat) (beBytes 8 x.toNat)
    (beBytes 8 t.auth.origin.fee.toNat ++ spendingTail t.auth.origin ++ txTail t) (n := 27) (m := 35)
    (by simp [txHead_length]) (by simp)
  simpa only [List.append_assoc] using this.symm

/-! ## C46 and C48 -/

/-- **C48** What `sign` does on success: nothing but the origin's signature differs. -/
theorem C48_only_signature (t t' : Transaction) (k : Secp.SK) (h : t.sign k = .ok t') :
    t'.version = t.version ∧ t'.chainId = t.chainId ∧ t'.anchorMode = t.anchorMode ∧
    t'.postConditionMode = t.postConditionMode ∧ t'.postConditions = t.postConditions ∧
    t'.payload = t.payload ∧ t'.auth.sponsor = t.auth.sponsor ∧ t'.auth.origin.fee = t.auth.origin.fee ∧
    t'.auth.origin.nonce = t.auth.origin.nonce ∧ t'.auth.origin.mode = t.auth.origin.mode ∧
    signerOf t'.auth.origin = signerOf t.auth.origin ∧ requiredOf t'.auth.origin = requiredOf t.auth.origin ∧
    ∃ sig, t'.auth.origin = withSignature t.auth.origin sig := by
  obtain ⟨_, _, _, rfl⟩ := (sign_iff _ _ _).1 h
  simp only [origin_setOrigin, sponsor_setOrigin, signed_fee, signed_nonce, signed_mode, signed_signer,
    signed_required, true_and]
  exact ⟨_, rfl⟩

/-- **C48** On the wire: signing a single-signature transaction overwrites the 65 bytes at offset 44
by the signature of the message that fee, nonce and signing hash determine. -/
theorem C48_sign_bytes (t t' : Transaction) (k : Secp.SK) (c : SingleSig) (h : t.sign k = .ok t')
    (hc : t.auth.origin = .single c) (bs : Bytes) (hb : t.encode = .ok bs) :
    t'.encode = .ok (bs.take 44 ++
      (signatureBytes (presignDigest (Hashes.sha512_256 (signingPreimage t)) 4 c.fee c.nonce) k).1 ++
      bs.drop 109) := by
  obtain ⟨_, _, _, rfl⟩ := (sign_iff _ _ _).1 h
  obtain ⟨⟨hs, hb'⟩, rfl⟩ := (transaction_encode_iff t bs).1 hb
  rw [hc]
  show _ = Outcome.ok (_ ++ Subtype.val (signatureBytes (presignDigest (Hashes.sha512_256 (signingPreimage t)) 4
    (Spending.single c).fee (Spending.single c).nonce) k) ++ _)
  generalize signatureBytes _ k = sig
  refine (transaction_encode_iff _ _).2 ⟨⟨?_, hb'⟩, ?_⟩
  · cases ha : t.auth with
    | standard o => trivial
    | sponsored o s => rw [ha] at hs; exact ⟨trivial, hs.2⟩
  rw [transaction_split t, transaction_split { t with auth := _ }, hc]
  have e1 : txHead { t with auth := t.auth.setOrigin (withSignature (.single c) sig) } = txHead t := by
    unfold txHead
    simp only [origin_setOrigin, isSponsored_setOrigin, hc]; rfl
  have e3 : txTail { t with auth := t.auth.setOrigin (withSignature (.single c) sig) } = txTail t := by
    unfold txTail
    cases ha : t.auth <;> rfl
  rw [e1, e3]
  simp only [origin_setOrigin, withSignature, spendingTail, Spending.nonce, Spending.fee]
  have := splice (txHead t ++ beBytes 8 c.nonce.toNat ++ beBytes 8 c.fee.toNat ++ [0x00]) c.signature.1 sig.1 (txTail t)
    (n := 44) (m := 109) (by simp [txHead_length]) (by simp [c.signature.2])
  simpa only [List.append_assoc] using this.symm

/-- **C48** An already signed transaction is not signed again. -/
theorem C48_no_second_signature (t : Transaction) (k : Secp.SK) (c : SingleSig) (hb : EncodableBody t)
    (hc : t.auth.origin = .single c) (hs : c.signature ≠ noSignature) : t.sign k = .err .originOversign := by
  unfold Transaction.sign
  rw [(signer_new_iff t _).2 ⟨hb, rfl⟩, Outcome.ok_bind, signOrigin_eq]
  have h1 : signatureCount t.auth.origin = 1 := by rw [hc]; exact if_neg hs
  have h2 : requiredCount t.auth.origin = 1 := by rw [hc]; rfl
  simp only []
  rw [if_neg (by simp), if_neg (by omega), if_pos (by rw [h1, h2]; simp)]; rfl

/-- **C48** So signing twice fails, unless the first signature consists of zeros. -/
theorem C48_sign_twice (t t' : Transaction) (k k' : Secp.SK) (c : SingleSig) (h : t.sign k = .ok t')
    (hc : t.auth.origin = .single c)
    (hz : ∀ m : Arr 32, (Secp.compact (Secp.sign m k)).2.1 ≠ List.replicate 64 0) :
    t'.sign k' = .err .originOversign := by
  obtain ⟨hb, _, _, rfl⟩ := (sign_iff _ _ _).1 h
  refine C48_no_second_signature _ k' _ hb (by rw [origin_setOrigin, hc]; rfl) ?_
  intro he
  have h1 := congrArg Subtype.val he
  exact hz _ (List.cons.inj h1).2

/-- **C48** When `sign` succeeds, and that it never panics on a single-signature transaction. -/
theorem C48_sign_iff (t : Transaction) (k : Secp.SK) (c : SingleSig) (hc : t.auth.origin = .single c) :
    ((∃ t', t.sign k = .ok t') ↔
      EncodableBody t ∧ c.signature = noSignature ∧ (c.mode = .p2pkh ∨ c.mode = .p2wpkh)) ∧
    t.sign k ≠ .panic := by
  have hn : signatureCount (.single c) < requiredCount (.single c) ↔ c.signature = noSignature := by
    show (if c.signature = noSignature then 0 else 1) < 1 ↔ _
    split <;> simp [*]
  constructor
  · simp only [sign_iff, hc]
    constructor
    · rintro ⟨_, h1, h2, h3, _⟩; exact ⟨h1, hn.1 h2, h3⟩
    · rintro ⟨h1, h2, h3⟩; exact ⟨_, h1, hn.2 h2, h3, rfl⟩
  · unfold Transaction.sign
    cases hs : Signer.new t with
    | ok s =>
      obtain ⟨_, rfl⟩ := (signer_new_iff t s).1 hs
      rw [Outcome.ok_bind, signOrigin_eq]
      refine bind_ne_panic _ _ ?_ (fun s => by simp)
      have h1 : signatureCount t.auth.origin ≤ 1 := by
        rw [hc]; show (if c.signature = noSignature then 0 else 1) ≤ 1; split <;> omega
      simp only []
      rw [if_neg (by simp), if_neg (by omega)]
      split <;> [skip; split] <;> simp
    | err e => simp
    | panic => exact absurd hs (bind_ne_panic _ _ (initialHash_no_panic t) (fun a => by simp))

/-- **C46** Signing a single-signature transaction does not change the length of its encoding. -/
theorem C46_sign_length (t t' : Transaction) (k : Secp.SK) (c : SingleSig) (h : t.sign k = .ok t')
    (hc : t.auth.origin = .single c) (bs : Bytes) (hb : t.encode = .ok bs) :
    ∃ bs', t'.encode = .ok bs' ∧ bs'.length = bs.length := by
  refine ⟨_, C48_sign_bytes t t' k c h hc bs hb, ?_⟩
  obtain ⟨_, rfl⟩ := (transaction_encode_iff t bs).1 hb
  have hl : 109 ≤ (transactionBytes t).length := by
    rw [transaction_split, hc]
    simp [txHead_length, spendingTail, c.signature.2]
    omega
  simp [(signatureBytes _ k).2]
  omega

/-- **C46** Nor does any sequence of `set_fee` and `set_nonce`. -/
theorem C46_setters_length (ss : List Setter) : ∀ (t : Transaction) (bs : Bytes), t.encode = .ok bs →
    ∃ bs', (runSetters t ss).encode = .ok bs' ∧ bs'.length = bs.length := by
  induction ss with
  | nil => intro t bs h; exact ⟨bs, h, rfl⟩
  | cons s ss ih =>
    intro t bs h
    have hl : 43 ≤ bs.length := by
      obtain ⟨_, rfl⟩ := (transaction_encode_iff t bs).1 h
      rw [transaction_split]; simp [txHead_length]; omega
    cases s with
    | fee x =>
      obtain ⟨bs', h1, h2⟩ := ih _ _ (C45_set_fee_bytes t x bs h)
      refine ⟨bs', h1, h2.trans ?_⟩
      simp; omega
    | nonce x =>
      obtain ⟨bs', h1, h2⟩ := ih _ _ (C45_set_nonce_bytes t x bs h)
      refine ⟨bs', h1, h2.trans ?_⟩
      simp; omega

/-- **C46** For several signatures the growth is known: 66 bytes for each signature and 34 bytes for
each public key added to the origin. -/
theorem C46_multisig_growth (t : Transaction) (c : MultiSig) (hc : t.auth.origin = .multi c)
    (hl : c.fields.length + 1 < 2 ^ 32) (bs : Bytes) (hb : t.encode = .ok bs) (f : AuthField) :
    ∃ bs', Transaction.encode { t with auth := t.auth.setOrigin (.multi { c with fields := c.fields ++ [f] }) } = .ok bs' ∧
      bs'.length = bs.length + (match f with | .msg _ => 66 | .pk _ => 34) := by
  obtain ⟨⟨hs, hb'⟩, rfl⟩ := (transaction_encode_iff t bs).1 hb
  refine ⟨_, (transaction_encode_iff _ _).2 ⟨⟨?_, hb'⟩, rfl⟩, ?_⟩
  · have : (c.fields ++ [f]).length < 2 ^ 32 := by simpa using hl
    cases ha : t.auth with
    | standard o => exact this
    | sponsored o s => rw [ha] at hs; exact ⟨this, hs.2⟩
  · rw [transaction_split t, transaction_split { t with auth := _ }, hc]
    have e3 : txTail { t with auth := t.auth.setOrigin (.multi { c with fields := c.fields ++ [f] }) } = txTail t := by
      unfold txTail
      cases ha : t.auth <;> rfl
    rw [e3]
    simp only [origin_setOrigin, List.length_append, txHead_length, spendingTail, beBytes_length, List.map_append,
      List.flatten_append, List.map_cons, List.map_nil, List.flatten_cons, List.flatten_nil, List.length_nil]
    cases f with
    | pk k => simp only [fieldBytes, List.length_cons, (Secp.serialize k).2]; omega
    | msg s => simp only [fieldBytes, List.length_cons, s.2]; omega

end

/-! ## Examples -/

section
attribute [local instance] Concrete.realHashes Concrete.toySecp
local instance : Secp.Lawful := Concrete.toyLawful

/-- A key of the toy scheme. -/
def exKey (n : UInt8) : Arr 32 := ⟨List.replicate 32 n, by simp⟩

/-- An origin with one signature. -/
def exSingle : SingleSig := ⟨.p2pkh, 180, 5, hash160Of (Secp.serialize (Secp.pub (exKey 1))).1, noSignature⟩

/-- An unsigned transfer with one signature. -/
def exTx : Transaction :=
  ⟨.testnet, .testnet, .standard (.single exSingle), .any, .deny, exConditions, .tokenTransfer exTransfer⟩

/-- An origin with three fields, of which one is a signature. -/
def exMulti : MultiSig :=
  ⟨.p2sh, 180, 5, zeros 20, [.pk (exKey 1), .msg ⟨List.replicate 65 7, by simp⟩, .pk (exKey 2)], 2⟩

/-- A sponsored contract call. -/
def exTx2 : Transaction :=
  ⟨.mainnet, .mainnet, .sponsored (.multi exMulti) (.single exSingle), .strict, .allow, exConditions,
    .contractCall exCall⟩

theorem exTx_wf : WellFormedTransaction exTx :=
  ⟨.inl rfl, by decide, exConditions_wf, exTransfer_wf⟩

theorem exTx2_wf : WellFormedTransaction exTx2 :=
  ⟨⟨⟨.inl rfl, by decide⟩, .inl rfl⟩, by decide, exConditions_wf, exCall_wf⟩

theorem exTx_memo : MemoUnpadded exTx.payload := by
  show exTransfer.memo.getLast? ≠ some '\x00'
  decide +kernel

/-- C43. -/
example : ∃ parse : Arr 33 → Option (Arr 32), ∀ k : Arr 32, parse (Secp.serialize k) = some k := parser_exists
example : MemoUnpadded exTx.payload ∧ MemoUnpadded exTx2.payload := ⟨exTx_memo, trivial⟩
example : exTx.encode ≠ exTx2.encode := fun h => by
  have := C43_injective exTx exTx2 exTx_wf exTx2_wf exTx_memo trivial h
  exact absurd (congrArg Transaction.version this) (by decide)

/-- C43: the first bytes of the transfer. -/
example : (exTx.encode >>= fun bs => .ok (bs.take 7)) = .ok [0x80, 0x80, 0x00, 0x00, 0x00, 0x04, 0x00] := by
  decide +kernel

/-- C44: a signing hash exists, and some steps. -/
example : ∃ x, exTx.initialHash = .ok x := ⟨_, initialHash_eq _ (wf_encodable_tx _ exTx_wf).2⟩
example : Relation.ReflTransGen Step exTx ((exTx.setFee 7).setNonce 9) :=
  .tail (.tail .refl (.setFee _ 7)) (.setNonce _ 9)
example : ∃ t', Relation.ReflTransGen Step (exTx.setFee 7) t' ∧ t'.auth.origin.fee = 7 ∧
    signatureCount t'.auth.origin = 1 := by
  obtain ⟨t', h⟩ := ((C48_sign_iff (exTx.setFee 7) (exKey 1) { exSingle with fee := 7 } rfl).1).2
    ⟨(wf_encodable_tx _ exTx_wf).2, rfl, .inl rfl⟩
  refine ⟨t', .single (.sign _ _ _ h), (C48_only_signature _ _ _ h).2.2.2.2.2.2.2.1, ?_⟩
  obtain ⟨_, _, _, rfl⟩ := (sign_iff _ _ _).1 h
  rw [origin_setOrigin]
  generalize presignDigest _ _ _ _ = d
  have e : ∀ sig, signatureCount (withSignature (exTx.setFee 7).auth.origin sig) =
    if sig = noSignature then 0 else 1 := fun _ => rfl
  rw [e, if_neg (fun he => ?_)]
  have h1 : ([0, 1] : Bytes) = [0, 0] := congrArg (fun a : Arr 65 => a.1.take 2) he
  exact absurd h1 (by decide)

/-- C45, C46. -/
example : ∃ bs, exTx2.encode = .ok bs := ⟨_, (transaction_encode_iff _ _).2 ⟨wf_encodable_tx _ exTx2_wf, rfl⟩⟩
example : (runSetters exTx2 [.fee 1, .nonce 2, .fee 3]).auth.origin.fee = 3 := rfl
example : exTx2.auth.origin = .multi exMulti ∧ exMulti.fields.length + 1 < 2 ^ 32 := ⟨rfl, by decide⟩

/-- C48: signing succeeds, and no signature of the toy scheme with this key consists of zeros. -/
example : ∃ t', exTx.sign (exKey 1) = .ok t' :=
  ((C48_sign_iff exTx (exKey 1) exSingle rfl).1).2 ⟨(wf_encodable_tx _ exTx_wf).2, rfl, .inl rfl⟩
example : ∀ m : Arr 32, (Secp.compact (Secp.sign m (exKey 1))).2.1 ≠ List.replicate 64 0 := by
  intro m h
  have h1 : ([1] : Bytes) = [0] := congrArg (List.take 1) h
  exact absurd h1 (by decide)

end

end Stacks.Tx

import Verif.Spec.TxId
import Verif.Proofs.ReturnsTx
import Verif.Props.Hex
import Verif.Proofs.HashValue
import Verif.Props.EcdsaVerify
import Verif.Props.Mixed

/-! # C129: a transaction's id stands for the transaction -/

namespace Stacks.Tx
open Stacks.Spec Stacks.Clarity Stacks.Rpc

section
variable [Secp] [Hashes]

/-- **C129** `Transaction::hash` is SHA-512/256 of the whole encoding, and exists exactly when the encoding does. -/
theorem C129_id_exactly (t : Transaction) (x : Arr 32) :
    t.hash = .ok x ↔ (SmallAuth t.auth ∧ EncodableBody t) ∧ x = Hashes.sha512_256 (transactionBytes t) :=
  hash_ok_iff t x

/-- **C129** Two well-formed transactions with the same id are equal, or SHA-512/256 collides on their encodings (memos
that end in a NUL character are set apart, see C40). -/
theorem C129_identifies [Secp.Lawful] (t t' : Transaction) (h : WellFormedTransaction t)
    (h' : WellFormedTransaction t') (hm : MemoUnpadded t.payload) (hm' : MemoUnpadded t'.payload)
    (he : t.hash = t'.hash) : t = t' ∨ Collision (transactionBytes t) (transactionBytes t') := by
  have h1 := (hash_ok_iff t _).2 ⟨wf_encodable_tx t h, rfl⟩
  have h2 := (hash_ok_iff t' _).2 ⟨wf_encodable_tx t' h', rfl⟩
  rw [h1, h2] at he
  by_cases hb : transactionBytes t = transactionBytes t'
  · refine .inl (C43_injective t t' h h' hm hm' ?_)
    rw [(C43_transaction_layout t _).2 ⟨wf_encodable_tx t h, rfl⟩,
      (C43_transaction_layout t' _).2 ⟨wf_encodable_tx t' h', rfl⟩, hb]
  · exact .inr ⟨hb, Outcome.ok.inj he⟩

/-- **C129** Any two transactions with the same id have the same encoding, or SHA-512/256 collides. In particular the
accounts, fees and nonces of their origins are the same. -/
theorem C129_same_id (t t' : Transaction) (x : Arr 32) (h : t.hash = .ok x) (h' : t'.hash = .ok x) :
    (t.encode = t'.encode ∧ feeOf (originOf t.auth) = feeOf (originOf t'.auth) ∧
      nonceOf (originOf t.auth) = nonceOf (originOf t'.auth) ∧
      signerOf (originOf t.auth) = signerOf (originOf t'.auth)) ∨
    Collision (transactionBytes t) (transactionBytes t') := by
  obtain ⟨w, rfl⟩ := (hash_ok_iff t x).1 h
  obtain ⟨w', e⟩ := (hash_ok_iff t' _).1 h'
  by_cases hb : transactionBytes t = transactionBytes t'
  · refine .inl ⟨?_, ?_⟩
    · rw [(C43_transaction_layout t _).2 ⟨w, rfl⟩, (C43_transaction_layout t' _).2 ⟨w', rfl⟩, hb]
    · have h3 := hb
      rw [transaction_split t, transaction_split t'] at h3
      simp only [List.append_assoc] at h3
      obtain ⟨h8, h4⟩ := List.append_inj h3 (by rw [txHead_length, txHead_length])
      obtain ⟨h5, h6⟩ := List.append_inj h4 (by simp)
      obtain ⟨h7, _⟩ := List.append_inj h6 (by simp)
      have hn := UInt64.toNat_inj.1 (beBytes_inj (n := 8) (UInt64.toNat_lt _) (UInt64.toNat_lt _) h5)
      have hf := UInt64.toNat_inj.1 (beBytes_inj (n := 8) (UInt64.toNat_lt _) (UInt64.toNat_lt _) h7)
      have eo : ∀ u : Transaction, originOf u.auth = u.auth.origin := fun u => by cases u.auth <;> rfl
      have ef : ∀ s : Spending, feeOf s = s.fee := fun s => by cases s <;> rfl
      have en : ∀ s : Spending, nonceOf s = s.nonce := fun s => by cases s <;> rfl
      rw [eo, eo, ef, ef, en, en]
      refine ⟨hf, hn, Subtype.ext ?_⟩
      unfold txHead at h8
      exact (List.append_inj' h8 (by rw [(signerOf _).2, (signerOf _).2])).2
  · exact .inr ⟨hb, e⟩

/-- **C129** Of the transactions that a node took, in which the nonce of each account is the number of earlier ones it took
part in, no two have the same id, or SHA-512/256 collides. -/
theorem C129_history (ts : List Transaction) (h : AllNumbered ts) (pre mid post : List Transaction) (a b : Transaction)
    (he : ts = pre ++ a :: mid ++ b :: post) (x : Arr 32) (ha : a.hash = .ok x) (hb : b.hash = .ok x) :
    Collision (transactionBytes a) (transactionBytes b) := by
  refine (C129_same_id a b x ha hb).resolve_left fun ⟨_, _, h1, h2⟩ => ?_
  have key : ∀ u : Transaction, (signerOf (originOf u.auth), nonceOf (originOf u.auth)) ∈ takingPart u.auth := by
    intro u
    rcases u.auth with (c | c) | ⟨c | c, s⟩ <;> exact List.mem_cons_self ..
  have := (C127_at_most_once ts h pre mid post a b he).1 _ _ _ (key a) (h2 ▸ key b)
  rw [h1] at this
  exact absurd this (UInt64.lt_irrefl _)

/-- **C129** Whoever reads a well-formed transaction from its bytes, and knows how keys are written, computes the
same id from what they read. -/
theorem C129_reader_agrees (parse : Arr 33 → Option Secp.PK) (hp : ∀ k, parse (Secp.serialize k) = some k)
    (t : Transaction) (h : WellFormedTransaction t) :
    ∃ bs t' x, t.encode = .ok bs ∧ (readTransaction parse).run bs = some (t', []) ∧ t.hash = .ok x ∧
      t'.hash = .ok x := by
  obtain ⟨bs, h1, h2⟩ := C43_reader_recovers parse hp t h []
  rw [List.append_nil] at h2
  refine ⟨bs, _, _, h1, h2, (hash_ok_iff t _).2 ⟨wf_encodable_tx t h, rfl⟩, ?_⟩
  obtain ⟨w1, w2⟩ := wf_encodable_tx t h
  have hb : payloadBytes (readBack t.payload) = payloadBytes t.payload ∧ EncodablePayload (readBack t.payload) := by
    have hw := h.2.2.2
    obtain ⟨v, c, a, am, pm, pcs, p⟩ := t
    cases p with
    | contractCall p => exact ⟨rfl, w2.2.2⟩
    | tokenTransfer p =>
      refine ⟨?_, w2.2.2.1, ?_⟩
      · show tokenTransferBytes _ = tokenTransferBytes _
        unfold tokenTransferBytes
        dsimp only
        rw [memoField_padded p.memo hw.2]
      · show (paddedMemo p.memo).bytes.length ≤ 34
        rw [paddedMemo_bytes, memoField_length p.memo hw.2]
  exact (hash_ok_iff _ _).2 ⟨⟨w1, w2.1, w2.2.1, hb.2⟩, by
    congr 1
    show _ = _ ++ payloadBytes (readBack t.payload)
    rw [hb.1]; rfl⟩

/-- **C129** Signing gives the transaction another id, or SHA-512/256 collides, or the signature is 65 zeros. -/
theorem C129_sign [Secp.Lawful] (t t' : Transaction) (k : Secp.SK) (h : WellFormedTransaction t)
    (hs : t.sign k = .ok t') (x : Arr 32) (hx : t.hash = .ok x) (hx' : t'.hash = .ok x) :
    signatureOf (originOf t'.auth) = some noSignature ∨ Collision (transactionBytes t) (transactionBytes t') := by
  obtain ⟨w', e'⟩ := (hash_ok_iff t' x).1 hx'
  obtain ⟨w, e⟩ := (hash_ok_iff t x).1 hx
  by_cases hb : transactionBytes t = transactionBytes t'
  · refine .inl ?_
    obtain ⟨_, _, hf, rfl⟩ := (sign_ok_iff t k t').1 hs
    obtain ⟨v, c, a, am, pm, pcs, p⟩ := t
    have hw : WellFormedTransaction ⟨v, c, replaceOrigin a (signedBy (Hashes.sha512_256 (signingPreimage
        ⟨v, c, a, am, pm, pcs, p⟩)) 4 k (originOf a)), am, pm, pcs, p⟩ := by
      refine ⟨?_, h.2⟩
      have h1 := h.1
      have h2 := w'.1
      rcases a with (c | c) | ⟨c | c, s⟩
      · exact h1
      · exact ⟨h1.1, h2⟩
      · exact h1
      · exact ⟨⟨h1.1.1, h2.1⟩, h1.2⟩
    have := C43_prefix_free _ _ h hw _ _ ((C43_transaction_layout _ _).2 ⟨w, rfl⟩)
      ((C43_transaction_layout _ _).2 ⟨w', rfl⟩) (by rw [hb])
    have ha := congrArg Transaction.auth this
    dsimp only at ha ⊢
    have hu : ∃ n, n < requiredCount (originOf a) ∧ n = signatureCount (originOf a) :=
      ⟨_, ((sign_ok_iff _ k _).1 hs).2.1, rfl⟩
    rcases a with (c | c) | ⟨c | c, s⟩
    all_goals simp only [replaceOrigin, signedBy, originOf, withSignature, Auth.standard.injEq, Auth.sponsored.injEq,
      Spending.single.injEq, Spending.multi.injEq, and_true] at ha ⊢
    all_goals first
      | (have hsig := congrArg SingleSig.signature ha
         obtain ⟨n, hn, e1⟩ := hu
         have hz : c.signature = noSignature := by
           by_contra hne
           rw [originOf, signatureCount, if_neg hne] at e1
           exact absurd hn (by rw [e1]; show ¬ 1 < 1; decide)
         exact congrArg some (hsig.symm.trans hz))
      | (have hlen := congrArg (fun m => (MultiSig.fields m).length) ha
         simp at hlen)
  · exact .inr ⟨hb, e.symm.trans e'⟩

/-- **C129** The id of a transaction is not the hash that is signed, or SHA-512/256 collides, unless it has neither
fee nor nonce nor signatures nor a sponsor. -/
theorem C129_not_the_signing_hash [Secp.Lawful] (t : Transaction) (h : WellFormedTransaction t)
    (he : t.initialHash = t.hash) :
    t.auth = clearedAuth t.auth ∨ Collision (signingPreimage t) (transactionBytes t) := by
  have w := wf_encodable_tx t h
  rw [initialHash_eq t w.2, (hash_ok_iff t _).2 ⟨w, rfl⟩] at he
  by_cases hb : signingPreimage t = transactionBytes t
  · have hc : WellFormedTransaction { t with auth := clearedAuth t.auth } := by
      refine ⟨?_, h.2⟩
      have := h.1
      obtain ⟨v, c, a, am, pm, pcs, p⟩ := t
      rcases a with (c | c) | ⟨c | c, s⟩
      · exact this
      · exact ⟨this.1, by show 0 < _; decide⟩
      · exact ⟨this.1, .inl rfl⟩
      · exact ⟨⟨this.1.1, by show 0 < _; decide⟩, .inl rfl⟩
    have := C43_prefix_free _ t hc h _ _ ((C43_transaction_layout _ _).2 ⟨wf_encodable_tx _ hc, rfl⟩)
      ((C43_transaction_layout t _).2 ⟨w, rfl⟩) (by
        show signingPreimage t <+: _
        rw [hb])
    exact .inl (congrArg Transaction.auth this).symm
  · exact .inr ⟨hb, Outcome.ok.inj he⟩

/-- **C129** A node that answers a broadcast with the id of the bytes it got says the id that `hash` computes. The caller
gets its text, with the quotation marks: that is not what `bytes_to_hex` makes of the id, and `hex_to_bytes` does
not read it unless they are removed. -/
theorem C129_broadcast_reply [Http] (r : StacksRPC) (server : Request → Reply) (t : Transaction) (bs : Bytes)
    (he : t.encode = .ok bs) (code : Nat) (body : Http.Body)
    (hr : server (broadcastRequest r.url bs) = .response code body) (hc : code < 400)
    (hb : Http.intoString body = .ok (idReply (Hashes.sha512_256 bs))) :
    ∃ x, t.hash = .ok x ∧ (r.broadcast server t).result = .ok (.ok (idReply x)) ∧ idReply x ≠ Hex.bytesToHex x.1 ∧
      Hex.hexToBytes (idReply x) = .err .badChar ∧
      Hex.hexToBytes ((idReply x).drop 1).dropLast = .ok x.1 := by
  obtain ⟨w, rfl⟩ := (C43_transaction_layout t _).1 he
  refine ⟨_, (hash_ok_iff t _).2 ⟨w, rfl⟩, ?_⟩
  have h0 := ((C63_broadcast r server t _ he).1 _).2 ⟨code, body, hr, hc, hb⟩
  generalize Hashes.sha512_256 (transactionBytes t) = x at h0 ⊢
  have hq : '"' ∉ Hex.bytesToHex x.1 := fun h => absurd ((Hex.C01_hex_roundtrip x.1).2.2 _ h) (by decide)
  have hl := (Hex.C01_hex_roundtrip x.1).2.1
  have h1 : idReply x = '"' :: (Hex.bytesToHex x.1 ++ ['"']) := by rw [Hex.C01_hex_text]; rfl
  refine ⟨h0, ?_, ?_, ?_⟩
  · rw [h1]; exact fun h => hq (h ▸ List.mem_cons_self ..)
  · refine (Hex.C02_hex_decode_exact _).2.2.1 ?_ ?_
    · rw [← Str.len_eq_utf8ByteSize, Str.len_of_ascii, h1]
      · simp only [List.length_cons, List.length_append, hl, List.length_nil, x.2]
      · rw [h1]
        intro c hc
        simp only [List.mem_cons, List.mem_append, List.not_mem_nil, or_false] at hc
        rcases hc with rfl | hc | rfl
        · decide
        · exact bytesToHex_ascii _ c hc
        · decide
    · rw [h1]
      cases Hex.bytesToHex x.1 <;> rfl
  · rw [h1, List.drop_one, List.tail_cons, List.dropLast_concat]
    exact (Hex.C01_hex_roundtrip x.1).1

end

section
variable [Hashes]
attribute [local instance] Concrete.Ecdsa.realSecp
local instance txIdRealLawful : Secp.Lawful := Concrete.Ecdsa.realLawful

omit [Hashes] in
theorem compact_ne (t : Concrete.Ecdsa.RSig) (h : 0 < t.1.1) : (Concrete.Ecdsa.compact t).2.1 ≠ List.replicate 64 0 := by
  intro he
  have h1 : beBytes 32 t.1.1 = beBytes 32 0 := by
    have := congrArg (List.take 32) he
    rw [show (Concrete.Ecdsa.compact t).2.1 = beBytes 32 t.1.1 ++ beBytes 32 t.1.2.1 from rfl,
      List.take_left' (beBytes_length _ _)] at this
    rw [this]; decide
  have := beBytes_inj (lt_trans t.2.1 (by decide)) (by decide) h1
  omega

omit [Hashes] in
theorem sign_pos (m : Arr 32) (k : Concrete.Ecdsa.SK) (t : Concrete.Ecdsa.RSig) (ht : Concrete.Ecdsa.sign m k = t) :
    0 < t.1.1 := by
  have h := (C76_signatures_verify m k).1
  rw [ht] at h
  exact h.1

omit [Hashes] in
theorem real_compact_ne (m : Arr 32) (k : Concrete.Ecdsa.SK) :
    (Secp.compact (Secp.sign m k)).2.1 ≠ List.replicate 64 0 := by
  generalize ht : Secp.sign m k = t
  exact compact_ne t (sign_pos m k t ht)

/-- **C48** With ECDSA over secp256k1 no transaction of one signature is signed twice, whatever the keys. -/
theorem C48_sign_twice_secp256k1 (t t' : Transaction) (k k' : Concrete.Ecdsa.SK) (c : SingleSig)
    (h : t.sign k = .ok t') (hc : originOf t.auth = .single c) : t'.sign k' = .err .originOversign :=
  C48_sign_twice t t' k k' c h (by cases ha : t.auth <;> rw [ha] at hc <;> exact hc) (fun m => real_compact_ne m k)

/-- **C129** With ECDSA over secp256k1, signing gives the transaction another id, or SHA-512/256 collides. -/
theorem C129_sign_secp256k1 (t t' : Transaction) (k : Concrete.Ecdsa.SK) (h : WellFormedTransaction t)
    (hs : t.sign k = .ok t') (x : Arr 32) (hx : t.hash = .ok x) (hx' : t'.hash = .ok x) :
    Collision (transactionBytes t) (transactionBytes t') := by
  refine (C129_sign t t' k h hs x hx hx').resolve_left fun hz => ?_
  obtain ⟨_, _, _, rfl⟩ := (sign_ok_iff t k t').1 hs
  have key : ∀ m : Arr 32, signatureBytes m k ≠ noSignature := fun m e => by
    have h1 := signatureBytes_eq m k
    rw [e] at h1
    exact real_compact_ne m k (congrArg List.tail h1).symm
  obtain ⟨v, ch, a, am, pm, pcs, p⟩ := t
  rcases a with (c | c) | ⟨c | c, s⟩
  · exact key _ (Option.some.inj hz)
  · cases hz
  · exact key _ (Option.some.inj hz)
  · cases hz

/-- **C129** An accepted id is not the only one its signature allows: from a verified transaction anyone can make one
that says the same, verifies too and has another id, or SHA-512/256 collides. -/
theorem C129_id_is_malleable (t : Transaction) (c : SingleSig) (n : Arr 32) (ha : t.auth = .standard (.single c))
    (hv : t.verifyOrigin = .ok n) :
    ∃ t' n' x x', t' = withOriginSignature t c (twinBytes c.signature) ∧ t'.verifyOrigin = .ok n' ∧
      t'.initialHash = t.initialHash ∧ t.hash = .ok x ∧ t'.hash = .ok x' ∧
      (x ≠ x' ∨ Collision (transactionBytes t) (transactionBytes t')) := by
  obtain ⟨⟨n', h1⟩, bs, bs', h2, h3, h4, _⟩ := C83_transaction t c n ha hv
  obtain ⟨w, rfl⟩ := (C43_transaction_layout t _).1 h2
  obtain ⟨w', rfl⟩ := (C43_transaction_layout _ _).1 h3
  refine ⟨_, n', _, _, rfl, h1, ?_, (hash_ok_iff t _).2 ⟨w, rfl⟩, (hash_ok_iff _ _).2 ⟨w', rfl⟩, ?_⟩
  · rw [initialHash_eq _ w.2, initialHash_eq _ w'.2]
    obtain ⟨v, ch, a, am, pm, pcs, p⟩ := t
    dsimp only at ha
    subst ha
    rfl
  · by_cases hx : Hashes.sha512_256 (transactionBytes t) =
        Hashes.sha512_256 (transactionBytes (withOriginSignature t c (twinBytes c.signature)))
    · exact .inr ⟨h4, hx⟩
    · exact .inl hx

end

section
attribute [local instance] Concrete.realHashes Concrete.toySecp Rpc.toyHttp
local instance txIdLawful : Secp.Lawful := Concrete.toyLawful

/-- The id of the transfer of C43. -/
def exId : Arr 32 := Hashes.sha512_256 (transactionBytes exTx)

theorem exTx_id : exTx.hash = .ok exId := (C129_id_exactly _ _).2 ⟨wf_encodable_tx _ exTx_wf, rfl⟩

/-- Two transactions with ids; they are different, so are the ids. -/
example : exTx.hash = exTx2.hash → Collision (transactionBytes exTx) (transactionBytes exTx2) := fun h =>
  (C129_identifies exTx exTx2 exTx_wf exTx2_wf exTx_memo trivial h).resolve_left
    (fun e => absurd (congrArg Transaction.version e) (by decide))
example : ∀ x, exTx.hash = .ok x → exTx2.hash ≠ .ok x := by
  intro x h h'
  obtain ⟨_, e⟩ := (C129_id_exactly _ _).1 h
  obtain ⟨_, e'⟩ := (C129_id_exactly _ _).1 h'
  exact absurd (e.symm.trans e') (by decide +kernel)

/-- Another fee: the ids differ, by computation. -/
example : Hashes.sha512_256 (transactionBytes exTx) ≠ Hashes.sha512_256 (transactionBytes (exTx.setFee 7)) := by
  decide +kernel
example (x : Arr 32) (h : exTx.hash = .ok x) (h' : (exTx.setFee 7).hash = .ok x) :
    Collision (transactionBytes exTx) (transactionBytes (exTx.setFee 7)) :=
  (C129_same_id _ _ x h h').resolve_left fun e => absurd e.2.1 (by decide)

/-- Two transactions of one account, numbered. -/
example : AllNumbered [exTx.setNonce 0, exTx.setNonce 1] ∧ ∀ x, (exTx.setNonce 0).hash = .ok x →
    (exTx.setNonce 1).hash = .ok x → Collision (transactionBytes (exTx.setNonce 0)) (transactionBytes (exTx.setNonce 1)) := by
  have h : AllNumbered [exTx.setNonce 0, exTx.setNonce 1] := by
    intro pre t post he y hy
    match pre, he with
    | [], he => cases he; cases List.mem_singleton.1 hy; decide +kernel
    | [_], he => cases he; cases List.mem_singleton.1 hy; decide +kernel
    | _ :: _ :: _, he => simp at he
  exact ⟨h, fun x => C129_history _ h [] [] [] _ _ rfl x⟩

/-- A reader. -/
example : ∃ parse bs t' x, exTx.encode = .ok bs ∧ (readTransaction parse).run bs = some (t', []) ∧
    exTx.hash = .ok x ∧ t'.hash = .ok x := by
  obtain ⟨parse, hp⟩ := parser_exists
  exact ⟨parse, C129_reader_agrees parse hp exTx exTx_wf⟩

/-- Signing: it succeeds, and the id before and after are not equal. -/
example : ∃ t', exTx.sign (exKey 1) = .ok t' ∧ ∀ x, exTx.hash = .ok x → t'.hash = .ok x →
    signatureOf (originOf t'.auth) = some noSignature ∨ Collision (transactionBytes exTx) (transactionBytes t') := by
  obtain ⟨t', h⟩ := ((C48_sign_iff exTx (exKey 1) exSingle rfl).1).2 ⟨(wf_encodable_tx _ exTx_wf).2, rfl, .inl rfl⟩
  exact ⟨t', h, fun x => C129_sign exTx t' (exKey 1) exTx_wf h x⟩

/-- The signing hash of a transaction with a fee is not its id; that of one without is. -/
example : exTx.setFee 7 ≠ exTx ∧ ((exTx.setFee 7).initialHash = (exTx.setFee 7).hash →
    Collision (signingPreimage (exTx.setFee 7)) (transactionBytes (exTx.setFee 7))) :=
  ⟨fun e => absurd (congrArg (fun t => t.auth.origin.fee) e) (by decide), fun h =>
    (C129_not_the_signing_hash (exTx.setFee 7) exTx_wf h).resolve_left fun e => absurd (congrArg (fun a => a.origin.fee) e) (by decide)⟩

/-- A node that answers with the id. -/
example : ∃ bs, exTx.encode = .ok bs ∧ ∃ x, exTx.hash = .ok x ∧ (StacksRPC.broadcast ⟨"http://n".toList⟩
    (fun _ => .response 200 (idReply exId, .null)) exTx).result = .ok (.ok (idReply x)) := by
  have h := (C43_transaction_layout exTx _).2 ⟨wf_encodable_tx _ exTx_wf, rfl⟩
  obtain ⟨x, h1, h2, _⟩ := C129_broadcast_reply ⟨"http://n".toList⟩ (fun _ => .response 200 (idReply exId, .null)) exTx _ h
    200 (idReply exId, .null) rfl (by decide) rfl
  exact ⟨_, h, x, h1, h2⟩
example : (idReply exId).length = 66 := by decide +kernel

end

section
attribute [local instance] Concrete.realHashes Concrete.Ecdsa.realSecp
local instance txIdRealLawful' : Secp.Lawful := Concrete.Ecdsa.realLawful

/-- Signing twice with real signatures: the hypotheses hold of the transfer of C76. -/
example : ∃ t t' : Transaction, t.sign (⟨7, by decide⟩ : Concrete.Ecdsa.SK) = .ok t' ∧
      (∀ k' : Concrete.Ecdsa.SK, t'.sign k' = .err .originOversign) ∧
      ∀ x, WellFormedTransaction t → t.hash = .ok x → t'.hash = .ok x →
        Collision (transactionBytes t) (transactionBytes t') := by
  obtain ⟨t', n, h, _⟩ := C76_transfer_verifies exRealTransfer rfl exParts_encodable.1 exParts_encodable.2
  obtain ⟨t, h1, h2⟩ := Outcome.bind_eq_ok.1 h
  have hc : ∃ c, originOf t.auth = .single c := by
    cases h1; exact ⟨_, rfl⟩
  obtain ⟨c, hc⟩ := hc
  exact ⟨t, t', h2, fun k' => C48_sign_twice_secp256k1 t t' _ k' c h2 hc, fun x hw => C129_sign_secp256k1 t t' _ hw h2 x⟩

end

/-- The hypotheses of `C129_id_is_malleable` hold of the signed transfer of C76, see C83; its id and its twin's, with the
real functions. -/
example : letI := Concrete.realHashes; letI := Concrete.Ecdsa.realSecp
    (match exRealSigned with
    | .ok t =>
      match t.auth with
      | .standard (.single c) => decide ((Hashes.sha512_256 (transactionBytes t)).1 ≠
          (Hashes.sha512_256 (transactionBytes (withOriginSignature t c (twinBytes c.signature)))).1)
      | _ => false
    | _ => false) = true := by decide +kernel

end Stacks.Tx

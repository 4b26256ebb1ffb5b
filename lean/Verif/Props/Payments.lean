import Verif.Spec.Payments
import Verif.Props.EndToEnd

/-! # C108: nonces and fees from a node, through a signature, back to the node -/

namespace Stacks.Rpc
open Stacks.Spec Stacks.Tx Stacks.Wallet
open Stacks.Clarity (CV)

section
variable [Secp] [Hashes]

/-- What signing with the key a transaction was made for gives, and what is read from its encoding. -/
theorem single_signed [Secp.Lawful] (parse : Arr 33 → Option Secp.PK) (hp : ∀ k, parse (Secp.serialize k) = some k)
    (t : Transaction) (k : Secp.SK) (c : SingleSig)
    (hc : t.auth = .standard (.single c)) (hm : c.mode = .p2pkh)
    (hs : c.signer = hash160Of (Secp.serialize (Secp.pub k)).1) (h0 : c.signature = noSignature)
    (hb : AcceptableBody t.postConditions t.payload) :
    ∃ t' sig bs, t.sign k = .ok t' ∧ t' = { t with auth := .standard (.single { c with signature := sig }) } ∧
      t'.encode = .ok bs ∧ NodeAccepts parse bs ∧
      (readTransaction parse).run bs = some ({ t' with payload := readBack t.payload }, []) := by
  obtain ⟨t', bs, h1, h2, h3⟩ := C80_single_accepted parse hp t k c.fee c.nonce .p2pkh c
    ((single_new_iff _ _ _ _ _).2 ⟨hm, rfl, rfl, by rw [hs]; rfl, h0⟩) hc hb
  obtain ⟨_, _, _, e⟩ := (sign_iff _ _ _).1 h1
  have e' : ∃ sig, t' = { t with auth := .standard (.single { c with signature := sig }) } := by
    rw [e, hc]; exact ⟨_, rfl⟩
  obtain ⟨sig, e'⟩ := e'
  have hwf : WellFormedTransaction t' :=
    acceptable_wf (by rw [e']; exact .inl hm) (by rw [e']; exact hb)
  obtain ⟨bs', h4, h5⟩ := C43_reader_recovers parse hp t' hwf []
  obtain rfl := Outcome.ok.inj (h2.symm.trans h4)
  rw [List.append_nil] at h5
  exact ⟨t', sig, bs, h1, e', h2, h3, by rw [h5, e']⟩

/-- What an acceptable order builds. -/
theorem build_order (o : Order) (h : Acceptable o) (n : UInt64) :
    ∃ t c, o.build n = .ok t ∧ t.auth = .standard (.single c) ∧ c.mode = .p2pkh ∧
      c.signer = hash160Of (Secp.serialize (Secp.pub o.key)).1 ∧ c.nonce = n ∧ c.signature = noSignature ∧
      AcceptableBody t.postConditions t.payload ∧
      ∀ fee sig, Fulfils o n fee { t with
        auth := .standard (.single { c with fee := fee, signature := sig }), payload := readBack t.payload } := by
  cases o with
  | transfer b =>
    obtain ⟨hs, hb⟩ := h
    obtain ⟨t, c, h1, h2, h3, h4, h5, h6, h7, h8, h9, h10, h11, h12, h13⟩ :=
      C56_token_transfer Clarity.Error { b with nonce := n } hs
    refine ⟨t, c, h1, h4, h5, h6, h8, h9, by rw [h12, h13]; exact hb, fun fee sig => ⟨⟨_, rfl, h5, rfl, h8, h6⟩, ?_⟩⟩
    exact ⟨h2, h3, h10, h11, h12, by simp only [h13]; rfl⟩
  | call b =>
    obtain ⟨hs, hash, v, hd, hb⟩ := h
    obtain ⟨t, c, h1, h2, h3, h4, h5, h6, h7, h8, h9, h10, h11, h12, h13⟩ :=
      (C57_contract_call { b with nonce := n }).2.2.2 hash.1 v hash.2 (C32.decode_of_isAddress hd) hs
    refine ⟨t, c, h1, h4, h5, h6, h8, h9, by rw [h12, h13]; exact hb, fun fee sig => ⟨⟨_, rfl, h5, rfl, h8, h6⟩, ?_⟩⟩
    exact ⟨h2, h3, h10, h11, h12, hash, v, hd, by simp only [h13]; rfl⟩

variable [Http] {L : Type}

/-- **C108** One payment through an honest node: the nonce it says, the fee it asks for these bytes, one
broadcast that it accepts; and the transaction it has accepted is the one that was ordered. -/
theorem C108_pay [Secp.Lawful] (parse : Arr 33 → Option Secp.PK) (hp : ∀ k, parse (Secp.serialize k) = some k)
    (r : StacksRPC) (node : StatefulNode L) (accepted : L → List Transaction) (quotes : Str → Nat → List UInt64)
    (o : Order) (ho : Acceptable o)
    (hn : Honest parse r.url (hash160Of (Secp.serialize (Secp.pub o.key)).1) quotes node accepted)
    (address : Str) (v : UInt8)
    (ha : IsAddress address v (hash160Of (Secp.serialize (Secp.pub o.key)).1).1)
    (choice : Nat) (hq : ∀ hex n, choice < (quotes hex n).length)
    (l : L) (nonce : UInt64) (hl : nonce.toNat = (accepted l).length) :
    ∃ tx, CameThrough parse quotes choice o nonce (pay r node address choice o l).1 tx ∧
      accepted (pay r node address choice o l).2 = accepted l ++ [tx] := by
  -- the nonce
  obtain ⟨code, body, j, i, a1, a2, a3, a4, a5⟩ := hn.account l address v nonce ha hl
  have q1 : ask node l (r.address · address) = (.ok i, (node l (accountRequest r.url address)).2) :=
    Prod.ext_iff.2 ⟨((C68_address r (fun q => (node l q).1) address).2.1 i).2 ⟨code, body, j, a1, a2, a3, a4⟩, rfl⟩
  generalize hl1 : (node l (accountRequest r.url address)).2 = l1 at q1
  have s1 : accepted l1 = accepted l := hl1 ▸ hn.account_state l address
  -- the transaction
  obtain ⟨t, c, b1, b2, b3, b4, b5, b6, b7, b8⟩ := build_order o ho nonce
  have hwf : WellFormedTransaction t := acceptable_wf (by rw [b2]; exact .inl b3) b7
  obtain ⟨bs0, e0⟩ : ∃ bs, t.encode = .ok bs := by
    obtain ⟨bs, h, _⟩ := C43_reader_recovers parse hp t hwf []
    exact ⟨bs, h⟩
  -- the fee
  obtain ⟨hex, p, p1, p2, p3, p4, p5⟩ := (C62_estimate_fee r (fun q => (node l1 q).1) t).1 bs0 e0
  obtain ⟨code2, body2, j2, f, f1, f2, f3, f4, f5⟩ := hn.fees l1 hex bs0.length
  have q2 : ask node l1 (r.estimateFee · t) = (.ok (.ok f), (node l1 (feeQuestion r.url hex bs0.length)).2) := by
    refine Prod.ext_iff.2 ⟨((C63_estimate_fee r (fun q => (node l1 q).1) t bs0 p e0 p1).1 f).2 ?_, ?_⟩
    · exact ⟨code2, body2, j2, by rw [← p4]; exact f1, f2, f3, f4⟩
    · show List.foldl _ _ (r.estimateFee (fun q => (node l1 q).1) t).sent = _
      rw [p5]; rfl
  generalize hl2 : (node l1 (feeQuestion r.url hex bs0.length)).2 = l2 at q2
  have s2 : accepted l2 = accepted l := (hl2 ▸ hn.fees_state l1 hex bs0.length).trans s1
  obtain ⟨e, he⟩ : ∃ e, f.estimations[choice]? = some e := by
    have := hq hex bs0.length
    rw [← f5, List.length_map] at this
    exact ⟨_, List.getElem?_eq_getElem this⟩
  have hfee : (quotes hex bs0.length)[choice]? = some e.fee := by rw [← f5, List.getElem?_map, he]; rfl
  -- the signature
  have hset : t.setFee e.fee = { t with auth := .standard (.single { c with fee := e.fee }) } := by
    unfold Transaction.setFee
    rw [b2]; rfl
  obtain ⟨t', sig, bs, g1, g2, g3, g4, g5⟩ := single_signed parse hp (t.setFee e.fee) o.key { c with fee := e.fee }
    (by rw [hset]) b3 b4 b6 (by rw [hset]; exact b7)
  have hlen : bs.length = bs0.length := by
    obtain ⟨bs1, h1, h2⟩ := C46_setters_length [.fee e.fee] t bs0 e0
    obtain ⟨bs2, h3, h4⟩ := C46_sign_length (t.setFee e.fee) t' o.key { c with fee := e.fee } g1
      (by rw [hset]; rfl) bs1 h1
    obtain rfl := Outcome.ok.inj (g3.symm.trans h3)
    rw [h4, h2]
  have hpay : t'.payload = t.payload := by rw [g2, hset]
  rw [hset] at g2
  have hsuf : p <:+ bs := by
    obtain ⟨⟨_, _, _, hpe⟩, rfl⟩ := (transaction_encode_iff t' bs).1 g3
    obtain ⟨_, rfl⟩ := (payload_encode_iff t.payload p).1 p1
    rw [← hpay]
    exact List.suffix_append _ _
  have hread : readPayload.run p = some (readBack t.payload, []) := by
    obtain ⟨_, rfl⟩ := (payload_encode_iff t.payload p).1 p1
    have := reads_payload t.payload b7.2.2.1 []
    rwa [List.append_nil] at this
  -- the broadcast
  have hpl : (t.setFee e.fee).payload = t.payload := by rw [hset]
  rw [hpl] at g5
  have hacc := hn.broadcast l2 bs _ (.single { c with fee := e.fee, signature := sig }) g4 g5 (by rw [g2]) b4
    (by rw [s2]; exact (congrArg UInt64.toNat b5).trans hl)
  obtain ⟨⟨code3, body3, c1, c2, c3⟩, c4⟩ := hacc
  have q3 : ask node l2 (r.broadcast · t') =
      (.ok (.ok (hexText (Hashes.sha512_256 bs).1)), (node l2 (broadcastRequest r.url bs)).2) := by
    refine Prod.ext_iff.2 ⟨((C63_broadcast r (fun q => (node l2 q).1) t' bs g3).1 _).2 ⟨code3, body3, c1, c2, c3⟩, ?_⟩
    show List.foldl _ _ (r.broadcast (fun q => (node l2 q).1) t').sent = _
    rw [(C62_broadcast r _ t').1 bs g3]; rfl
  have hrun : pay r node address choice o l =
      (some (hexText (Hashes.sha512_256 bs).1, t'), (node l2 (broadcastRequest r.url bs)).2) := by
    unfold pay
    simp only [q1, a5, b1, q2, he, g1, q3]
  rw [hrun]
  refine ⟨_, ⟨_, t', bs, Hashes.sha512_256 bs, hex, p, e.fee, rfl, g3, ?_, rfl, g4, g5, ?_, ((Hex.C02_hex_decode_exact _).1 _).1 p3, hsuf, hread,
    by rw [hlen]; exact hfee⟩, by rw [← s2]; exact c4⟩
  · unfold Transaction.hash
    rw [g3]; rfl
  · rw [g2]; exact b8 e.fee sig

/-- **C108** Any number of payments of one account, transfers and calls, one after the other: all come through,
with consecutive nonces, and the node has accepted exactly what was ordered, in this order. -/
theorem C108_payments [Secp.Lawful] (parse : Arr 33 → Option Secp.PK) (hp : ∀ k, parse (Secp.serialize k) = some k)
    (r : StacksRPC) (node : StatefulNode L) (accepted : L → List Transaction) (quotes : Str → Nat → List UInt64)
    (k : Secp.SK) (hn : Honest parse r.url (hash160Of (Secp.serialize (Secp.pub k)).1) quotes node accepted)
    (address : Str) (v : UInt8) (ha : IsAddress address v (hash160Of (Secp.serialize (Secp.pub k)).1).1)
    (choice : Nat) (hq : ∀ hex n, choice < (quotes hex n).length)
    (os : List Order) (ho : ∀ o ∈ os, Acceptable o ∧ o.key = k)
    (l : L) (hl : (accepted l).length + os.length ≤ 2 ^ 64) :
    ∃ txs, AllCameThrough parse quotes choice (accepted l).length os (payAll r node address choice os l).1 txs ∧
      accepted (payAll r node address choice os l).2 = accepted l ++ txs := by
  induction os generalizing l with
  | nil => exact ⟨[], .nil, (List.append_nil _).symm⟩
  | cons o os ih =>
    obtain ⟨h1, rfl⟩ := ho o List.mem_cons_self
    simp only [List.length_cons] at hl
    have hlt : (accepted l).length < 2 ^ 64 := by omega
    have hno : (UInt64.ofNat (accepted l).length).toNat = (accepted l).length := by
      rw [UInt64.toNat_ofNat']; exact Nat.mod_eq_of_lt hlt
    obtain ⟨tx, h2, h3⟩ := C108_pay parse hp r node accepted quotes o h1 hn address v ha choice hq l _ hno
    have hlen : (accepted (pay r node address choice o l).2).length = (accepted l).length + 1 := by rw [h3]; simp
    obtain ⟨txs, h4, h5⟩ := ih (fun o' h => ho o' (List.mem_cons_of_mem _ h)) (pay r node address choice o l).2
      (by rw [hlen]; omega)
    rw [hlen] at h4
    refine ⟨tx :: txs, .cons hno h2 h4, ?_⟩
    show accepted (payAll r node address choice os (pay r node address choice o l).2).2 = _
    rw [h5, h3, List.append_assoc]; rfl

omit [Hashes] [Http] in
/-- The bytes of the fields of a condition of several keys. -/
theorem fields_length (fs : List AuthField) : (fs.map fieldBytes).flatten.length =
    66 * fs.countP isSignature + 34 * (fs.length - fs.countP isSignature) := by
  induction fs with
  | nil => rfl
  | cons f fs ih =>
    have hle : fs.countP isSignature ≤ fs.length := List.countP_le_length
    simp only [List.map_cons, List.flatten_cons, List.length_append, ih, List.countP_cons, List.length_cons]
    cases f with
    | pk k => simp only [fieldBytes, isSignature, List.length_cons, (Secp.serialize k).2]; simp; omega
    | msg s => simp only [fieldBytes, isSignature, List.length_cons, s.2]; simp; omega

/-- **C108** A payment of an account of several keys, `m` of at most 16: it comes through, but its fee is the one
the node asks for a transaction without the signatures, which is shorter. -/
theorem C108_pay_together [Secp.Lawful] (parse : Arr 33 → Option Secp.PK) (hp : ∀ k, parse (Secp.serialize k) = some k)
    (r : StacksRPC) (node : StatefulNode L) (accepted : L → List Transaction) (quotes : Str → Nat → List UInt64)
    (ps : List Participant) (m : UInt8) (mode : C32.Mode) (order : Transaction) (signer : Arr 20)
    (hsig : bitcoinSigner mode m.toNat (ps.map Participant.key) = some signer)
    (hb : AcceptableBody order.postConditions order.payload)
    (hm : ps.countP Participant.isSigner = m.toNat) (h1 : 1 ≤ m.toNat) (h16 : ps.length ≤ 16)
    (hn : Honest parse r.url signer quotes node accepted)
    (address : Str) (v : UInt8) (ha : IsAddress address v signer.1)
    (choice : Nat) (hq : ∀ hex n, choice < (quotes hex n).length)
    (l : L) (nonce : UInt64) (hl : nonce.toNat = (accepted l).length) :
    ∃ tx, CameThroughTogether parse quotes choice ps m signer order nonce
        (payTogether r node address choice ps m mode order l).1 tx ∧
      accepted (payTogether r node address choice ps m mode order l).2 = accepted l ++ [tx] := by
  -- the nonce
  obtain ⟨code, body, j, i, a1, a2, a3, a4, a5⟩ := hn.account l address v nonce ha hl
  have q1 : ask node l (r.address · address) = (.ok i, (node l (accountRequest r.url address)).2) :=
    Prod.ext_iff.2 ⟨((C68_address r (fun q => (node l q).1) address).2.1 i).2 ⟨code, body, j, a1, a2, a3, a4⟩, rfl⟩
  generalize hl1 : (node l (accountRequest r.url address)).2 = l1 at q1
  have s1 : accepted l1 = accepted l := hl1 ▸ hn.account_state l address
  -- the transaction
  have hle : ps.countP Participant.isSigner ≤ ps.length := List.countP_le_length
  have hnew : ∀ fee, (MultiSig.new (ps.map Participant.key) fee nonce m mode : Outcome TxError MultiSig) =
      .ok ⟨mode, fee, nonce, signer, [], m⟩ := fun fee =>
    (multi_new_iff _ fee nonce m mode _).2 ⟨⟨by omega, by rw [List.length_map]; omega⟩,
      by rw [scriptSigner_eq _ _ _ ⟨h1, by omega⟩ (by rw [List.length_map]; omega)]; exact hsig, rfl⟩
  have hmode : mode = .p2sh ∨ mode = .p2wsh := by
    cases mode <;> first | exact .inl rfl | exact .inr rfl | cases hsig
  generalize hc : (⟨mode, 0, nonce, signer, [], m⟩ : MultiSig) = c at *
  generalize ht : ({ order with auth := .standard (.multi c) } : Transaction) = t at *
  have hwf : WellFormedTransaction t := by
    subst ht hc
    exact acceptable_wf ⟨hmode, Nat.zero_lt_succ _⟩ hb
  obtain ⟨bs0, e0⟩ : ∃ bs, t.encode = .ok bs := by
    obtain ⟨bs, h, _⟩ := C43_reader_recovers parse hp t hwf []
    exact ⟨bs, h⟩
  -- the fee
  obtain ⟨hex, p, p1, p2, p3, p4, p5⟩ := (C62_estimate_fee r (fun q => (node l1 q).1) t).1 bs0 e0
  obtain ⟨code2, body2, j2, f, f1, f2, f3, f4, f5⟩ := hn.fees l1 hex bs0.length
  have q2 : ask node l1 (r.estimateFee · t) = (.ok (.ok f), (node l1 (feeQuestion r.url hex bs0.length)).2) := by
    refine Prod.ext_iff.2 ⟨((C63_estimate_fee r (fun q => (node l1 q).1) t bs0 p e0 p1).1 f).2 ?_, ?_⟩
    · exact ⟨code2, body2, j2, by rw [← p4]; exact f1, f2, f3, f4⟩
    · show List.foldl _ _ (r.estimateFee (fun q => (node l1 q).1) t).sent = _
      rw [p5]; rfl
  generalize hl2 : (node l1 (feeQuestion r.url hex bs0.length)).2 = l2 at q2
  have s2 : accepted l2 = accepted l := (hl2 ▸ hn.fees_state l1 hex bs0.length).trans s1
  obtain ⟨e, he⟩ : ∃ e, f.estimations[choice]? = some e := by
    have := hq hex bs0.length
    rw [← f5, List.length_map] at this
    exact ⟨_, List.getElem?_eq_getElem this⟩
  have hfee : (quotes hex bs0.length)[choice]? = some e.fee := by rw [← f5, List.getElem?_map, he]; rfl
  -- the signatures
  have hset : t.setFee e.fee = { order with auth := .standard (.multi ⟨mode, e.fee, nonce, signer, [], m⟩) } := by
    subst ht hc; rfl
  obtain ⟨s, bs, g1, g2, g3⟩ := C80_multisig_accepted parse hp (t.setFee e.fee) ps e.fee nonce m mode
    ⟨mode, e.fee, nonce, signer, [], m⟩ (hnew e.fee) (by rw [hset]) (by rw [hset]; exact hb) hm h1 h16
  obtain ⟨gs, w1, w2⟩ : ∃ gs : List AuthField, gs.map isSignature = ps.map Participant.isSigner ∧
      s.tx = { order with auth := .standard (.multi ⟨mode, e.fee, nonce, signer, gs, m⟩) } := by
    have hE := (wf_encodable_tx _ (acceptable_wf (t := t.setFee e.fee)
      (by rw [hset]; exact ⟨hmode, Nat.zero_lt_succ _⟩) (by rw [hset]; exact hb))).2
    obtain ⟨s', gs, k1, k2, _, k4, _⟩ := walk_ok ps
      ⟨t.setFee e.fee, Hashes.sha512_256 (signingPreimage (t.setFee e.fee)), false, true, true⟩
      ⟨mode, e.fee, nonce, signer, [], m⟩ (by rw [hset]; rfl) hmode (by simp)
      (fun _ => by simp only [List.countP_nil]; omega)
    rw [(signer_new_iff _ _).2 ⟨hE, rfl⟩, Outcome.ok_bind] at g1
    obtain rfl := Outcome.ok.inj (g1.symm.trans k1)
    refine ⟨gs, k4, ?_⟩
    rw [k2, hset]; rfl
  have hcount : gs.countP isSignature = m.toNat ∧ gs.length = ps.length := by
    have e1 : (gs.map isSignature).countP id = gs.countP isSignature := by rw [List.countP_map]; rfl
    have e2 : (ps.map Participant.isSigner).countP id = ps.countP Participant.isSigner := by
      rw [List.countP_map]; rfl
    refine ⟨by rw [← hm, ← e1, ← e2, w1], ?_⟩
    have := congrArg List.length w1
    rwa [List.length_map, List.length_map] at this
  have hwf' : WellFormedTransaction s.tx := by
    rw [w2]
    exact acceptable_wf ⟨hmode, by simp only []; omega⟩ hb
  obtain ⟨bs', d1, d2⟩ := C43_reader_recovers parse hp s.tx hwf' []
  obtain rfl := Outcome.ok.inj (g2.symm.trans d1)
  rw [List.append_nil] at d2
  have hlen : bs.length = bs0.length + 66 * m.toNat + 34 * (ps.length - m.toNat) := by
    obtain ⟨_, rfl⟩ := (transaction_encode_iff _ _).1 g2
    obtain ⟨_, rfl⟩ := (transaction_encode_iff _ _).1 e0
    subst ht hc
    have e3 : ∀ c : MultiSig, txTail { order with auth := .standard (.multi c) } =
        txTail { order with auth := .standard (.multi ⟨mode, 0, nonce, signer, [], m⟩) } := fun c => rfl
    rw [w2, transaction_split, transaction_split { order with auth := _ }, e3]
    simp only [Auth.origin, spendingTail, List.length_append, txHead_length, beBytes_length, fields_length, hcount.1,
      hcount.2, List.map_nil, List.flatten_nil, List.length_nil]
    omega
  have hpay : s.tx.payload = t.payload := by rw [w2]; subst ht; rfl
  have hopay : t.payload = order.payload := by subst ht; rfl
  have hsuf : p <:+ bs := by
    obtain ⟨⟨_, _, _, hpe⟩, rfl⟩ := (transaction_encode_iff s.tx bs).1 g2
    obtain ⟨_, rfl⟩ := (payload_encode_iff t.payload p).1 p1
    rw [← hpay]
    exact List.suffix_append _ _
  have hread : readPayload.run p = some (readBack order.payload, []) := by
    obtain ⟨_, rfl⟩ := (payload_encode_iff t.payload p).1 p1
    have := reads_payload order.payload hb.2.2.1 []
    rw [List.append_nil] at this
    rw [hopay]; exact this
  -- the broadcast
  obtain ⟨⟨code3, body3, c1, c2, c3⟩, c4⟩ := hn.broadcast l2 bs _ (.multi ⟨mode, e.fee, nonce, signer, gs, m⟩) g3 d2
    (by rw [w2]) rfl (by rw [s2]; exact hl)
  have q3 : ask node l2 (r.broadcast · s.tx) =
      (.ok (.ok (hexText (Hashes.sha512_256 bs).1)), (node l2 (broadcastRequest r.url bs)).2) := by
    refine Prod.ext_iff.2 ⟨((C63_broadcast r (fun q => (node l2 q).1) s.tx bs g2).1 _).2 ⟨code3, body3, c1, c2, c3⟩, ?_⟩
    show List.foldl _ _ (r.broadcast (fun q => (node l2 q).1) s.tx).sent = _
    rw [(C62_broadcast r _ s.tx).1 bs g2]; rfl
  have hrun : payTogether r node address choice ps m mode order l =
      (some (hexText (Hashes.sha512_256 bs).1, s.tx), (node l2 (broadcastRequest r.url bs)).2) := by
    unfold payTogether
    have hnew0 := hnew 0
    rw [hc] at hnew0
    simp only [q1, a5, hnew0, ht, q2, he, g1, q3]
  rw [hrun]
  refine ⟨_, ⟨_, s.tx, bs, Hashes.sha512_256 bs, hex, p, e.fee, bs0.length, rfl, g2, ?_, rfl, g3, d2,
    ⟨⟨mode, e.fee, nonce, signer, gs, m⟩, by rw [w2], rfl, rfl, rfl, rfl, by rw [w2]⟩, ((Hex.C02_hex_decode_exact _).1 _).1 p3, hsuf, ?_, hfee, hlen⟩,
    by rw [← s2]; exact c4⟩
  · unfold Transaction.hash
    rw [g2]; rfl
  · rw [hread, w2]

/-- **C108** Any number of payments of an account of several keys, one after the other, each signed by any `m` of
them: all come through, with consecutive nonces, and the node has accepted exactly what was ordered, in this order. -/
theorem C108_payments_together [Secp.Lawful] (parse : Arr 33 → Option Secp.PK) (hp : ∀ k, parse (Secp.serialize k) = some k)
    (r : StacksRPC) (node : StatefulNode L) (accepted : L → List Transaction) (quotes : Str → Nat → List UInt64)
    (keys : List Secp.PK) (m : UInt8) (mode : C32.Mode) (signer : Arr 20)
    (hsig : bitcoinSigner mode m.toNat keys = some signer) (h1 : 1 ≤ m.toNat) (h16 : keys.length ≤ 16)
    (hn : Honest parse r.url signer quotes node accepted)
    (address : Str) (v : UInt8) (ha : IsAddress address v signer.1)
    (choice : Nat) (hq : ∀ hex n, choice < (quotes hex n).length)
    (os : List (List Participant × Transaction))
    (ho : ∀ o ∈ os, o.1.map Participant.key = keys ∧ o.1.countP Participant.isSigner = m.toNat ∧
      AcceptableBody o.2.postConditions o.2.payload)
    (l : L) (hl : (accepted l).length + os.length ≤ 2 ^ 64) :
    ∃ txs, AllCameThroughTogether parse quotes choice m signer (accepted l).length os
        (payTogetherAll r node address choice m mode os l).1 txs ∧
      accepted (payTogetherAll r node address choice m mode os l).2 = accepted l ++ txs := by
  induction os generalizing l with
  | nil => exact ⟨[], .nil, (List.append_nil _).symm⟩
  | cons o os ih =>
    obtain ⟨ps, o⟩ := o
    obtain ⟨hk, hm, hb⟩ := ho _ List.mem_cons_self
    simp only [List.length_cons] at hl
    have hlt : (accepted l).length < 2 ^ 64 := by omega
    have hno : (UInt64.ofNat (accepted l).length).toNat = (accepted l).length := by
      rw [UInt64.toNat_ofNat']; exact Nat.mod_eq_of_lt hlt
    have hps : ps.length ≤ 16 := by
      have := congrArg List.length hk
      simp only [List.length_map] at this
      omega
    obtain ⟨tx, h2, h3⟩ := C108_pay_together parse hp r node accepted quotes ps m mode o signer (by rw [hk]; exact hsig) hb
      hm h1 hps hn address v ha choice hq l _ hno
    have hlen : (accepted (payTogether r node address choice ps m mode o l).2).length = (accepted l).length + 1 := by
      rw [h3]; simp
    obtain ⟨txs, h4, h5⟩ := ih (fun o' h => ho o' (List.mem_cons_of_mem _ h))
      (payTogether r node address choice ps m mode o l).2 (by rw [hlen]; omega)
    rw [hlen] at h4
    refine ⟨tx :: txs, .cons hno h2 h4, ?_⟩
    show accepted (payTogetherAll r node address choice m mode os (payTogether r node address choice ps m mode o l).2).2 = _
    rw [h5, h3, List.append_assoc]; rfl

end

section
open Stacks.Concrete
attribute [local instance] Ecdsa.realSecp
variable [Hashes] [Http] {L : Type}

/-- **C108** With ECDSA over secp256k1 and BIP 32, for an account of a wallet: it has a key, its address on any
network can be asked for, and then all of its payments come through. -/
theorem C108_real_payments (phrases : Bip32.Phrases) : letI : Bip := Bip32.realBip phrases
    ∀ a : StacksAccount, ∃ k, a.privateKey = .ok k ∧ ∀ v, ∃ address, a.getAddress v = .ok address ∧
      ∀ (r : StacksRPC) (node : StatefulNode L) (accepted : L → List Transaction) (quotes : Str → Nat → List UInt64),
        Honest parseKey r.url (hash160Of (Secp.serialize (Secp.pub k)).1) quotes node accepted →
        ∀ choice, (∀ hex n, choice < (quotes hex n).length) →
        ∀ os : List Order, (∀ o ∈ os, Acceptable o ∧ o.key = k) → ∀ l, (accepted l).length + os.length ≤ 2 ^ 64 →
          ∃ txs, AllCameThrough parseKey quotes choice (accepted l).length os
              (payAll r node address choice os l).1 txs ∧
            accepted (payAll r node address choice os l).2 = accepted l ++ txs := by
  have : Secp.Lawful := Ecdsa.realLawful
  let _ : Bip := Bip32.realBip phrases
  have : Bip.Lawful := Bip32.realBipLawful phrases
  intro a
  obtain ⟨k, hk, _⟩ := C61_private_key_exists a
  refine ⟨k, hk, fun v => ?_⟩
  obtain ⟨s, h1, h2⟩ := account_key a k hk v
  exact ⟨s, h1, fun r node accepted quotes hn choice hq os ho l hl =>
    C108_payments parseKey parseKey_serialize r node accepted quotes k hn s _ (C32.fromStr_iff.1 h2) choice hq os ho l hl⟩

end

/-! ## The hypotheses are satisfiable -/

section
attribute [local instance] Concrete.realHashes Concrete.toySecp toyHttp
local instance paymentsLawful : Secp.Lawful := Concrete.toyLawful

/-- An honest node with one account. It asks one unit for a byte, or two or three. -/
def oneAccountNode (parse : Arr 33 → Option Secp.PK) : StatefulNode (List Transaction) := fun l q =>
  match q.body with
  | .empty => (.response 200 ("x".toList, .obj [("balance".toList, .str "0x10".toList), ("locked".toList, .str "0x0".toList),
      ("unlock_height".toList, .num 0), ("nonce".toList, .num l.length), ("balance_proof".toList, .str []),
      ("nonce_proof".toList, .str [])]), l)
  | .json (.obj [_, (_, .num n)]) => (.response 200 ("x".toList, .obj [("estimations".toList, .arr ([1, 2, 3].map fun i =>
      .obj [("fee".toList, .num (UInt64.ofNat (i * n)).toNat), ("fee_rate".toList, .num i)]))]), l)
  | .json _ => (.transport (), l)
  | .bytes bs =>
    match (readTransaction parse).run bs with
    | some (t, []) => (.response 200 (hexText (Hashes.sha512_256 bs).1, .null), l ++ [t])
    | _ => (.transport (), l)

theorem oneAccountNode_honest (parse : Arr 33 → Option Secp.PK) (signer : Arr 20) :
    Honest parse "http://n".toList signer (fun _ n => [1, 2, 3].map fun i => UInt64.ofNat (i * n))
      (oneAccountNode parse) id where
  account l s v n _ hn := by
    refine ⟨200, _, _, ⟨"0x10".toList, "0x0".toList, 0, n, [], []⟩, rfl, by decide, rfl, .inl ⟨_, rfl, ?_⟩, rfl⟩
    intro f hf
    simp only [List.mem_cons, List.not_mem_nil, or_false] at hf
    have hn : n.toNat = l.length := hn
    rcases hf with rfl | rfl | rfl | rfl | rfl | rfl <;> simp only [hn] <;> rfl
  fees l hex n := by
    refine ⟨200, _, _, ⟨[⟨UInt64.ofNat (1 * n), (1 : Nat)⟩, ⟨UInt64.ofNat (2 * n), (2 : Nat)⟩, ⟨UInt64.ofNat (3 * n), (3 : Nat)⟩]⟩, rfl, by decide,
      rfl, ⟨[1, 2, 3].map fun i => .obj [("fee".toList, .num (UInt64.ofNat (i * n)).toNat), ("fee_rate".toList, .num i)],
        .inl ⟨_, rfl, ?_⟩, .cons ?_ (.cons ?_ (.cons ?_ .nil))⟩, rfl⟩
    · intro f hf
      simp only [List.mem_cons, List.not_mem_nil, or_false] at hf
      subst hf; rfl
    all_goals
      refine ⟨_, .num _, .inl ⟨_, rfl, fun f hf => ?_⟩⟩
      simp only [List.mem_cons, List.not_mem_nil, or_false] at hf
      rcases hf with rfl | rfl <;> rfl
  account_state l s := rfl
  fees_state l hex n := rfl
  broadcast l bs t c _ h2 _ _ _ := by
    have e : oneAccountNode parse l (broadcastRequest "http://n".toList bs) =
        (.response 200 (hexText (Hashes.sha512_256 bs).1, .null), l ++ [t]) := by
      show (match (readTransaction parse).run bs with
        | some (t, []) => ((.response 200 (hexText (Hashes.sha512_256 bs).1, .null) : Reply), l ++ [t])
        | _ => (.transport (), l)) = _
      rw [h2]
    rw [e]
    refine ⟨⟨200, _, rfl, by decide, ?_⟩, rfl⟩
    refine if_neg fun h => ?_
    have h' := (Hex.C01_hex_roundtrip (Hashes.sha512_256 bs).1).1
    rw [Hex.bytesToHex_eq, show hexText (Hashes.sha512_256 bs).1 = [] from h] at h'
    have : ([] : Bytes) = (Hashes.sha512_256 bs).1 := Outcome.ok.inj h'
    have := congrArg List.length this
    rw [(Hashes.sha512_256 bs).2] at this
    cases this

theorem exTransferOrder_acceptable : Acceptable (.transfer exTransferBuilder) :=
  ⟨rfl, exBody.1, exBody.2.1, ⟨testnetAddr_canonical, (by decide +kernel : (Str.bytes "hello".toList).length ≤ 34)⟩,
    .inl ⟨_, rfl⟩⟩

theorem exCallOrder_acceptable : Acceptable (.call (exCallBuilder "SP2J6ZY48GV1EZ5V2V5RB9MP66SW86PYKKNRV9EJ7")) :=
  ⟨rfl, ⟨[0xa4, 0x6f, 0xf8, 0x88, 0x86, 0xc2, 0xef, 0x97,
    0x62, 0xd9, 0x70, 0xb4, 0xd2, 0xc6, 0x36, 0x78, 0x83, 0x5b, 0xd3, 0x9d], rfl⟩, 22, C32.isAddress_of_decode (by decide +kernel),
    by decide, nofun, ⟨by decide +kernel, by decide +kernel, by decide +kernel, fun v hv => by
      have hv : v ∈ [CV.uint 1, .tru] := hv
      simp only [List.mem_cons, List.not_mem_nil, or_false] at hv
      rcases hv with rfl | rfl <;> trivial⟩, trivial⟩

/-- C108: a transfer, a call and the transfer again come through, with the nonces 0, 1 and 2. -/
example : ∃ (parse : Arr 33 → Option Secp.PK) (address : Str) (txs : List Transaction),
    AllCameThrough parse (fun _ n => [1, 2, 3].map fun i => UInt64.ofNat (i * n)) 2 0
      [.transfer exTransferBuilder, .call (exCallBuilder "SP2J6ZY48GV1EZ5V2V5RB9MP66SW86PYKKNRV9EJ7"),
        .transfer exTransferBuilder]
      (payAll ⟨"http://n".toList⟩ (oneAccountNode parse) address 2
        [.transfer exTransferBuilder, .call (exCallBuilder "SP2J6ZY48GV1EZ5V2V5RB9MP66SW86PYKKNRV9EJ7"),
          .transfer exTransferBuilder] []).1 txs := by
  obtain ⟨parse, hp⟩ := (parser_exists : ∃ parse : Arr 33 → Option Secp.PK, _)
  obtain ⟨s, hs⟩ := (C32.C10_c32_address_versions
    (hash160Of (Secp.serialize (Secp.pub (exKey 1))).1).1 26).1 (by decide)
  obtain ⟨txs, h, _⟩ := C108_payments parse hp ⟨"http://n".toList⟩ (oneAccountNode parse) id _ (exKey 1)
    (oneAccountNode_honest parse _) s 26 (C32.fromStr_iff.1 (C32.C12_address_from_str_roundtrip _ _ _ hs)) 2 (fun _ _ => by simp)
    [.transfer exTransferBuilder, .call (exCallBuilder "SP2J6ZY48GV1EZ5V2V5RB9MP66SW86PYKKNRV9EJ7"),
      .transfer exTransferBuilder]
    (by
      intro o h
      simp only [List.mem_cons, List.not_mem_nil, or_false] at h
      rcases h with rfl | rfl | rfl
      · exact ⟨exTransferOrder_acceptable, rfl⟩
      · exact ⟨exCallOrder_acceptable, rfl⟩
      · exact ⟨exTransferOrder_acceptable, rfl⟩)
    [] (by decide)
  exact ⟨parse, s, txs, h⟩

/-- C108: two of three pay; the node asked for a fee for 166 bytes less than it got. -/
example : ∃ (parse : Arr 33 → Option Secp.PK) (signer : Arr 20) (address : Str) (tx : Transaction),
    CameThroughTogether parse (fun _ n => [1, 2, 3].map fun i => UInt64.ofNat (i * n)) 0
      [.signs (exKey 1), .absent (Secp.pub (exKey 2)), .signs (exKey 3)] 2 signer exTx 0
      (payTogether ⟨"http://n".toList⟩ (oneAccountNode parse) address 0
        [.signs (exKey 1), .absent (Secp.pub (exKey 2)), .signs (exKey 3)] 2 .p2wsh exTx []).1 tx := by
  obtain ⟨parse, hp⟩ := (parser_exists : ∃ parse : Arr 33 → Option Secp.PK, _)
  obtain ⟨signer, hsig⟩ : ∃ s, bitcoinSigner .p2wsh 2
      ([.signs (exKey 1), .absent (Secp.pub (exKey 2)), .signs (exKey 3)].map Participant.key) = some s := ⟨_, rfl⟩
  obtain ⟨s, hs⟩ := (C32.C10_c32_address_versions signer.1 21).1 (by decide)
  obtain ⟨tx, h, _⟩ := C108_pay_together parse hp ⟨"http://n".toList⟩ (oneAccountNode parse) id _
    [.signs (exKey 1), .absent (Secp.pub (exKey 2)), .signs (exKey 3)] 2 .p2wsh exTx signer hsig exBody rfl
    (by decide) (by decide) (oneAccountNode_honest parse _) s 21 (C32.fromStr_iff.1 (C32.C12_address_from_str_roundtrip _ _ _ hs)) 0
    (fun _ _ => by simp) [] 0 rfl
  exact ⟨parse, signer, s, tx, h⟩

/-- C108: three payments of two of three, each time another two. -/
example : ∃ (parse : Arr 33 → Option Secp.PK) (signer : Arr 20) (address : Str) (txs : List Transaction),
    AllCameThroughTogether parse (fun _ n => [1, 2, 3].map fun i => UInt64.ofNat (i * n)) 1 2 signer 0
      [([.signs (exKey 1), .absent (Secp.pub (exKey 2)), .signs (exKey 3)], exTx),
        ([.signs (exKey 1), .signs (exKey 2), .absent (Secp.pub (exKey 3))], exTx),
        ([.absent (Secp.pub (exKey 1)), .signs (exKey 2), .signs (exKey 3)], exTx)]
      (payTogetherAll ⟨"http://n".toList⟩ (oneAccountNode parse) address 1 2 .p2sh
        [([.signs (exKey 1), .absent (Secp.pub (exKey 2)), .signs (exKey 3)], exTx),
          ([.signs (exKey 1), .signs (exKey 2), .absent (Secp.pub (exKey 3))], exTx),
          ([.absent (Secp.pub (exKey 1)), .signs (exKey 2), .signs (exKey 3)], exTx)] []).1 txs := by
  obtain ⟨parse, hp⟩ := (parser_exists : ∃ parse : Arr 33 → Option Secp.PK, _)
  obtain ⟨signer, hsig⟩ : ∃ s, bitcoinSigner .p2sh (2 : UInt8).toNat
      [Secp.pub (exKey 1), Secp.pub (exKey 2), Secp.pub (exKey 3)] = some s := ⟨_, rfl⟩
  obtain ⟨s, hs⟩ := (C32.C10_c32_address_versions signer.1 21).1 (by decide)
  obtain ⟨txs, h, _⟩ := C108_payments_together parse hp ⟨"http://n".toList⟩ (oneAccountNode parse) id _
    [Secp.pub (exKey 1), Secp.pub (exKey 2), Secp.pub (exKey 3)] 2 .p2sh signer hsig (by decide) (by decide)
    (oneAccountNode_honest parse _) s 21 (C32.fromStr_iff.1 (C32.C12_address_from_str_roundtrip _ _ _ hs)) 1 (fun _ _ => by simp)
    [([.signs (exKey 1), .absent (Secp.pub (exKey 2)), .signs (exKey 3)], exTx),
      ([.signs (exKey 1), .signs (exKey 2), .absent (Secp.pub (exKey 3))], exTx),
      ([.absent (Secp.pub (exKey 1)), .signs (exKey 2), .signs (exKey 3)], exTx)]
    (by
      intro o h
      simp only [List.mem_cons, List.not_mem_nil, or_false] at h
      rcases h with rfl | rfl | rfl <;> exact ⟨rfl, rfl, exBody⟩) [] (by decide)
  exact ⟨parse, signer, s, txs, h⟩

end

end Stacks.Rpc

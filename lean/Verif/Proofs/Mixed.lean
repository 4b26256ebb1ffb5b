import Verif.Spec.Mixed
import Verif.Props.Sponsored
import Verif.Proofs.Schedule

/-! # The steps of programs that pay in any way -/

namespace Stacks.Rpc
open Stacks.Spec Stacks.Tx Stacks.Wallet

section
variable [Secp] [Hashes]

omit [Hashes] in
theorem parts_append (s : Arr 20) (as bs : List Transaction) : parts s (as ++ bs) = parts s as + parts s bs :=
  List.countP_append

omit [Hashes] in
theorem parts_one (s : Arr 20) (t : Transaction) :
    parts s [t] = if s ∈ (takingPart t.auth).map Prod.fst then 1 else 0 := by
  unfold parts
  rw [List.countP_cons, List.countP_nil, Nat.zero_add]
  simp only [decide_eq_true_eq]

omit [Hashes] in
theorem parts_le (s : Arr 20) (ts : List Transaction) : parts s ts ≤ ts.length := List.countP_le_length

/-- Who takes part in a planned transaction, and with which nonces. -/
theorem fulfilled_parts {p : Plan} {ns : List UInt64} {fee : UInt64} {tx : Transaction} (h : p.Fulfilled ns fee tx) :
    ns.length = p.accounts.length ∧ takingPart tx.auth = p.accounts.zip ns := by
  cases p with
  | alone a c o =>
    obtain ⟨n, rfl, h⟩ := h
    obtain ⟨c, h1, h2, h3⟩ := fulfils_auth h
    refine ⟨rfl, ?_⟩
    rw [h1]
    simp only [takingPart, h2, h3]
    rfl
  | together a c ps m mode o =>
    obtain ⟨n, c, rfl, _, h2, h3, _, _, rfl⟩ := h
    simp only [Plan.accounts, h2, Option.toList_some, takingPart, signerOf, Spending.nonce, h3]
    exact ⟨rfl, rfl⟩
  | sponsored c o =>
    obtain ⟨n, n', c, d, rfl, _, h2, h3, _, _, h6, h7, _, rfl⟩ := h
    simp only [Plan.accounts, takingPart, signerOf, Spending.nonce, h2, h3, h6, h7]
    exact ⟨rfl, rfl⟩

theorem canPay_accounts {quotes : Str → Nat → List UInt64} {p : Plan} (h : p.CanPay quotes) :
    p.accounts.Nodup ∧ p.addresses.length = p.accounts.length ∧
    ∀ i (ha : i < p.addresses.length) (hb : i < p.accounts.length), ∃ v, IsAddress p.addresses[i] v p.accounts[i].1 := by
  cases p with
  | alone a c o =>
    obtain ⟨_, _, h⟩ := h
    refine ⟨by simp [Plan.accounts], rfl, fun i ha hb => ?_⟩
    obtain rfl : i = 0 := by simpa [Plan.addresses] using ha
    exact h
  | together a c ps m mode o =>
    obtain ⟨_, _, _, _, _, s, v, h1, h2⟩ := h
    simp only [Plan.accounts, h1, Option.toList_some]
    refine ⟨by simp, rfl, fun i ha hb => ?_⟩
    obtain rfl : i = 0 := by simpa [Plan.addresses] using ha
    exact ⟨v, h2⟩
  | sponsored c o =>
    obtain ⟨_, _, h1, h2, h3⟩ := h
    refine ⟨by simp [Plan.accounts, h3], rfl, fun i ha hb => ?_⟩
    match i, ha with
    | 0, _ => exact h1
    | 1, _ => exact h2
    | i + 2, ha => simp [Plan.addresses] at ha

theorem next_iff {p : Plan} {ns : List UInt64} {fee : UInt64} {tx : Transaction} (h : p.Fulfilled ns fee tx)
    (ts : List Transaction) : p.Next ns ts ↔ ∀ x ∈ takingPart tx.auth, x.2.toNat = parts x.1 ts := by
  obtain ⟨h1, h2⟩ := fulfilled_parts h
  rw [h2]
  unfold Plan.Next
  generalize p.accounts = as at *
  clear h h2
  induction as generalizing ns with
  | nil => cases ns with
    | nil => simp
    | cons n ns => simp at h1
  | cons a as ih => cases ns with
    | nil => simp at h1
    | cons n ns =>
      have := ih (ns := ns) (by simpa using h1)
      simp only [List.map_cons, List.cons.injEq, this, List.zip_cons_cons, List.mem_cons, forall_eq_or_imp]

variable [Http] {L : Type}

theorem fair_counting {parse : Arr 33 → Option Secp.PK} {url : Str} {quotes : Str → Nat → List UInt64}
    {node : StatefulNode L} {accepted : L → List Transaction} (hn : Fair parse url quotes node accepted) :
    Counting parse url quotes node accepted (fun l s => parts s (accepted l)) where
  account := hn.account
  fees := hn.fees
  account_state l s := ⟨hn.account_state l s, by simp only [hn.account_state l s]⟩
  fees_state l hex n := ⟨hn.fees_state l hex n, by simp only [hn.fees_state l hex n]⟩
  broadcast l bs t h1 h2 h3 h4 := by
    obtain ⟨h5, h6⟩ := hn.accept l bs t h1 h2 h3 h4
    refine ⟨h5, h6, fun s => ?_⟩
    simp only [h6, parts_append, parts_one]

/-- Asking for the next nonce. -/
theorem proceed_ask (parse : Arr 33 → Option Secp.PK) (r : StacksRPC) (node : StatefulNode L)
    (accepted : L → List Transaction) (quotes : Str → Nat → List UInt64)
    (hn : Fair parse r.url quotes node accepted) (p : Plan) (hp : p.CanPay quotes) (l : L) (ns : List UInt64)
    (hlt : ns.length < p.accounts.length) (hb : (accepted l).length < 2 ^ 64) :
    ∃ n l', p.proceed r node (.knows ns) l = (.knows (ns ++ [n]), l') ∧ accepted l' = accepted l ∧
      n.toNat = parts p.accounts[ns.length] (accepted l) := by
  obtain ⟨_, hlen, hadr⟩ := canPay_accounts hp
  have ha : ns.length < p.addresses.length := by omega
  obtain ⟨v, hv⟩ := hadr _ ha hlt
  have hno : (UInt64.ofNat (parts p.accounts[ns.length] (accepted l))).toNat = parts p.accounts[ns.length] (accepted l) := by
    rw [UInt64.toNat_ofNat']
    exact Nat.mod_eq_of_lt (lt_of_le_of_lt (parts_le _ _) hb)
  obtain ⟨i, l', a1, a2, a3, _⟩ := ask_account parse r node accepted _ quotes (fair_counting hn) l _ _ v hv _ hno
  refine ⟨i.nonce, l', ?_, a3, by rw [a2]; exact hno⟩
  unfold Plan.proceed
  simp only [List.getElem?_eq_getElem ha, a1]

theorem prepare_alone [Secp.Lawful] (parse : Arr 33 → Option Secp.PK)
    (hp : ∀ k, parse (Secp.serialize k) = some k) (r : StacksRPC) (node : StatefulNode L)
    (accepted : L → List Transaction) (quotes : Str → Nat → List UInt64)
    (hn : Fair parse r.url quotes node accepted) (address : Str) (choice : Nat) (order : Order)
    (hc : (Plan.alone address choice order).CanPay quotes) (l : L) (n : UInt64) :
    ∃ t id tx l', (Plan.alone address choice order).prepare r node [n] l = (.ready t, l') ∧ accepted l' = accepted l ∧
      (Plan.alone address choice order).Prepared parse quotes [n] t id tx := by
  obtain ⟨hq, ho, _⟩ := hc
  obtain ⟨t, c, b1, b2, b3, b4, b5, b6, b7, b8⟩ := build_order order ho n
  have hwf : WellFormedTransaction t := acceptable_wf (by rw [b2]; exact .inl b3) b7
  obtain ⟨bs0, e0⟩ : ∃ bs, t.encode = .ok bs := by
    obtain ⟨bs, h, _⟩ := C43_reader_recovers parse hp t hwf []
    exact ⟨bs, h⟩
  obtain ⟨f, e, l', hex, q, f1, f2, f3, f4, f5, f6, _⟩ :=
    ask_fee parse r node accepted _ quotes (fair_counting hn) l t bs0 e0 choice hq
  have hset : t.setFee e.fee = { t with auth := .standard (.single { c with fee := e.fee }) } := by
    unfold Transaction.setFee
    rw [b2]; rfl
  obtain ⟨t', sig, bs, g1, g2, g3, g4, g5⟩ := single_signed parse hp (t.setFee e.fee) order.key
    { c with fee := e.fee } (by rw [hset]) b3 b4 b6 (by rw [hset]; exact b7)
  have hlen : bs.length = bs0.length := by
    obtain ⟨bs1, h1, h2⟩ := C46_setters_length [.fee e.fee] t bs0 e0
    obtain ⟨bs2, h3, h4⟩ := C46_sign_length (t.setFee e.fee) t' order.key { c with fee := e.fee } g1
      (by rw [hset]; rfl) bs1 h1
    obtain rfl := Outcome.ok.inj (g3.symm.trans h3)
    rw [h4, h2]
  have hpay : t'.payload = t.payload := by rw [g2, hset]
  rw [hset] at g2
  have hsuf : q <:+ bs := by
    obtain ⟨⟨_, _, _, hpe⟩, rfl⟩ := (transaction_encode_iff t' bs).1 g3
    obtain ⟨_, rfl⟩ := (payload_encode_iff t.payload q).1 f3
    rw [← hpay]
    exact List.suffix_append _ _
  have hread : readPayload.run q = some (readBack t.payload, []) := by
    obtain ⟨_, rfl⟩ := (payload_encode_iff t.payload q).1 f3
    have := reads_payload t.payload b7.2.2.1 []
    rwa [List.append_nil] at this
  have hpl : (t.setFee e.fee).payload = t.payload := by rw [hset]
  rw [hpl] at g5
  refine ⟨t', hexText (Hashes.sha512_256 bs).1, _, l', ?_, f6, bs, Hashes.sha512_256 bs, hex, q, e.fee, bs0.length, g3,
    ?_, rfl, g4, g5, ⟨n, rfl, ?_⟩, ((Hex.C02_hex_decode_exact _).1 _).1 f4, hsuf, hread, f5, hlen⟩
  · unfold Plan.prepare
    simp only [b1, f1, f2, g1]
  · unfold Transaction.hash
    rw [g3]; rfl
  · rw [g2]; exact b8 e.fee sig

theorem prepare_together [Secp.Lawful] (parse : Arr 33 → Option Secp.PK)
    (hp : ∀ k, parse (Secp.serialize k) = some k) (r : StacksRPC) (node : StatefulNode L)
    (accepted : L → List Transaction) (quotes : Str → Nat → List UInt64)
    (hn : Fair parse r.url quotes node accepted) (address : Str) (choice : Nat) (ps : List Participant) (m : UInt8)
    (mode : C32.Mode) (order : Transaction)
    (hc : (Plan.together address choice ps m mode order).CanPay quotes) (l : L) (nonce : UInt64) :
    ∃ t id tx l', (Plan.together address choice ps m mode order).prepare r node [nonce] l = (.ready t, l') ∧
      accepted l' = accepted l ∧
      (Plan.together address choice ps m mode order).Prepared parse quotes [nonce] t id tx := by
  obtain ⟨hq, hb, hm, h1, h16, signer, v, hsig, _⟩ := hc
  have hle : ps.countP Participant.isSigner ≤ ps.length := List.countP_le_length
  have hnew : ∀ fee, (MultiSig.new (ps.map Participant.key) fee nonce m mode : Outcome TxError MultiSig) =
      .ok ⟨mode, fee, nonce, signer, [], m⟩ := fun fee =>
    (multi_new_iff _ fee nonce m mode _).2 ⟨⟨by omega, by rw [List.length_map]; omega⟩,
      by rw [scriptSigner_eq _ _ _ ⟨h1, by omega⟩ (by rw [List.length_map]; omega)]; exact hsig, rfl⟩
  have hmode : mode = .p2sh ∨ mode = .p2wsh := by
    cases mode <;> first | exact .inl rfl | exact .inr rfl | cases hsig
  generalize hc : (⟨mode, 0, nonce, signer, [], m⟩ : MultiSig) = c at *
  generalize ht : ({ order with auth := .standard (.multi c) } : Transaction) = t at *
  have hwf : WellFormedTransaction t := by
    subst ht hc
    exact acceptable_wf ⟨hmode, Nat.zero_lt_succ _⟩ hb
  obtain ⟨bs0, e0⟩ : ∃ bs, t.encode = .ok bs := by
    obtain ⟨bs, h, _⟩ := C43_reader_recovers parse hp t hwf []
    exact ⟨bs, h⟩
  obtain ⟨f, e, l', hex, p, f1, f2, f3, f4, f5, f6, _⟩ :=
    ask_fee parse r node accepted _ quotes (fair_counting hn) l t bs0 e0 choice hq
  have hset : t.setFee e.fee = { order with auth := .standard (.multi ⟨mode, e.fee, nonce, signer, [], m⟩) } := by
    subst ht hc; rfl
  obtain ⟨s, bs, g1, g2, g3⟩ := C80_multisig_accepted parse hp (t.setFee e.fee) ps e.fee nonce m mode
    ⟨mode, e.fee, nonce, signer, [], m⟩ (hnew e.fee) (by rw [hset]) (by rw [hset]; exact hb) hm h1 h16
  obtain ⟨gs, w1, w2⟩ : ∃ gs : List AuthField, gs.map isSignature = ps.map Participant.isSigner ∧
      s.tx = { order with auth := .standard (.multi ⟨mode, e.fee, nonce, signer, gs, m⟩) } := by
    have hE := (wf_encodable_tx _ (acceptable_wf (t := t.setFee e.fee)
      (by rw [hset]; exact ⟨hmode, Nat.zero_lt_succ _⟩) (by rw [hset]; exact hb))).2
    obtain ⟨s', gs, k1, k2, _, k4, _⟩ := walk_ok ps
      ⟨t.setFee e.fee, Hashes.sha512_256 (signingPreimage (t.setFee e.fee)), false, true, true⟩
      ⟨mode, e.fee, nonce, signer, [], m⟩ (by rw [hset]; rfl) hmode (by simp)
      (fun _ => by simp only [List.countP_nil]; omega)
    rw [(signer_new_iff _ _).2 ⟨hE, rfl⟩, Outcome.ok_bind] at g1
    obtain rfl := Outcome.ok.inj (g1.symm.trans k1)
    refine ⟨gs, k4, ?_⟩
    rw [k2, hset]; rfl
  have hcount : gs.countP isSignature = m.toNat ∧ gs.length = ps.length := by
    have e1 : (gs.map isSignature).countP id = gs.countP isSignature := by rw [List.countP_map]; rfl
    have e2 : (ps.map Participant.isSigner).countP id = ps.countP Participant.isSigner := by
      rw [List.countP_map]; rfl
    refine ⟨by rw [← hm, ← e1, ← e2, w1], ?_⟩
    have := congrArg List.length w1
    rwa [List.length_map, List.length_map] at this
  have hwf' : WellFormedTransaction s.tx := by
    rw [w2]
    exact acceptable_wf ⟨hmode, by simp only []; omega⟩ hb
  obtain ⟨bs', d1, d2⟩ := C43_reader_recovers parse hp s.tx hwf' []
  obtain rfl := Outcome.ok.inj (g2.symm.trans d1)
  rw [List.append_nil] at d2
  have hlen : bs.length = bs0.length + (66 * m.toNat + 34 * (ps.length - m.toNat)) := by
    obtain ⟨_, rfl⟩ := (transaction_encode_iff _ _).1 g2
    obtain ⟨_, rfl⟩ := (transaction_encode_iff _ _).1 e0
    subst ht hc
    have e3 : ∀ c : MultiSig, txTail { order with auth := .standard (.multi c) } =
        txTail { order with auth := .standard (.multi ⟨mode, 0, nonce, signer, [], m⟩) } := fun c => rfl
    rw [w2, transaction_split, transaction_split { order with auth := _ }, e3]
    simp only [Auth.origin, spendingTail, List.length_append, txHead_length, beBytes_length, fields_length, hcount.1,
      hcount.2, List.map_nil, List.flatten_nil, List.length_nil]
    omega
  have hpay : s.tx.payload = t.payload := by rw [w2]; subst ht; rfl
  have hopay : t.payload = order.payload := by subst ht; rfl
  have hsuf : p <:+ bs := by
    obtain ⟨⟨_, _, _, hpe⟩, rfl⟩ := (transaction_encode_iff s.tx bs).1 g2
    obtain ⟨_, rfl⟩ := (payload_encode_iff t.payload p).1 f3
    rw [← hpay]
    exact List.suffix_append _ _
  have hread : readPayload.run p = some (readBack order.payload, []) := by
    obtain ⟨_, rfl⟩ := (payload_encode_iff t.payload p).1 f3
    have := reads_payload order.payload hb.2.2.1 []
    rw [List.append_nil] at this
    rw [hopay]; exact this
  rw [w2] at d2
  refine ⟨s.tx, hexText (Hashes.sha512_256 bs).1, _, l', ?_, f6, bs, Hashes.sha512_256 bs, hex, p, e.fee, bs0.length, g2,
    ?_, rfl, g3, d2, ⟨nonce, ⟨mode, e.fee, nonce, signer, gs, m⟩, rfl, rfl, hsig, rfl, rfl, rfl, rfl⟩,
    ((Hex.C02_hex_decode_exact _).1 _).1 f4, hsuf, hread, f5, hlen⟩
  · unfold Plan.prepare
    have hnew0 := hnew 0
    rw [hc] at hnew0
    simp only [hnew0, ht, f1, f2, g1]
  · unfold Transaction.hash
    rw [g2]; rfl

theorem prepare_sponsored [Secp.Lawful] (parse : Arr 33 → Option Secp.PK)
    (hp : ∀ k, parse (Secp.serialize k) = some k) (r : StacksRPC) (node : StatefulNode L)
    (accepted : L → List Transaction) (quotes : Str → Nat → List UInt64)
    (hn : Fair parse r.url quotes node accepted) (choice : Nat) (o : SponsoredOrder)
    (hc : (Plan.sponsored choice o).CanPay quotes) (l : L) (nonce nonce' : UInt64) :
    ∃ t id tx l', (Plan.sponsored choice o).prepare r node [nonce, nonce'] l = (.ready t, l') ∧
      accepted l' = accepted l ∧ (Plan.sponsored choice o).Prepared parse quotes [nonce, nonce'] t id tx := by
  obtain ⟨hq, hb, _, _, hne⟩ := hc
  generalize hc : (⟨.p2pkh, 0, nonce, accountOf o.origin, noSignature⟩ : SingleSig) = c
  generalize hd : (⟨.p2pkh, 0, nonce', accountOf o.sponsor, noSignature⟩ : SingleSig) = d
  have hcm : c.mode = .p2pkh := by subst hc; rfl
  have hdm : d.mode = .p2pkh := by subst hd; rfl
  have hw0 : WellFormedTransaction { o.order with auth := .sponsored (.single c) (.single d) } :=
    acceptable_wf (show _ ∧ _ from ⟨.inl hcm, .inl hdm⟩) hb
  have hnewc : (SingleSig.new (Secp.pub o.origin) 0 nonce .p2pkh : Outcome TxError SingleSig) = .ok c := by
    rw [← hc]; exact new_p2pkh _ _ _
  have hnewd : (SingleSig.new (Secp.pub o.sponsor) 0 nonce' .p2pkh : Outcome TxError SingleSig) = .ok d := by
    rw [← hd]; exact new_p2pkh _ _ _
  obtain ⟨s0, b1, b2, b3⟩ := C47_sign_then_verify
    { o.order with auth := .sponsored (.single c) (.single d) } (Secp.pub o.origin) 0 nonce .p2pkh c o.origin hnewc rfl
    (wf_encodable_tx _ hw0).2
  have hver := b3.1 rfl
  obtain ⟨_, _, _, e1⟩ := (sign_iff _ _ _).1 b2
  obtain ⟨sig, ht⟩ : ∃ sig, s0.tx = { o.order with
      auth := .sponsored (.single { c with signature := sig }) (.single d) } := ⟨_, e1⟩
  have hw1 : WellFormedTransaction s0.tx := by
    rw [ht]; exact acceptable_wf (show _ ∧ _ from ⟨.inl hcm, .inl hdm⟩) hb
  obtain ⟨bs0, e0, _⟩ := C43_reader_recovers parse hp s0.tx hw1 []
  obtain ⟨f, e, l', hex, p, f1, f2, f3, f4, f5, f6, _⟩ :=
    ask_fee parse r node accepted _ quotes (fair_counting hn) l s0.tx bs0 e0 choice hq
  generalize hd2 : (⟨.p2pkh, e.fee, nonce', accountOf o.sponsor, noSignature⟩ : SingleSig) = q
  have hqm : q.mode = .p2pkh := by subst hd2; rfl
  have hnewq : (SingleSig.new (Secp.pub o.sponsor) e.fee nonce' .p2pkh : Outcome TxError SingleSig) = .ok q := by
    rw [← hd2]; exact new_p2pkh _ _ _
  obtain ⟨s1, s2, bs, g1, g2, g3, g4⟩ := C80_sponsored_accepted parse hp s0.tx (.single { c with signature := sig })
    (.single d) s0.hash o.sponsor e.fee nonce' .p2pkh q (by rw [ht]) hver hnewq (.inl hcm) trivial trivial
    (by rw [ht]; exact hb)
  obtain ⟨sig', ht'⟩ : ∃ sig', s2.tx = { o.order with
      auth := .sponsored (.single { c with signature := sig }) (.single { q with signature := sig' }) } := by
    obtain ⟨o', c', _, h1, _, rfl⟩ := (newSponsor_iff _ _ _).1 g1
    obtain ⟨o'', c'', h2, _, _, rfl⟩ := (signSponsor_iff _ _ _).1 g2
    cases h2
    rw [ht] at h1
    cases h1
    simp only [Signer.withSponsor, ht]
    exact ⟨_, rfl⟩
  have hw2 : WellFormedTransaction s2.tx := by
    rw [ht']; exact acceptable_wf (show _ ∧ _ from ⟨.inl hcm, .inl hqm⟩) hb
  obtain ⟨bs', d1, d2⟩ := C43_reader_recovers parse hp s2.tx hw2 []
  obtain rfl := Outcome.ok.inj (g3.symm.trans d1)
  rw [List.append_nil] at d2
  have hlen : bs.length = bs0.length := by
    obtain ⟨_, rfl⟩ := (transaction_encode_iff _ _).1 g3
    obtain ⟨_, rfl⟩ := (transaction_encode_iff _ _).1 e0
    rw [ht, ht']
    simp only [transactionBytes, authBytes, spendingBytes, List.length_append, List.length_cons, beBytes_length,
      List.length_nil]
    rw [q.signer.2, d.signer.2, sig'.2, d.signature.2]
  have hpay : s2.tx.payload = s0.tx.payload := by rw [ht', ht]
  have hsuf : p <:+ bs := by
    obtain ⟨⟨_, _, _, hpe⟩, rfl⟩ := (transaction_encode_iff s2.tx bs).1 g3
    obtain ⟨_, rfl⟩ := (payload_encode_iff s0.tx.payload p).1 f3
    rw [← hpay]
    exact List.suffix_append _ _
  have hread : readPayload.run p = some (readBack o.order.payload, []) := by
    obtain ⟨_, rfl⟩ := (payload_encode_iff s0.tx.payload p).1 f3
    have := reads_payload o.order.payload hb.2.2.1 []
    rw [List.append_nil] at this
    rw [ht]; exact this
  rw [ht'] at d2
  have hcs : c.signer = accountOf o.origin ∧ c.nonce = nonce ∧ c.fee = 0 := by subst hc; exact ⟨rfl, rfl, rfl⟩
  have hqs : q.signer = accountOf o.sponsor ∧ q.nonce = nonce' ∧ q.fee = e.fee := by subst hd2; exact ⟨rfl, rfl, rfl⟩
  refine ⟨s2.tx, hexText (Hashes.sha512_256 bs).1, _, l', ?_, f6, bs, Hashes.sha512_256 bs, hex, p, e.fee, bs0.length, g3,
    ?_, rfl, g4, d2, ⟨nonce, nonce', { c with signature := sig }, { q with signature := sig' },
    rfl, hcm, hcs.1, hcs.2.1, hcs.2.2, hqm, hqs.1, hqs.2.1, hqs.2.2, rfl⟩, ((Hex.C02_hex_decode_exact _).1 _).1 f4, hsuf,
    hread, f5, hlen⟩
  · unfold Plan.prepare
    simp only [hnewc, hnewd, b2, f1, f2, hnewq, g1, Outcome.ok_bind, g2]
  · unfold Transaction.hash
    rw [g3]; rfl

/-- Asking for the fee and signing. -/
theorem proceed_sign [Secp.Lawful] (parse : Arr 33 → Option Secp.PK)
    (hp : ∀ k, parse (Secp.serialize k) = some k) (r : StacksRPC) (node : StatefulNode L)
    (accepted : L → List Transaction) (quotes : Str → Nat → List UInt64)
    (hn : Fair parse r.url quotes node accepted) (p : Plan) (hc : p.CanPay quotes) (l : L) (ns : List UInt64)
    (hlen : ns.length = p.accounts.length) :
    ∃ t id tx l', p.proceed r node (.knows ns) l = (.ready t, l') ∧ accepted l' = accepted l ∧
      p.Prepared parse quotes ns t id tx := by
  have h1 : p.proceed r node (.knows ns) l = p.prepare r node ns l := by
    unfold Plan.proceed
    simp only [List.getElem?_eq_none (l := p.addresses) (i := ns.length) (by rw [(canPay_accounts hc).2.1, hlen])]
  rw [h1]
  cases p with
  | alone a c o =>
    match ns, hlen with
    | [n], _ => exact prepare_alone parse hp r node accepted quotes hn a c o hc l n
  | together a c ps m mode o =>
    obtain ⟨_, _, _, _, _, s, _, h, _⟩ := id hc
    simp only [Plan.accounts, h, Option.toList_some] at hlen
    match ns, hlen with
    | [n], _ => exact prepare_together parse hp r node accepted quotes hn a c ps m mode o hc l n
  | sponsored c o =>
    match ns, hlen with
    | [n, n'], _ => exact prepare_sponsored parse hp r node accepted quotes hn c o hc l n n'

/-- Sending. -/
theorem proceed_send (parse : Arr 33 → Option Secp.PK) (r : StacksRPC) (node : StatefulNode L)
    (accepted : L → List Transaction) (quotes : Str → Nat → List UInt64)
    (hn : Fair parse r.url quotes node accepted) (p : Plan) (hc : p.CanPay quotes) (l : L) (ns : List UInt64)
    (t : Transaction) (id : Str) (tx : Transaction) (h : p.Prepared parse quotes ns t id tx) :
    (p.Next ns (accepted l) →
      ∃ l', p.proceed r node (.ready t) l = (.answered t (.ok (.ok id)), l') ∧ accepted l' = accepted l ++ [tx]) ∧
    (¬ p.Next ns (accepted l) →
      ∃ e l', p.proceed r node (.ready t) l = (.answered t (.ok (.err e)), l') ∧ accepted l' = accepted l) := by
  obtain ⟨bs, hash, hex, q, fee, quoted, h1, h2, h3, h4, h5, h6, _⟩ := h
  have hhash : hash = Hashes.sha512_256 bs := by
    unfold Transaction.hash at h2
    rw [h1] at h2
    exact (Outcome.ok.inj h2).symm
  have hs : (r.broadcast (fun q => (node l q).1) t).sent = [broadcastRequest r.url bs] :=
    (C62_broadcast r _ t).1 bs h1
  obtain ⟨k1, k2⟩ := fulfilled_parts h6
  have hnd : ((takingPart tx.auth).map Prod.fst).Nodup := by
    rw [k2, List.map_fst_zip (by omega)]
    exact (canPay_accounts hc).1
  rw [next_iff h6]
  refine ⟨fun hl => ?_, fun hl => ?_⟩
  · obtain ⟨⟨code, body, a1, a2, a3⟩, a4⟩ := hn.accept l bs tx h4 h5 hnd hl
    refine ⟨_, ?_, a4⟩
    have q : ask node l (r.broadcast · t) = (.ok (.ok id), (node l (broadcastRequest r.url bs)).2) := by
      refine Prod.ext_iff.2 ⟨((C63_broadcast r (fun q => (node l q).1) t bs h1).1 _).2 ⟨code, body, a1, a2, ?_⟩, ?_⟩
      · rw [h3, hhash]; exact a3
      · show List.foldl _ _ (r.broadcast (fun q => (node l q).1) t).sent = _
        rw [hs]; rfl
    unfold Plan.proceed
    simp only [q]
  · obtain ⟨⟨code, body, j, e, a1, a2, a3, a4⟩, a5⟩ := hn.refuse l bs tx h4 h5 (by
      by_contra hx
      exact hl fun x hm => by
        by_contra hy
        exact hx ⟨x, hm, hy⟩)
    refine ⟨e, _, ?_, a5⟩
    have q : ask node l (r.broadcast · t) = (.ok (.err e), (node l (broadcastRequest r.url bs)).2) := by
      refine Prod.ext_iff.2
        ⟨((C63_broadcast r (fun q => (node l q).1) t bs h1).2.1 _).2 ⟨code, body, j, a1, a2, a3, a4⟩, ?_⟩
      show List.foldl _ _ (r.broadcast (fun q => (node l q).1) t).sent = _
      rw [hs]; rfl
    unfold Plan.proceed
    simp only [q]

end

end Stacks.Rpc

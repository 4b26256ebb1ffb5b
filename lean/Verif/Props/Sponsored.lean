import Verif.Spec.Sponsored
import Verif.Props.Payments

/-! # C111: sponsored payments through a node -/

namespace Stacks.Rpc
open Stacks.Spec Stacks.Tx Stacks.Wallet

section
variable [Secp] [Hashes] [Http] {L : Type}

omit [Hashes] in
theorem ask_account (parse : Arr 33 → Option Secp.PK) [Hashes] (r : StacksRPC) (node : StatefulNode L)
    (accepted : L → List Transaction) (count : L → Arr 20 → Nat) (quotes : Str → Nat → List UInt64)
    (hn : Counting parse r.url quotes node accepted count) (l : L) (s : Str) (signer : Arr 20) (v : UInt8)
    (hs : IsAddress s v signer.1) (n : UInt64) (hc : n.toNat = count l signer) :
    ∃ i l', ask node l (r.address · s) = (.ok i, l') ∧ i.nonce = n ∧ accepted l' = accepted l ∧ count l' = count l := by
  obtain ⟨code, body, j, i, a1, a2, a3, a4, a5⟩ := hn.account l s signer v n hs hc
  exact ⟨i, _, Prod.ext_iff.2
    ⟨((C68_address r (fun q => (node l q).1) s).2.1 i).2 ⟨code, body, j, a1, a2, a3, a4⟩, rfl⟩, a5,
    hn.account_state l s⟩

theorem ask_fee (parse : Arr 33 → Option Secp.PK) (r : StacksRPC) (node : StatefulNode L)
    (accepted : L → List Transaction) (count : L → Arr 20 → Nat) (quotes : Str → Nat → List UInt64)
    (hn : Counting parse r.url quotes node accepted count) (l : L) (t : Transaction) (bs : Bytes)
    (ht : t.encode = .ok bs) (choice : Nat) (hq : ∀ hex n, choice < (quotes hex n).length) :
    ∃ f e l' hex p, ask node l (r.estimateFee · t) = (.ok (.ok f), l') ∧ f.estimations[choice]? = some e ∧
      t.payload.encode = .ok p ∧ Hex.hexToBytes hex = .ok p ∧ (quotes hex bs.length)[choice]? = some e.fee ∧
      accepted l' = accepted l ∧ count l' = count l := by
  obtain ⟨hex, p, p1, p2, p3, p4, p5⟩ := (C62_estimate_fee r (fun q => (node l q).1) t).1 bs ht
  obtain ⟨code2, body2, j2, f, f1, f2, f3, f4, f5⟩ := hn.fees l hex bs.length
  obtain ⟨e, he⟩ : ∃ e, f.estimations[choice]? = some e := by
    have := hq hex bs.length
    rw [← f5, List.length_map] at this
    exact ⟨_, List.getElem?_eq_getElem this⟩
  refine ⟨f, e, (node l (feeQuestion r.url hex bs.length)).2, hex, p, ?_, he, p1, p3,
    by rw [← f5, List.getElem?_map, he]; rfl, hn.fees_state l hex bs.length⟩
  refine Prod.ext_iff.2 ⟨((C63_estimate_fee r (fun q => (node l q).1) t bs p ht p1).1 f).2 ?_, ?_⟩
  · exact ⟨code2, body2, j2, by rw [← p4]; exact f1, f2, f3, f4⟩
  · show List.foldl _ _ (r.estimateFee (fun q => (node l q).1) t).sent = _
    rw [p5]; rfl

omit [Http] in
theorem new_p2pkh (k : Secp.SK) (fee nonce : UInt64) :
    (SingleSig.new (Secp.pub k) fee nonce .p2pkh : Outcome TxError SingleSig) =
      .ok ⟨.p2pkh, fee, nonce, accountOf k, noSignature⟩ := (single_new_iff _ _ _ _ _).2 ⟨rfl, rfl, rfl, rfl, rfl⟩

/-- **C111** A sponsored payment through a node that counts: it comes through, with the nonces of both accounts; the
sponsor pays what the node asks for exactly the bytes that are sent. -/
theorem C111_pay_sponsored [Secp.Lawful] (parse : Arr 33 → Option Secp.PK)
    (hp : ∀ k, parse (Secp.serialize k) = some k)
    (r : StacksRPC) (node : StatefulNode L) (accepted : L → List Transaction) (count : L → Arr 20 → Nat)
    (quotes : Str → Nat → List UInt64) (hn : Counting parse r.url quotes node accepted count)
    (o : SponsoredOrder) (ho : o.Acceptable) (choice : Nat) (hq : ∀ hex n, choice < (quotes hex n).length)
    (l : L) (nonce nonce' : UInt64) (hl : nonce.toNat = count l (accountOf o.origin))
    (hl' : nonce'.toNat = count l (accountOf o.sponsor)) :
    ∃ tx, SponsoredCameThrough parse quotes choice o nonce nonce' (paySponsored r node choice o l).1 tx ∧
      accepted (paySponsored r node choice o l).2 = accepted l ++ [tx] ∧
      ∀ s, count (paySponsored r node choice o l).2 s =
        count l s + if s = accountOf o.origin ∨ s = accountOf o.sponsor then 1 else 0 := by
  obtain ⟨hb, ⟨v, hv⟩, ⟨v', hv'⟩, hne⟩ := ho
  -- the nonces
  obtain ⟨i, l1, a1, a2, a3, a4⟩ := ask_account parse r node accepted count quotes hn l _ _ v hv nonce hl
  obtain ⟨i', l2, a1', a2', a3', a4'⟩ := ask_account parse r node accepted count quotes hn l1 _ _ v' hv' nonce'
    (by rw [a4]; exact hl')
  -- the origin signs
  generalize hc : (⟨.p2pkh, 0, nonce, accountOf o.origin, noSignature⟩ : SingleSig) = c
  generalize hd : (⟨.p2pkh, 0, nonce', accountOf o.sponsor, noSignature⟩ : SingleSig) = d
  have hcm : c.mode = .p2pkh := by subst hc; rfl
  have hdm : d.mode = .p2pkh := by subst hd; rfl
  have hw0 : WellFormedTransaction { o.order with auth := .sponsored (.single c) (.single d) } :=
    acceptable_wf (show _ ∧ _ from ⟨.inl hcm, .inl hdm⟩) hb
  have hnewc : (SingleSig.new (Secp.pub o.origin) 0 nonce .p2pkh : Outcome TxError SingleSig) = .ok c := by
    rw [← hc]; exact new_p2pkh _ _ _
  have hnewd : (SingleSig.new (Secp.pub o.sponsor) 0 nonce' .p2pkh : Outcome TxError SingleSig) = .ok d := by
    rw [← hd]; exact new_p2pkh _ _ _
  obtain ⟨s0, b1, b2, b3⟩ := C47_sign_then_verify
    { o.order with auth := .sponsored (.single c) (.single d) } (Secp.pub o.origin) 0 nonce .p2pkh c o.origin hnewc rfl
    (wf_encodable_tx _ hw0).2
  have hver := b3.1 rfl
  obtain ⟨_, _, _, e1⟩ := (sign_iff _ _ _).1 b2
  obtain ⟨sig, ht⟩ : ∃ sig, s0.tx = { o.order with
      auth := .sponsored (.single { c with signature := sig }) (.single d) } := ⟨_, e1⟩
  have hw1 : WellFormedTransaction s0.tx := by
    rw [ht]; exact acceptable_wf (show _ ∧ _ from ⟨.inl hcm, .inl hdm⟩) hb
  obtain ⟨bs0, e0, _⟩ := C43_reader_recovers parse hp s0.tx hw1 []
  -- the fee
  obtain ⟨f, e, l3, hex, p, f1, f2, f3, f4, f5, f6, f7⟩ :=
    ask_fee parse r node accepted count quotes hn l2 s0.tx bs0 e0 choice hq
  -- the sponsor signs
  generalize hd2 : (⟨.p2pkh, e.fee, nonce', accountOf o.sponsor, noSignature⟩ : SingleSig) = q
  have hqm : q.mode = .p2pkh := by subst hd2; rfl
  have hnewq : (SingleSig.new (Secp.pub o.sponsor) e.fee nonce' .p2pkh : Outcome TxError SingleSig) = .ok q := by
    rw [← hd2]; exact new_p2pkh _ _ _
  obtain ⟨s1, s2, bs, g1, g2, g3, g4⟩ := C80_sponsored_accepted parse hp s0.tx (.single { c with signature := sig })
    (.single d) s0.hash o.sponsor e.fee nonce' .p2pkh q (by rw [ht]) hver hnewq (.inl hcm) trivial trivial
    (by rw [ht]; exact hb)
  obtain ⟨sig', ht'⟩ : ∃ sig', s2.tx = { o.order with
      auth := .sponsored (.single { c with signature := sig }) (.single { q with signature := sig' }) } := by
    obtain ⟨o', c', _, h1, _, rfl⟩ := (newSponsor_iff _ _ _).1 g1
    obtain ⟨o'', c'', h2, _, _, rfl⟩ := (signSponsor_iff _ _ _).1 g2
    cases h2
    rw [ht] at h1
    cases h1
    simp only [Signer.withSponsor, ht]
    exact ⟨_, rfl⟩
  have hw2 : WellFormedTransaction s2.tx := by
    rw [ht']; exact acceptable_wf (show _ ∧ _ from ⟨.inl hcm, .inl hqm⟩) hb
  obtain ⟨bs', d1, d2⟩ := C43_reader_recovers parse hp s2.tx hw2 []
  obtain rfl := Outcome.ok.inj (g3.symm.trans d1)
  rw [List.append_nil] at d2
  have hlen : bs.length = bs0.length := by
    obtain ⟨_, rfl⟩ := (transaction_encode_iff _ _).1 g3
    obtain ⟨_, rfl⟩ := (transaction_encode_iff _ _).1 e0
    rw [ht, ht']
    simp only [transactionBytes, authBytes, spendingBytes, List.length_append, List.length_cons, beBytes_length,
      List.length_nil]
    rw [q.signer.2, d.signer.2, sig'.2, d.signature.2]
  have hpay : s2.tx.payload = s0.tx.payload := by rw [ht', ht]
  have hsuf : p <:+ bs := by
    obtain ⟨⟨_, _, _, hpe⟩, rfl⟩ := (transaction_encode_iff s2.tx bs).1 g3
    obtain ⟨_, rfl⟩ := (payload_encode_iff s0.tx.payload p).1 f3
    rw [← hpay]
    exact List.suffix_append _ _
  have hread : readPayload.run p = some (readBack o.order.payload, []) := by
    obtain ⟨_, rfl⟩ := (payload_encode_iff s0.tx.payload p).1 f3
    have := reads_payload o.order.payload hb.2.2.1 []
    rw [List.append_nil] at this
    rw [ht]; exact this
  -- the broadcast
  rw [ht'] at d2
  have hcs : c.signer = accountOf o.origin ∧ c.nonce = nonce ∧ c.fee = 0 := by subst hc; exact ⟨rfl, rfl, rfl⟩
  have hqs : q.signer = accountOf o.sponsor ∧ q.nonce = nonce' ∧ q.fee = e.fee := by subst hd2; exact ⟨rfl, rfl, rfl⟩
  obtain ⟨⟨code3, body3, c1, c2, c3⟩, c4, c5⟩ := hn.broadcast l3 bs _ g4 d2
    (by simp [takingPart, signerOf, hcs, hqs, hne])
    (by
      intro x hx
      simp only [takingPart, signerOf, Spending.nonce, List.mem_cons, List.not_mem_nil, or_false] at hx
      rw [f7, a4', a4]
      rcases hx with rfl | rfl
      · simp only [hcs]; exact hl
      · simp only [hqs]; exact hl')
  have q3 : ask node l3 (r.broadcast · s2.tx) =
      (.ok (.ok (hexText (Hashes.sha512_256 bs).1)), (node l3 (broadcastRequest r.url bs)).2) := by
    refine Prod.ext_iff.2 ⟨((C63_broadcast r (fun q => (node l3 q).1) s2.tx bs g3).1 _).2 ⟨code3, body3, c1, c2, c3⟩, ?_⟩
    show List.foldl _ _ (r.broadcast (fun q => (node l3 q).1) s2.tx).sent = _
    rw [(C62_broadcast r _ s2.tx).1 bs g3]; rfl
  have hrun : paySponsored r node choice o l =
      (some (hexText (Hashes.sha512_256 bs).1, s2.tx), (node l3 (broadcastRequest r.url bs)).2) := by
    unfold paySponsored
    simp only [a1, a2, a1', a2', hnewc, hnewd, b2, f1, f2, hnewq, g1, Outcome.ok_bind, g2, q3]
  rw [hrun]
  refine ⟨_, ⟨_, s2.tx, bs, Hashes.sha512_256 bs, hex, p, e.fee, { c with signature := sig }, { q with signature := sig' },
    rfl, g3, ?_, rfl, g4, d2, rfl, hcm, hcs.1, hcs.2.1, hcs.2.2, hqm, hqs.1, hqs.2.1, hqs.2.2, ((Hex.C02_hex_decode_exact _).1 _).1 f4, hsuf, hread,
    by rw [hlen]; exact f5⟩, ?_, ?_⟩
  · unfold Transaction.hash
    rw [g3]; rfl
  · rw [c4, f6, a3', a3]
  · intro s
    rw [c5, f7, a4', a4]
    simp only [takingPart, signerOf, List.map_cons, List.map_nil, List.mem_cons, List.not_mem_nil, or_false, hcs, hqs]

/-- **C111** Any number of sponsored payments, of any accounts for any others, one after the other: all come through,
and the node has accepted exactly what was ordered, in this order. -/
theorem C111_sponsored_payments [Secp.Lawful] (parse : Arr 33 → Option Secp.PK)
    (hp : ∀ k, parse (Secp.serialize k) = some k)
    (r : StacksRPC) (node : StatefulNode L) (accepted : L → List Transaction) (count : L → Arr 20 → Nat)
    (quotes : Str → Nat → List UInt64) (hn : Counting parse r.url quotes node accepted count)
    (choice : Nat) (hq : ∀ hex n, choice < (quotes hex n).length) (os : List SponsoredOrder)
    (ho : ∀ o ∈ os, o.Acceptable) (l : L) (hl : ∀ s, count l s + os.length ≤ 2 ^ 64) :
    ∃ txs, AllSponsored parse quotes choice (count l) os (paySponsoredAll r node choice os l).1 txs ∧
      accepted (paySponsoredAll r node choice os l).2 = accepted l ++ txs := by
  induction os generalizing l with
  | nil => exact ⟨[], .nil, by simp [paySponsoredAll]⟩
  | cons o os ih =>
    have hno : ∀ s, (UInt64.ofNat (count l s)).toNat = count l s := by
      intro s
      have := hl s
      rw [List.length_cons] at this
      rw [UInt64.toNat_ofNat']
      exact Nat.mod_eq_of_lt (by omega)
    obtain ⟨tx, h1, h2, h3⟩ := C111_pay_sponsored parse hp r node accepted count quotes hn o
      (ho o List.mem_cons_self) choice hq l _ _ (hno _) (hno _)
    generalize hx : paySponsored r node choice o l = x at h1 h2 h3
    obtain ⟨x, l'⟩ := x
    obtain ⟨txs, h4, h5⟩ := ih (fun o h => ho o (List.mem_cons_of_mem _ h)) l' (by
      intro s
      have := hl s
      rw [List.length_cons] at this
      rw [h3 s]
      split <;> omega)
    refine ⟨tx :: txs, ?_, ?_⟩
    · simp only [paySponsoredAll, hx]
      refine .cons (hno _) (hno _) h1 ?_
      rw [show count l' = _ from funext h3] at h4
      exact h4
    · simp only [paySponsoredAll, hx]
      rw [h5, h2]
      simp

end

/-! ## The hypotheses are satisfiable -/

section
attribute [local instance] Concrete.realHashes Concrete.toySecp toyHttp
local instance sponsoredLawful : Secp.Lawful := Concrete.toyLawful

/-- How many transactions an account took part in. -/
def tookPart (l : List Transaction) (s : Arr 20) : Nat :=
  (l.filter fun t => decide (s ∈ (takingPart t.auth).map Prod.fst)).length

/-- A node that asks one unit for a byte, or two or three, and checks all nonces. -/
def countingNode (parse : Arr 33 → Option Secp.PK) : StatefulNode (List Transaction) := fun l q =>
  match q.body with
  | .empty =>
    match C32.addressFromStr (q.url.drop 21) with
    | .ok a => (.response 200 ("x".toList, .obj [("balance".toList, .str "0x10".toList), ("locked".toList, .str "0x0".toList),
      ("unlock_height".toList, .num 0), ("nonce".toList, .num (tookPart l a.hash)), ("balance_proof".toList, .str []),
      ("nonce_proof".toList, .str [])]), l)
    | _ => (.transport (), l)
  | .json (.obj [_, (_, .num n)]) => (.response 200 ("x".toList, .obj [("estimations".toList, .arr ([1, 2, 3].map fun i =>
      .obj [("fee".toList, .num (UInt64.ofNat (i * n)).toNat), ("fee_rate".toList, .num i)]))]), l)
  | .json _ => (.transport (), l)
  | .bytes bs =>
    match (readTransaction parse).run bs with
    | some (t, []) =>
      if (takingPart t.auth).all fun x => x.2.toNat == tookPart l x.1 then
        (.response 200 (hexText (Hashes.sha512_256 bs).1, .null), l ++ [t])
      else (.response 400 ("x".toList, .obj []), l)
    | _ => (.response 400 ("x".toList, .obj []), l)

theorem countingNode_counts (parse : Arr 33 → Option Secp.PK) :
    Counting parse "http://n".toList (fun _ n => [1, 2, 3].map fun i => UInt64.ofNat (i * n)) (countingNode parse) id
      tookPart where
  account l s signer v n hs hn := by
    have e : (countingNode parse l (accountRequest "http://n".toList s)) = (.response 200 ("x".toList,
        .obj [("balance".toList, .str "0x10".toList), ("locked".toList, .str "0x0".toList),
        ("unlock_height".toList, .num 0), ("nonce".toList, .num (tookPart l signer)), ("balance_proof".toList, .str []),
        ("nonce_proof".toList, .str [])]), l) := by
      show (match C32.addressFromStr s with
        | .ok a => ((.response 200 ("x".toList, .obj [("balance".toList, .str "0x10".toList), ("locked".toList, .str "0x0".toList),
          ("unlock_height".toList, .num 0), ("nonce".toList, .num (tookPart l a.hash)), ("balance_proof".toList, .str []),
          ("nonce_proof".toList, .str [])]) : Reply), l)
        | _ => (.transport (), l)) = _
      rw [C32.fromStr_iff.2 hs]
    rw [e]
    refine ⟨200, _, _, ⟨"0x10".toList, "0x0".toList, 0, n, [], []⟩, rfl, by decide, rfl, .inl ⟨_, rfl, ?_⟩, rfl⟩
    intro f hf
    simp only [List.mem_cons, List.not_mem_nil, or_false] at hf
    rw [← hn]
    rcases hf with rfl | rfl | rfl | rfl | rfl | rfl <;> rfl
  fees l hex n := (oneAccountNode_honest parse ⟨List.replicate 20 0, rfl⟩).fees l hex n
  account_state l s := by
    show (countingNode parse l (accountRequest "http://n".toList s)).2 = l ∧
      tookPart (countingNode parse l (accountRequest "http://n".toList s)).2 = tookPart l
    have : (countingNode parse l (accountRequest "http://n".toList s)).2 = l := by
      unfold countingNode
      simp only [accountRequest]
      split <;> rfl
    rw [this]
    exact ⟨rfl, rfl⟩
  fees_state l hex n := ⟨rfl, rfl⟩
  broadcast l bs t _ h2 _ h4 := by
    have e : countingNode parse l (broadcastRequest "http://n".toList bs) =
        (.response 200 (hexText (Hashes.sha512_256 bs).1, .null), l ++ [t]) := by
      unfold countingNode
      simp only [broadcastRequest, h2]
      rw [if_pos (List.all_eq_true.2 fun x hx => by simpa using h4 x hx)]
    rw [e]
    refine ⟨⟨200, _, rfl, by decide, ?_⟩, rfl, fun s => ?_⟩
    · refine if_neg fun h => ?_
      have h' := (Hex.C01_hex_roundtrip (Hashes.sha512_256 bs).1).1
      rw [Hex.bytesToHex_eq, show hexText (Hashes.sha512_256 bs).1 = [] from h] at h'
      have : ([] : Bytes) = (Hashes.sha512_256 bs).1 := Outcome.ok.inj h'
      have := congrArg List.length this
      rw [(Hashes.sha512_256 bs).2] at this
      cases this
    · simp only [tookPart, List.filter_append, List.length_append, List.filter_cons, List.filter_nil, decide_eq_true_eq]
      split <;> rfl

/-- Two orders: an account pays for another one, and is then paid for by it. -/
def exSponsored (a b : Str) : List SponsoredOrder :=
  [⟨exTx, exKey 1, a, exKey 2, b⟩, ⟨exTx, exKey 2, b, exKey 1, a⟩]

theorem exSponsored_acceptable : ∃ a b, ∀ o ∈ exSponsored a b, o.Acceptable := by
  obtain ⟨a, ha⟩ := (C32.C10_c32_address_versions (hash160Of (Secp.serialize (Secp.pub (exKey 1))).1).1 26).1 (by decide)
  obtain ⟨b, hb⟩ := (C32.C10_c32_address_versions (hash160Of (Secp.serialize (Secp.pub (exKey 2))).1).1 26).1 (by decide)
  have hne : accountOf (exKey 1) ≠ accountOf (exKey 2) := by
    show hash160Of (Secp.serialize (Secp.pub (exKey 1))).1 ≠ hash160Of (Secp.serialize (Secp.pub (exKey 2))).1
    decide +kernel
  have ha' : ∃ v, IsAddress a v (accountOf (exKey 1)).1 := ⟨26, C32.fromStr_iff.1 <| C32.C12_address_from_str_roundtrip _ _ _ ha⟩
  have hb' : ∃ v, IsAddress b v (accountOf (exKey 2)).1 := ⟨26, C32.fromStr_iff.1 <| C32.C12_address_from_str_roundtrip _ _ _ hb⟩
  refine ⟨a, b, fun o ho => ?_⟩
  simp only [exSponsored, List.mem_cons, List.not_mem_nil, or_false] at ho
  rcases ho with rfl | rfl
  · exact ⟨exBody, ha', hb', hne⟩
  · exact ⟨exBody, hb', ha', hne.symm⟩

/-- C111: both payments come through at a node that starts empty; it has then accepted two transactions. -/
example : ∃ (parse : Arr 33 → Option Secp.PK) (a b : Str) (txs : List Transaction),
    AllSponsored parse (fun _ n => [1, 2, 3].map fun i => UInt64.ofNat (i * n)) 1 (fun _ => 0) (exSponsored a b)
      (paySponsoredAll ⟨"http://n".toList⟩ (countingNode parse) 1 (exSponsored a b) []).1 txs ∧
    (paySponsoredAll ⟨"http://n".toList⟩ (countingNode parse) 1 (exSponsored a b) []).2 = txs := by
  obtain ⟨parse, hp⟩ := (parser_exists : ∃ parse : Arr 33 → Option Secp.PK, _)
  obtain ⟨a, b, ho⟩ := exSponsored_acceptable
  obtain ⟨txs, h1, h2⟩ := C111_sponsored_payments parse hp ⟨"http://n".toList⟩ (countingNode parse) id tookPart _
    (countingNode_counts parse) 1 (fun _ _ => by simp) (exSponsored a b) ho [] (fun s => by
      show (0 : Nat) + 2 ≤ 2 ^ 64
      decide)
  exact ⟨parse, a, b, txs, h1, h2⟩

end

end Stacks.Rpc

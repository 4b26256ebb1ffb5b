import Verif.Spec.Schedule
import Verif.Props.Payments

/-! # The steps of a paying program -/

namespace Stacks.Rpc
open Stacks.Spec Stacks.Tx Stacks.Wallet

section
variable [Secp] [Hashes] [Http] {L : Type}

theorem advance_start (parse : Arr 33 → Option Secp.PK) (r : StacksRPC) (node : StatefulNode L)
    (accepted : L → List Transaction) (quotes : Str → Nat → List UInt64)
    (hn : Strict parse r.url quotes node accepted) (p : Program) (hp : CanPay quotes p) (l : L) (n : UInt64)
    (hl : n.toNat = countOf p.order.signer (accepted l)) :
    ∃ l', advance r node p .start l = (.numbered n, l') ∧ accepted l' = accepted l := by
  obtain ⟨_, ⟨v, ha⟩, _⟩ := hp
  obtain ⟨code, body, j, i, a1, a2, a3, a4, a5⟩ := hn.account l p.address _ v n ha hl
  have q1 : ask node l (r.address · p.address) = (.ok i, (node l (accountRequest r.url p.address)).2) :=
    Prod.ext_iff.2 ⟨((C68_address r (fun q => (node l q).1) p.address).2.1 i).2 ⟨code, body, j, a1, a2, a3, a4⟩, rfl⟩
  refine ⟨_, ?_, hn.account_state l p.address⟩
  unfold advance
  simp only [q1, a5]

theorem advance_numbered [Secp.Lawful] (parse : Arr 33 → Option Secp.PK)
    (hp : ∀ k, parse (Secp.serialize k) = some k) (r : StacksRPC) (node : StatefulNode L)
    (accepted : L → List Transaction) (quotes : Str → Nat → List UInt64)
    (hn : Strict parse r.url quotes node accepted) (p : Program) (hc : CanPay quotes p) (l : L) (n : UInt64) :
    ∃ t id tx l', advance r node p (.numbered n) l = (.ready t, l') ∧ accepted l' = accepted l ∧
      Prepared parse quotes p n t id tx := by
  obtain ⟨ho, _, hq⟩ := hc
  obtain ⟨t, c, b1, b2, b3, b4, b5, b6, b7, b8⟩ := build_order p.order ho n
  have hwf : WellFormedTransaction t := acceptable_wf (by rw [b2]; exact .inl b3) b7
  obtain ⟨bs0, e0⟩ : ∃ bs, t.encode = .ok bs := by
    obtain ⟨bs, h, _⟩ := C43_reader_recovers parse hp t hwf []
    exact ⟨bs, h⟩
  obtain ⟨hex, q, p1, p2, p3, p4, p5⟩ := (C62_estimate_fee r (fun q => (node l q).1) t).1 bs0 e0
  obtain ⟨code2, body2, j2, f, f1, f2, f3, f4, f5⟩ := hn.fees l hex bs0.length
  have q2 : ask node l (r.estimateFee · t) = (.ok (.ok f), (node l (feeQuestion r.url hex bs0.length)).2) := by
    refine Prod.ext_iff.2 ⟨((C63_estimate_fee r (fun q => (node l q).1) t bs0 q e0 p1).1 f).2 ?_, ?_⟩
    · exact ⟨code2, body2, j2, by rw [← p4]; exact f1, f2, f3, f4⟩
    · show List.foldl _ _ (r.estimateFee (fun q => (node l q).1) t).sent = _
      rw [p5]; rfl
  obtain ⟨e, he⟩ : ∃ e, f.estimations[p.choice]? = some e := by
    have := hq hex bs0.length
    rw [← f5, List.length_map] at this
    exact ⟨_, List.getElem?_eq_getElem this⟩
  have hfee : (quotes hex bs0.length)[p.choice]? = some e.fee := by rw [← f5, List.getElem?_map, he]; rfl
  have hset : t.setFee e.fee = { t with auth := .standard (.single { c with fee := e.fee }) } := by
    unfold Transaction.setFee
    rw [b2]; rfl
  obtain ⟨t', sig, bs, g1, g2, g3, g4, g5⟩ := single_signed parse hp (t.setFee e.fee) p.order.key
    { c with fee := e.fee } (by rw [hset]) b3 b4 b6 (by rw [hset]; exact b7)
  have hlen : bs.length = bs0.length := by
    obtain ⟨bs1, h1, h2⟩ := C46_setters_length [.fee e.fee] t bs0 e0
    obtain ⟨bs2, h3, h4⟩ := C46_sign_length (t.setFee e.fee) t' p.order.key { c with fee := e.fee } g1
      (by rw [hset]; rfl) bs1 h1
    obtain rfl := Outcome.ok.inj (g3.symm.trans h3)
    rw [h4, h2]
  have hpay : t'.payload = t.payload := by rw [g2, hset]
  rw [hset] at g2
  have hsuf : q <:+ bs := by
    obtain ⟨⟨_, _, _, hpe⟩, rfl⟩ := (transaction_encode_iff t' bs).1 g3
    obtain ⟨_, rfl⟩ := (payload_encode_iff t.payload q).1 p1
    rw [← hpay]
    exact List.suffix_append _ _
  have hread : readPayload.run q = some (readBack t.payload, []) := by
    obtain ⟨_, rfl⟩ := (payload_encode_iff t.payload q).1 p1
    have := reads_payload t.payload b7.2.2.1 []
    rwa [List.append_nil] at this
  have hpl : (t.setFee e.fee).payload = t.payload := by rw [hset]
  rw [hpl] at g5
  refine ⟨t', hexText (Hashes.sha512_256 bs).1, _, (node l (feeQuestion r.url hex bs0.length)).2, ?_,
    hn.fees_state l hex bs0.length, bs, Hashes.sha512_256 bs, hex, q, e.fee, g3, ?_, rfl, g4, g5, ?_, ((Hex.C02_hex_decode_exact _).1 _).1 p3, hsuf, hread,
    by rw [hlen]; exact hfee⟩
  · unfold advance
    simp only [b1, q2, he, g1]
  · unfold Transaction.hash
    rw [g3]; rfl
  · rw [g2]; exact b8 e.fee sig

omit [Http] in
theorem fulfils_auth {o : Order} {n fee : UInt64} {tx : Transaction} (h : Fulfils o n fee tx) :
    ∃ c, tx.auth = .standard c ∧ c.nonce = n ∧ signerOf c = o.signer := by
  obtain ⟨⟨c, h1, _, _, h4, h5⟩, _⟩ := h
  exact ⟨.single c, h1, h4, h5⟩

theorem advance_ready (parse : Arr 33 → Option Secp.PK) (r : StacksRPC) (node : StatefulNode L)
    (accepted : L → List Transaction) (quotes : Str → Nat → List UInt64)
    (hn : Strict parse r.url quotes node accepted) (p : Program) (l : L) (n : UInt64) (t : Transaction) (id : Str)
    (tx : Transaction) (h : Prepared parse quotes p n t id tx) :
    (n.toNat = countOf p.order.signer (accepted l) →
      ∃ l', advance r node p (.ready t) l = (.answered t (.ok (.ok id)), l') ∧ accepted l' = accepted l ++ [tx]) ∧
    (n.toNat ≠ countOf p.order.signer (accepted l) →
      ∃ e l', advance r node p (.ready t) l = (.answered t (.ok (.err e)), l') ∧ accepted l' = accepted l) := by
  obtain ⟨bs, hash, hex, q, fee, h1, h2, h3, h4, h5, h6, _⟩ := h
  obtain ⟨c, c1, c2, c3⟩ := fulfils_auth h6
  have hhash : hash = Hashes.sha512_256 bs := by
    unfold Transaction.hash at h2
    rw [h1] at h2
    exact (Outcome.ok.inj h2).symm
  have hs : (r.broadcast (fun q => (node l q).1) t).sent = [broadcastRequest r.url bs] :=
    (C62_broadcast r _ t).1 bs h1
  refine ⟨fun hl => ?_, fun hl => ?_⟩
  · obtain ⟨⟨code, body, a1, a2, a3⟩, a4⟩ := hn.accept l bs tx c h4 h5 c1 (by rw [c2, c3]; exact hl)
    refine ⟨_, ?_, a4⟩
    have q : ask node l (r.broadcast · t) = (.ok (.ok id), (node l (broadcastRequest r.url bs)).2) := by
      refine Prod.ext_iff.2 ⟨((C63_broadcast r (fun q => (node l q).1) t bs h1).1 _).2 ⟨code, body, a1, a2, ?_⟩, ?_⟩
      · rw [h3, hhash]; exact a3
      · show List.foldl _ _ (r.broadcast (fun q => (node l q).1) t).sent = _
        rw [hs]; rfl
    unfold advance
    simp only [q]
  · obtain ⟨⟨code, body, j, e, a1, a2, a3, a4⟩, a5⟩ := hn.refuse l bs tx c h4 h5 c1 (by rw [c2, c3]; exact hl)
    refine ⟨e, _, ?_, a5⟩
    have q : ask node l (r.broadcast · t) = (.ok (.err e), (node l (broadcastRequest r.url bs)).2) := by
      refine Prod.ext_iff.2
        ⟨((C63_broadcast r (fun q => (node l q).1) t bs h1).2.1 _).2 ⟨code, body, j, a1, a2, a3, a4⟩, ?_⟩
      show List.foldl _ _ (r.broadcast (fun q => (node l q).1) t).sent = _
      rw [hs]; rfl
    unfold advance
    simp only [q]

end

end Stacks.Rpc

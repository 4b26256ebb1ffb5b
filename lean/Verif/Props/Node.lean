import Verif.Spec.Node
import Verif.Props.Verify
import Verif.Props.Builder

/-! # Properties C79 and C80: Bitcoin's scripts, and acceptance by a node -/

namespace Stacks.Tx
open Stacks.Spec Stacks.Clarity

theorem pushNumber_zero : pushNumber 0 = [0x00] := rfl

theorem pushNumber_small {n : Nat} (h : 1 ≤ n) (h' : n ≤ 16) : pushNumber n = [UInt8.ofNat (80 + n)] := by
  rw [pushNumber, if_neg (by omega), if_pos h']

/-- A push of more than 16 has at least two bytes. -/
theorem pushNumber_length {n : Nat} (h : 16 < n) : 2 ≤ (pushNumber n).length := by
  rw [pushNumber, if_neg (by omega), if_neg (by omega), List.length_cons]
  have : 1 ≤ (scriptNumber n).length := by
    rw [scriptNumber, if_neg (by omega)]
    split
    · simp
    · split <;> simp
  omega

/-- The first of which is at most 2, if the number is below 256. -/
theorem pushNumber_head {n : Nat} (h : 16 < n) (h' : n < 256) : ∃ l bs, pushNumber n = l :: bs ∧ l.toNat ≤ 2 := by
  rw [pushNumber, if_neg (by omega), if_neg (by omega)]
  refine ⟨_, _, rfl, ?_⟩
  have : (scriptNumber n).length ≤ 2 := by
    rw [scriptNumber, if_neg (by omega)]
    split
    · simp
    · simp
  rw [UInt8.toNat_ofNat']
  omega

section
variable [Secp]

/-- The two scripts agree exactly when both numbers are between 1 and 16. -/
theorem script_eq_iff (m : Nat) (keys : List Secp.PK) (hm : m ≤ 175) :
    multisigScriptSpec m keys = bitcoinScript m keys ↔
      (1 ≤ m ∧ m ≤ 16) ∧ 1 ≤ keys.length ∧ keys.length ≤ 16 := by
  have e : multisigScriptSpec m keys =
      UInt8.ofNat (80 + m) :: (keys.flatMap pushKey ++ [UInt8.ofNat (80 + keys.length), 174]) := rfl
  have hb : (UInt8.ofNat (80 + m)).toNat = 80 + m := by rw [UInt8.toNat_ofNat']; omega
  have ec : ∀ b, [b] ++ keys.flatMap pushKey ++ pushNumber keys.length ++ [0xae] =
      b :: (keys.flatMap pushKey ++ (pushNumber keys.length ++ [0xae])) := fun b => by simp
  rw [e]
  constructor
  · intro h
    have h1 : 1 ≤ m ∧ m ≤ 16 := by
      by_contra hc
      rcases Nat.eq_zero_or_pos m with rfl | h0
      · rw [bitcoinScript, pushNumber_zero, ec] at h
        cases (List.cons.inj h).1
      · obtain ⟨l, bs, e1, e2⟩ := pushNumber_head (n := m) (by omega) (by omega)
        rw [bitcoinScript, e1] at h
        have := congrArg UInt8.toNat (List.cons.inj h).1
        rw [hb] at this
        omega
    refine ⟨h1, ?_⟩
    rw [bitcoinScript, pushNumber_small h1.1 h1.2, ec] at h
    have h3 := List.append_cancel_left (List.cons.inj h).2
    by_contra hc
    rcases Nat.eq_zero_or_pos keys.length with h0 | h0
    · rw [h0, pushNumber_zero] at h3
      cases h3
    · have := pushNumber_length (n := keys.length) (by omega)
      have := congrArg List.length h3
      simp only [List.length_cons, List.length_nil, List.length_append] at this
      omega
  · rintro ⟨h1, h2⟩
    rw [bitcoinScript, pushNumber_small h1.1 h1.2, pushNumber_small h2.1 h2.2]
    simp only [List.append_assoc, List.cons_append, List.nil_append]

/-! ## C79 -/

/-- **C79** The script hashed for `m` of `n` keys is Bitcoin's exactly when both numbers are between 1
and 16. -/
theorem C79_script_iff {ε : Type} (m : UInt8) (keys : List Secp.PK) :
    (C32.multisigScript m keys : Outcome ε Bytes) = .ok (bitcoinScript m.toNat keys) ↔
      (1 ≤ m.toNat ∧ m.toNat ≤ 16) ∧ 1 ≤ keys.length ∧ keys.length ≤ 16 := by
  rw [multisigScript_iff]
  constructor
  · rintro ⟨hm, _, h⟩
    exact (script_eq_iff _ _ hm).1 h.symm
  · rintro h
    exact ⟨by omega, by omega, ((script_eq_iff _ _ (by omega)).2 h).symm⟩

variable [Hashes]

/-- The signer hash of the crate's script is that of Bitcoin's, for numbers between 1 and 16. -/
theorem scriptSigner_eq (mode : C32.Mode) (m : Nat) (keys : List Secp.PK) (hm : 1 ≤ m ∧ m ≤ 16)
    (hn : 1 ≤ keys.length ∧ keys.length ≤ 16) : scriptSigner mode m keys = bitcoinSigner mode m keys := by
  cases mode <;> simp only [scriptSigner, bitcoinSigner, (script_eq_iff m keys (by omega)).2 ⟨hm, hn⟩]

/-- **C79** So for these numbers `hash_p2sh` and `hash_p2wsh` are the hashes of Bitcoin's script and of
its witness program. -/
theorem C79_hashes {ε : Type} (m : UInt8) (keys : List Secp.PK) (hm : 1 ≤ m.toNat ∧ m.toNat ≤ 16)
    (hn : 1 ≤ keys.length ∧ keys.length ≤ 16) :
    (C32.hashP2sh m keys : Outcome ε (Arr 20)) = .ok (hash160Of (bitcoinScript m.toNat keys)) ∧
    (C32.hashP2wsh m keys : Outcome ε (Arr 20)) =
      .ok (hash160Of (0x00 :: 0x20 :: (Hashes.sha256 (bitcoinScript m.toNat keys)).1)) := by
  rw [← (script_eq_iff m.toNat keys (by omega)).2 ⟨hm, hn⟩]
  exact ⟨C32.C20_hash_p2sh m keys (by omega) (by omega), C32.C20_hash_p2wsh m keys (by omega) (by omega)⟩

/-- **C79** For all other numbers the two hashes agree only by a collision between the crate's script
and Bitcoin's: the two have the same HASH160, or the same SHA-256, or their witness programs have the
same HASH160. -/
theorem C79_other_numbers {ε : Type} (m : UInt8) (keys : List Secp.PK)
    (h : ¬ ((1 ≤ m.toNat ∧ m.toNat ≤ 16) ∧ 1 ≤ keys.length ∧ keys.length ≤ 16)) :
    ((C32.hashP2sh m keys : Outcome ε (Arr 20)) = .ok (hash160Of (bitcoinScript m.toNat keys)) →
      ∃ x, (C32.multisigScript m keys : Outcome ε Bytes) = .ok x ∧
        ScriptsCollide .p2sh x (bitcoinScript m.toNat keys)) ∧
    ((C32.hashP2wsh m keys : Outcome ε (Arr 20)) =
        .ok (hash160Of (0x00 :: 0x20 :: (Hashes.sha256 (bitcoinScript m.toNat keys)).1)) →
      ∃ x, (C32.multisigScript m keys : Outcome ε Bytes) = .ok x ∧
        ScriptsCollide .p2wsh x (bitcoinScript m.toNat keys)) := by
  have hne : ∀ x, (C32.multisigScript m keys : Outcome ε Bytes) = .ok x → x ≠ bitcoinScript m.toNat keys := by
    intro x hx he
    exact h ((C79_script_iff m keys).1 (he ▸ hx))
  constructor
  · intro he
    obtain ⟨x, hx, e⟩ := Outcome.bind_eq_ok.1 he
    exact ⟨x, hx, hne x hx, Outcome.ok.inj e⟩
  · intro he
    obtain ⟨x, hx, e⟩ := Outcome.bind_eq_ok.1 he
    have e' : hash160Of (witnessProgram x) = hash160Of (witnessProgram (bitcoinScript m.toNat keys)) := by
      unfold witnessProgram
      rw [← Outcome.ok.inj e]
      simp only [Stacks.sha256Hash, (Hashes.sha256 _).2]
      rfl
    refine ⟨x, hx, hne x hx, ?_⟩
    by_cases hs : Hashes.sha256 x = Hashes.sha256 (bitcoinScript m.toNat keys)
    · exact .inl hs
    · exact .inr ⟨fun h => hs (Subtype.ext (List.cons.inj (List.cons.inj h).2).2), e'⟩

end

section
variable [Secp] [Hashes]

/-! ## C80 -/

omit [Secp] in
theorem payloadBytes_readBack (p : Payload) (h : EncodablePayload p) : payloadBytes (readBack p) = payloadBytes p := by
  cases p with
  | contractCall p => rfl
  | tokenTransfer p =>
    show _ ++ memoField (paddedMemo p.memo) = _
    rw [memoField_padded p.memo h.2]; rfl

theorem preimage_readBack (t : Transaction) (h : EncodablePayload t.payload) :
    signingPreimage { t with payload := readBack t.payload } = signingPreimage t := by
  show [_] ++ _ ++ _ ++ _ ++ _ ++ payloadBytes (readBack t.payload) = [_] ++ _ ++ _ ++ _ ++ _ ++ payloadBytes t.payload
  rw [payloadBytes_readBack _ h]

theorem satisfied_iff (typ : UInt8) (h n : Arr 32) (c : Spending) (hs : SmallScript c) :
    Satisfied typ h c n ↔ c.verify h typ = .ok n ∧ ExactSpending c := by
  cases c with
  | single c =>
    constructor
    · rintro ⟨h1, h2⟩
      exact ⟨(single_verify_iff _ _ _ _).2 ⟨_, h1, h2, rfl⟩, trivial⟩
    · rintro ⟨h1, _⟩
      obtain ⟨k, h2, h3, rfl⟩ := (single_verify_iff _ _ _ _).1 h1
      exact .single h2 h3
  | multi c =>
    have hl : ∀ {ks}, Recovers typ c.fee c.nonce h c.fields ks n → ks.length = c.fields.length := recovers_length
    obtain ⟨hs1, hs2⟩ := hs
    have hlt := c.required.toNat_lt
    constructor
    · intro hsat
      cases hsat with | multi h1 h2 h3 =>
      have := hl h1
      refine ⟨(multi_verify_iff _ _ _ _).2 ⟨_, h1, by omega, by omega, ⟨by omega, by omega⟩, ?_⟩, h2⟩
      rw [scriptSigner_eq _ _ _ hs1 (by omega)]; exact h3
    · rintro ⟨h1, h2⟩
      obtain ⟨ks, h3, _, _, _, h4⟩ := (multi_verify_iff _ _ _ _).1 h1
      have := hl h3
      rw [scriptSigner_eq _ _ _ hs1 (by omega)] at h4
      exact .multi h3 h2 h4

/-- **C80** A node accepts the encoding of a well-formed transaction, whose scripts have numbers from
1 to 16, exactly when: each condition's code fits its kind, a transfer goes to an account, the crate's
own verification of origin and sponsor succeeds, and no more signatures are there than required. -/
theorem C80_accepts_iff (parse : Arr 33 → Option Secp.PK) (hp : ∀ k, parse (Secp.serialize k) = some k)
    (t : Transaction) (ht : WellFormedTransaction t) (hs : BothParts SmallScript t.auth) (bs : Bytes)
    (he : t.encode = .ok bs) :
    NodeAccepts parse bs ↔ (∀ c ∈ t.postConditions, CodeFits c) ∧ ToAccount t.payload ∧
      ((∃ n, t.verifyOrigin = .ok n) ∧ ∃ h, t.initialHash = .ok h ∧ t.auth.verify h = .ok ()) ∧
      BothParts ExactSpending t.auth := by
  obtain ⟨bs', he', hr⟩ := C43_reader_recovers parse hp t ht []
  obtain rfl := Outcome.ok.inj (he.symm.trans he')
  rw [List.append_nil] at hr
  have hb := (wf_encodable_tx t ht).2
  have hpre := preimage_readBack t hb.2.2
  have e1 : NodeAccepts parse bs ↔ (∀ c ∈ t.postConditions, CodeFits c) ∧ ToAccount t.payload ∧
      SatisfiedAuth (Hashes.sha512_256 (signingPreimage t)) t.auth := by
    constructor
    · rintro ⟨t', h1, h2, h3, h4⟩
      rw [hr] at h1
      cases h1
      rw [hpre] at h4
      refine ⟨h2, ?_, h4⟩
      cases hpl : t.payload <;> rw [hpl] at h3 <;> exact h3
    · rintro ⟨h2, h3, h4⟩
      refine ⟨_, hr, h2, ?_, by rw [hpre]; exact h4⟩
      cases hpl : t.payload <;> rw [hpl] at h3 <;> exact h3
  rw [e1]
  refine and_congr_right fun _ => and_congr_right fun _ => ?_
  simp only [verifyOrigin_iff, initialHash_iff]
  generalize Hashes.sha512_256 (signingPreimage t) = h
  cases ha : t.auth with
  | standard o =>
    rw [ha] at hs
    constructor
    · intro hsat
      cases hsat with | standard h1 =>
      obtain ⟨h2, h3⟩ := (satisfied_iff _ _ _ _ hs).1 h1
      exact ⟨⟨⟨_, hb, h2⟩, _, ⟨hb, rfl⟩, rfl⟩, h3⟩
    · rintro ⟨⟨⟨n, _, h2⟩, _⟩, h3⟩
      exact .standard ((satisfied_iff _ _ _ _ hs).2 ⟨h2, h3⟩)
  | sponsored o p =>
    rw [ha] at hs
    constructor
    · intro hsat
      cases hsat with | sponsored h1 h1' =>
      obtain ⟨h2, h3⟩ := (satisfied_iff _ _ _ _ hs.1).1 h1
      obtain ⟨h2', h3'⟩ := (satisfied_iff _ _ _ _ hs.2).1 h1'
      refine ⟨⟨⟨_, hb, h2⟩, _, ⟨hb, rfl⟩, ?_⟩, h3, h3'⟩
      show (o.verify h 4 >>= fun n => p.verify n 5 >>= fun _ => pure ()) = _
      rw [h2, Outcome.ok_bind, h2']
      rfl
    · rintro ⟨⟨⟨n, _, h2⟩, _, ⟨_, rfl⟩, h4⟩, h3, h3'⟩
      obtain ⟨n1, h5, h6⟩ := Outcome.bind_eq_ok.1 h4
      obtain ⟨n2, h7, _⟩ := Outcome.bind_eq_ok.1 h6
      exact .sponsored ((satisfied_iff _ _ _ _ hs.1).2 ⟨h5, h3⟩) ((satisfied_iff _ _ _ _ hs.2).2 ⟨h7, h3'⟩)

theorem acceptable_wf {t : Transaction} (hw : WellFormedAuth t.auth) (hb : AcceptableBody t.postConditions t.payload) :
    WellFormedTransaction t :=
  ⟨hw, hb.1, fun c hc => (hb.2.1 c hc).1, hb.2.2.1⟩

/-- What makes a node accept, from the crate's side. -/
theorem accepts_of (parse : Arr 33 → Option Secp.PK) (hp : ∀ k, parse (Secp.serialize k) = some k) (t : Transaction)
    (hw : WellFormedAuth t.auth) (hb : AcceptableBody t.postConditions t.payload)
    (hs : BothParts SmallScript t.auth) (hx : BothParts ExactSpending t.auth) (n h : Arr 32)
    (hv : t.verifyOrigin = .ok n) (hi : t.initialHash = .ok h) (ha : t.auth.verify h = .ok ()) :
    ∃ bs, t.encode = .ok bs ∧ NodeAccepts parse bs := by
  have ht := acceptable_wf hw hb
  have he := (transaction_encode_iff t _).2 ⟨wf_encodable_tx t ht, rfl⟩
  exact ⟨_, he, (C80_accepts_iff parse hp t ht hs _ he).2
    ⟨fun c hc => (hb.2.1 c hc).2, hb.2.2.2, ⟨⟨n, hv⟩, h, hi, ha⟩, hx⟩⟩

/-- **C80** One key: signed with the key it was created for, its bytes are accepted. -/
theorem C80_single_accepted [Secp.Lawful] (parse : Arr 33 → Option Secp.PK)
    (hp : ∀ k, parse (Secp.serialize k) = some k) (t : Transaction) (k : Secp.SK) (fee nonce : UInt64)
    (mode : C32.Mode) (c : SingleSig)
    (hnew : (SingleSig.new (Secp.pub k) fee nonce mode : Outcome TxError SingleSig) = .ok c)
    (hc : t.auth = .standard (.single c)) (hb : AcceptableBody t.postConditions t.payload) :
    ∃ t' bs, t.sign k = .ok t' ∧ t'.encode = .ok bs ∧ NodeAccepts parse bs := by
  obtain ⟨hm, _, _, hsig, _⟩ := (single_new_iff (Secp.pub k) fee nonce mode c).1 hnew
  have hmode : c.mode = .p2pkh ∨ c.mode = .p2wpkh := by
    rw [hm]; cases mode <;> first | exact .inl rfl | exact .inr rfl | cases hsig
  have hE := (wf_encodable_tx t (acceptable_wf (by rw [hc]; exact hmode) hb)).2
  obtain ⟨s, _, h1, h2, _⟩ := C47_sign_then_verify t (Secp.pub k) fee nonce mode c k hnew (by rw [hc]; rfl) hE
  have h3 := h2 rfl
  obtain ⟨_, _, _, e⟩ := (sign_iff _ _ _).1 h1
  have ha : ∃ c', c'.mode = c.mode ∧ s.tx.auth = .standard (.single c') := by
    rw [e, hc]; refine ⟨{ c with signature := _ }, ?_, rfl⟩; rfl
  obtain ⟨c', hm', ha⟩ := ha
  have hb' : AcceptableBody s.tx.postConditions s.tx.payload := by rw [e]; exact hb
  have hwf : WellFormedAuth s.tx.auth := by rw [ha]; show _ ∨ _; rw [hm']; exact hmode
  obtain ⟨bs, h4, h5⟩ := accepts_of parse hp s.tx hwf hb' (by rw [ha]; trivial) (by rw [ha]; trivial) _ _ h3
    ((initialHash_iff _ _).2 ⟨((verifyOrigin_iff _ _).1 h3).1, rfl⟩) (by rw [ha]; rfl)
  exact ⟨s.tx, bs, h1, h4, h5⟩

/-- **C80** A token transfer to an account, built and signed with the sender's key, is accepted. -/
theorem C80_transfer_accepted [Secp.Lawful] (parse : Arr 33 → Option Secp.PK)
    (hp : ∀ k, parse (Secp.serialize k) = some k) (b : STXTokenTransfer) (h : b.sponsored = false)
    (hb : AcceptableBody b.postConditions (.tokenTransfer ⟨b.recipient, b.amount, b.memo⟩)) :
    ∃ t bs, (b.transaction >>= fun t => t.sign b.sender) = .ok t ∧ t.encode = .ok bs ∧ NodeAccepts parse bs := by
  obtain ⟨t, c, h1, _, _, h2, h3, h4, h5, h6, h7, _, _, h8, h9⟩ := C56_token_transfer TxError b h
  obtain ⟨t', bs, g1, g2, g3⟩ := C80_single_accepted parse hp t b.sender b.fee b.nonce .p2pkh c
    ((single_new_iff _ _ _ _ _).2 ⟨h3, h5, h6, by rw [h4]; rfl, h7⟩) h2 (by rw [h8, h9]; exact hb)
  exact ⟨t', bs, by rw [h1]; exact g1, g2, g3⟩

/-- **C80** So is a contract call. -/
theorem C80_call_accepted [Secp.Lawful] (parse : Arr 33 → Option Secp.PK)
    (hp : ∀ k, parse (Secp.serialize k) = some k) (b : STXContractCall) (t : Transaction)
    (ht : b.transaction = .ok t) (hb : AcceptableBody t.postConditions t.payload) :
    ∃ t' bs, t.sign b.sender = .ok t' ∧ t'.encode = .ok bs ∧ NodeAccepts parse bs := by
  obtain ⟨hs, bytes, v, hd, hl⟩ := (C57_ok_iff b).1 ⟨t, ht⟩
  obtain ⟨t2, c, h1, _, _, h2, h3, h4, h5, h6, h7, _⟩ := (C57_contract_call b).2.2.2 bytes v hl hd hs
  rw [ht] at h1
  cases h1
  exact C80_single_accepted parse hp t b.sender b.fee b.nonce .p2pkh c
    ((single_new_iff _ _ _ _ _).2 ⟨h3, h5, h6, by rw [h4]; rfl, h7⟩) h2 hb

/-- **C80** `m` of at most 16 keys: if exactly `m` of the participants sign, and of the others the keys
are appended, in order, the bytes are accepted. -/
theorem C80_multisig_accepted [Secp.Lawful] (parse : Arr 33 → Option Secp.PK)
    (hp : ∀ k, parse (Secp.serialize k) = some k) (t : Transaction) (ps : List Participant) (fee nonce : UInt64)
    (m : UInt8) (mode : C32.Mode) (c : MultiSig)
    (hnew : (MultiSig.new (ps.map Participant.key) fee nonce m mode : Outcome TxError MultiSig) = .ok c)
    (hc : t.auth = .standard (.multi c)) (hb : AcceptableBody t.postConditions t.payload)
    (hm : ps.countP Participant.isSigner = m.toNat) (h1 : 1 ≤ m.toNat) (h16 : ps.length ≤ 16) :
    ∃ s bs, (Signer.new t >>= fun s => walk s ps) = .ok s ∧ s.tx.encode = .ok bs ∧ NodeAccepts parse bs := by
  obtain ⟨_, hsig, hce⟩ := (multi_new_iff _ fee nonce m mode c).1 hnew
  have hmode : mode = .p2sh ∨ mode = .p2wsh := by
    cases mode <;> first | exact .inl rfl | exact .inr rfl | cases hsig
  have hcm : c.mode = mode := by rw [hce]
  have hcr : c.required = m := by rw [hce]
  have hcf : c.fields = [] := by rw [hce]
  have hE := (wf_encodable_tx t (acceptable_wf (by rw [hc]; exact ⟨by rw [hcm]; exact hmode, by simp [hcf]⟩) hb)).2
  have hlt := m.toNat_lt
  have hle : ps.countP Participant.isSigner ≤ ps.length := List.countP_le_length
  have hs0 := (signer_new_iff t _).2 ⟨hE, rfl⟩
  obtain ⟨s, gs, g1, g2, g3, g4, _⟩ := walk_ok ps ⟨t, Hashes.sha512_256 (signingPreimage t), false, true, true⟩ c
    (by rw [hc]; rfl) (by rw [hcm]; exact hmode) (by simp) (fun _ => by rw [hcf, hcr, List.countP_nil]; omega)
  obtain ⟨s', k1, k2, _⟩ := C50_multisig_flow t ps fee nonce m mode c true hnew (by rw [hc]; rfl) hE (by omega)
    (by omega) (fun _ => hm)
  rw [hs0, Outcome.ok_bind] at k1
  obtain rfl := Outcome.ok.inj (g1.symm.trans k1)
  have hglen : gs.length = ps.length := by
    have := congrArg List.length g4; rw [List.length_map, List.length_map] at this; exact this
  have hcount : gs.countP isSignature = ps.countP Participant.isSigner := by
    have e1 : (gs.map isSignature).countP id = gs.countP isSignature := by rw [List.countP_map]; rfl
    have e2 : (ps.map Participant.isSigner).countP id = ps.countP Participant.isSigner := by
      rw [List.countP_map]; rfl
    rw [← e1, ← e2, g4]
  have ha : s.tx.auth = .standard (.multi { c with fields := gs }) := by
    rw [g2]; show t.auth.setOrigin _ = _; rw [hc, hcf]; rfl
  have hb' : AcceptableBody s.tx.postConditions s.tx.payload := by rw [g2]; exact hb
  obtain ⟨bs, h4, h5⟩ := accepts_of parse hp s.tx
    (by rw [ha]; exact ⟨by rw [hcm]; exact hmode, by simp only []; omega⟩) hb'
    (by rw [ha]; refine ⟨?_, ?_⟩ <;> simp only [hcr] <;> omega)
    (by rw [ha]; show gs.countP isSignature = c.required.toNat; rw [hcr]; omega) _ _ k2
    ((initialHash_iff _ _).2 ⟨((verifyOrigin_iff _ _).1 k2).1, rfl⟩) (by rw [ha]; rfl)
  exact ⟨s, bs, by rw [hs0]; exact g1, h4, h5⟩

/-- **C80** A sponsored transaction whose origin verifies, sponsored and signed by one key, is
accepted. -/
theorem C80_sponsored_accepted [Secp.Lawful] (parse : Arr 33 → Option Secp.PK)
    (hp : ∀ k, parse (Secp.serialize k) = some k) (t : Transaction) (o p : Spending) (n : Arr 32) (k : Secp.SK)
    (fee nonce : UInt64) (mode : C32.Mode) (q : SingleSig) (ha : t.auth = .sponsored o p)
    (hv : t.verifyOrigin = .ok n)
    (hnew : (SingleSig.new (Secp.pub k) fee nonce mode : Outcome TxError SingleSig) = .ok q)
    (hw : WellFormedSpending o) (hs : SmallScript o) (hx : ExactSpending o)
    (hb : AcceptableBody t.postConditions t.payload) :
    ∃ s s' bs, Signer.newSponsor t (.single q) = .ok s ∧ s.signSponsor k = .ok s' ∧ s'.tx.encode = .ok bs ∧
      NodeAccepts parse bs := by
  obtain ⟨s, s', h, h1, h2, h3, _, h4, h5, _⟩ := C53_sponsored_flow t o p n k fee nonce mode q ha hv hnew
  obtain ⟨hm, _, _, hsig, _⟩ := (single_new_iff (Secp.pub k) fee nonce mode q).1 hnew
  have hmode : q.mode = .p2pkh ∨ q.mode = .p2wpkh := by
    rw [hm]; cases mode <;> first | exact .inl rfl | exact .inr rfl | cases hsig
  obtain ⟨o', c', _, he, _, rfl⟩ := (newSponsor_iff _ _ _).1 h1
  rw [ha] at he
  cases he
  obtain ⟨o'', c'', he, _, _, rfl⟩ := (signSponsor_iff _ _ _).1 h2
  cases he
  have fin : ∀ (u : Transaction) (n h : Arr 32), u.verifyOrigin = .ok n → u.initialHash = .ok h →
      u.auth.verify h = .ok () → WellFormedAuth u.auth → AcceptableBody u.postConditions u.payload →
      BothParts SmallScript u.auth → BothParts ExactSpending u.auth →
      ∃ bs, u.encode = .ok bs ∧ NodeAccepts parse bs :=
    fun u n h a5 a6 a7 a1 a2 a3 a4 => accepts_of parse hp u a1 a2 a3 a4 n h a5 a6 a7
  obtain ⟨bs, h6, h7⟩ := fin _ _ _ h5 h3 h4 (show _ ∧ _ from ⟨hw, hmode⟩) hb (show _ ∧ _ from ⟨hs, trivial⟩)
    (show _ ∧ _ from ⟨hx, trivial⟩)
  exact ⟨_, _, bs, h1, h2, h6, h7⟩

theorem recovers_det {typ : UInt8} {fee nonce : UInt64} {h n n' : Arr 32} {fs : List AuthField} {ks ks' : List Secp.PK}
    (a : Recovers typ fee nonce h fs ks n) (b : Recovers typ fee nonce h fs ks' n') : ks = ks' ∧ n = n' := by
  induction a generalizing ks' n' with
  | nil => cases b; exact ⟨rfl, rfl⟩
  | pk h h' k fs ks _ ih =>
    cases b with | pk _ _ _ _ _ b =>
    obtain ⟨rfl, rfl⟩ := ih b
    exact ⟨rfl, rfl⟩
  | msg h h' s k fs ks hk _ ih =>
    cases b with | msg _ _ _ k' _ _ hk' b =>
    obtain ⟨rfl, rfl⟩ := ih b
    exact ⟨by rw [recovers_unique hk hk'], rfl⟩

theorem recovers_keys (typ : UInt8) (fee nonce : UInt64) (h : Arr 32) (ks : List Secp.PK) :
    Recovers typ fee nonce h (ks.map .pk) ks h := by
  induction ks with
  | nil => exact .nil _
  | cons k ks ih => exact .pk _ _ _ _ _ ih

/-- What accepting the bytes means for the multi-sig condition of the origin. -/
theorem accepts_multi (parse : Arr 33 → Option Secp.PK) (hp : ∀ k, parse (Secp.serialize k) = some k)
    (t : Transaction) (ht : WellFormedTransaction t) (c : MultiSig) (hc : t.auth.origin = .multi c) (bs : Bytes)
    (he : t.encode = .ok bs) (hn : NodeAccepts parse bs) :
    ∃ ks n, Recovers 4 c.fee c.nonce (Hashes.sha512_256 (signingPreimage t)) c.fields ks n ∧
      c.fields.countP isSignature = c.required.toNat ∧ bitcoinSigner c.mode c.required.toNat ks = some c.signer := by
  obtain ⟨bs', he', hr⟩ := C43_reader_recovers parse hp t ht []
  obtain rfl := Outcome.ok.inj (he.symm.trans he')
  rw [List.append_nil] at hr
  obtain ⟨t', h1, _, _, h4⟩ := hn
  rw [hr] at h1
  cases h1
  rw [preimage_readBack t (wf_encodable_tx t ht).2.2.2] at h4
  simp only [] at h4
  cases ha : t.auth with
  | standard o =>
    rw [ha] at h4 hc
    cases hc
    cases h4 with | standard h5 => cases h5 with | multi h5 h6 h7 => exact ⟨_, _, h5, h6, h7⟩
  | sponsored o p =>
    rw [ha] at h4 hc
    cases hc
    cases h4 with | sponsored h5 _ => cases h5 with | multi h5 h6 h7 => exact ⟨_, _, h5, h6, h7⟩

/-- **C80** More signatures than required are refused, although the crate's verification accepts them
(C50, C51). -/
theorem C80_extra_signatures_refused (parse : Arr 33 → Option Secp.PK)
    (hp : ∀ k, parse (Secp.serialize k) = some k) (t : Transaction) (ht : WellFormedTransaction t) (c : MultiSig)
    (hc : t.auth.origin = .multi c) (hx : c.required.toNat < c.fields.countP isSignature) (bs : Bytes)
    (he : t.encode = .ok bs) : ¬ NodeAccepts parse bs := by
  intro hn
  obtain ⟨_, _, _, h, _⟩ := accepts_multi parse hp t ht c hc bs he hn
  omega

/-- **C80** A condition whose code does not fit its kind, or a transfer to a value that is no account,
is refused, although both can be built, signed and verified. -/
theorem C80_misfit_refused (parse : Arr 33 → Option Secp.PK)
    (hp : ∀ k, parse (Secp.serialize k) = some k) (t : Transaction) (ht : WellFormedTransaction t)
    (hx : (∃ c ∈ t.postConditions, ¬ CodeFits c) ∨ ¬ ToAccount t.payload) (bs : Bytes)
    (he : t.encode = .ok bs) : ¬ NodeAccepts parse bs := by
  obtain ⟨bs', he', hr⟩ := C43_reader_recovers parse hp t ht []
  obtain rfl := Outcome.ok.inj (he.symm.trans he')
  rw [List.append_nil] at hr
  rintro ⟨t', h1, h2, h3, _⟩
  rw [hr] at h1
  cases h1
  rcases hx with ⟨c, hc, hx⟩ | hx
  · exact hx (h2 c hc)
  · apply hx
    cases hpl : t.payload <;> rw [hpl] at h3 <;> exact h3

theorem scriptSigner_collision (mode : C32.Mode) (m : Nat) (keys : List Secp.PK) (s : Arr 20) (hm : m ≤ 175)
    (h : ¬ ((1 ≤ m ∧ m ≤ 16) ∧ 1 ≤ keys.length ∧ keys.length ≤ 16)) (h1 : scriptSigner mode m keys = some s)
    (h2 : bitcoinSigner mode m keys = some s) :
    ScriptsCollide mode (multisigScriptSpec m keys) (bitcoinScript m keys) := by
  have hne : multisigScriptSpec m keys ≠ bitcoinScript m keys := fun he => h ((script_eq_iff m keys hm).1 he)
  refine ⟨hne, ?_⟩
  cases mode with
  | p2sh => exact Option.some.inj (h1.trans h2.symm)
  | p2wsh =>
    by_cases hs : Hashes.sha256 (multisigScriptSpec m keys) = Hashes.sha256 (bitcoinScript m keys)
    · exact .inl hs
    · refine .inr ⟨?_, Option.some.inj (h1.trans h2.symm)⟩
      intro he
      exact hs (Subtype.ext (List.cons.inj (List.cons.inj he).2).2)
  | p2pkh => cases h1
  | p2wpkh => cases h1

/-- **C80** When the script's numbers are not between 1 and 16, what the crate verifies is refused,
unless the script of the keys that signed or are listed collides with Bitcoin's script of the same keys. -/
theorem C80_large_script_refused (parse : Arr 33 → Option Secp.PK)
    (hp : ∀ k, parse (Secp.serialize k) = some k) (t : Transaction) (ht : WellFormedTransaction t) (c : MultiSig)
    (hc : t.auth.origin = .multi c) (hs : ¬ SmallScript (.multi c)) (n : Arr 32) (hv : t.verifyOrigin = .ok n)
    (bs : Bytes) (he : t.encode = .ok bs) (hn : NodeAccepts parse bs) :
    ∃ ks, Recovers 4 c.fee c.nonce (Hashes.sha512_256 (signingPreimage t)) c.fields ks n ∧
      ScriptsCollide c.mode (multisigScriptSpec c.required.toNat ks) (bitcoinScript c.required.toNat ks) := by
  obtain ⟨ks, n', h1, _, h3⟩ := accepts_multi parse hp t ht c hc bs he hn
  have hv := ((verifyOrigin_iff _ _).1 hv).2
  rw [hc] at hv
  obtain ⟨ks', h4, _, _, ⟨h5, _⟩, h6⟩ := (multi_verify_iff _ _ _ _).1 hv
  obtain ⟨rfl, _⟩ := recovers_det h1 h4
  refine ⟨ks, h4, scriptSigner_collision c.mode c.required.toNat ks c.signer h5 ?_ h6 h3⟩
  rw [recovers_length h1]
  exact hs

end

/-! ## The hypotheses are satisfiable

With the real hash functions and the toy signature scheme. -/

section
attribute [local instance] Concrete.realHashes Concrete.toySecp
local instance nodeLawful : Secp.Lawful := Concrete.toyLawful

-- C79: on both sides of the boundaries
example : (C32.multisigScript 16 (List.replicate 16 (exKey 1)) : Outcome TxError Bytes) =
    .ok (bitcoinScript 16 (List.replicate 16 (exKey 1))) :=
  (C79_script_iff 16 _).2 (by decide)
example : (C32.multisigScript 1 (List.replicate 17 (exKey 1)) : Outcome TxError Bytes) ≠
    .ok (bitcoinScript 1 (List.replicate 17 (exKey 1))) :=
  fun h => absurd ((C79_script_iff 1 _).1 h) (by decide)
example : bitcoinScript 0 ([] : List Secp.PK) = [0x00, 0x00, 0xae] := by decide
example : (C32.multisigScript 0 [] : Outcome TxError Bytes) = .ok [0x50, 0x50, 0xae] := rfl
example : pushNumber 16 = [0x60] ∧ pushNumber 17 = [0x01, 0x11] ∧ pushNumber 128 = [0x02, 0x80, 0x00] ∧
    pushNumber 1000 = [0x02, 0xe8, 0x03] := by decide +kernel

theorem exBody : AcceptableBody exTx.postConditions exTx.payload := by
  refine ⟨exTx_wf.2.1, fun c hc => ⟨exConditions_wf c hc, ?_⟩, exTransfer_wf, .inl ⟨_, rfl⟩⟩
  have hc : c ∈ exConditions := hc
  simp only [exConditions, List.mem_cons, List.not_mem_nil, or_false] at hc
  rcases hc with rfl | rfl | rfl <;> rfl

-- C80: one key, two of three, sponsored, and the builder
example (parse : Arr 33 → Option Secp.PK) (hp : ∀ k, parse (Secp.serialize k) = some k) :
    ∃ t' bs, exTx.sign (exKey 1) = .ok t' ∧ t'.encode = .ok bs ∧ NodeAccepts parse bs :=
  C80_single_accepted parse hp exTx (exKey 1) 180 5 .p2pkh exSingle exSingle_new rfl exBody
example (parse : Arr 33 → Option Secp.PK) (hp : ∀ k, parse (Secp.serialize k) = some k) :
    ∃ s bs, (Signer.new exTx3 >>= fun s => walk s exParts) = .ok s ∧ s.tx.encode = .ok bs ∧ NodeAccepts parse bs :=
  C80_multisig_accepted parse hp exTx3 exParts 180 5 2 .p2sh exTwoOfThree exTwoOfThree_new rfl exBody (by decide)
    (by decide) (by decide)
example (parse : Arr 33 → Option Secp.PK) (hp : ∀ k, parse (Secp.serialize k) = some k) :
    ∃ t s s' bs, exTx4.sign (exKey 1) = .ok t ∧ Signer.newSponsor t (.single exSponsor) = .ok s ∧
      s.signSponsor (exKey 4) = .ok s' ∧ s'.tx.encode = .ok bs ∧ NodeAccepts parse bs := by
  obtain ⟨s, _, h1, h2, _⟩ := C47_sign_then_verify exTx4 _ 180 5 .p2pkh exSingle (exKey 1) exSingle_new rfl
    (wf_encodable_tx _ exTx_wf).2
  have h3 := h2 rfl
  obtain ⟨_, _, _, e⟩ := (sign_iff _ _ _).1 h1
  obtain ⟨s1, s2, bs, g1, g2, g3, g4⟩ := C80_sponsored_accepted parse hp s.tx
    (.single { exSingle with signature := _ }) (.single exSingle) _ (exKey 4) 7 9 .p2wpkh exSponsor (by rw [e]; rfl) h3
    exSponsor_new (.inl rfl) trivial trivial (by rw [e]; exact exBody)
  exact ⟨_, s1, s2, bs, h1, g1, g2, g3, g4⟩

example (parse : Arr 33 → Option Secp.PK) (hp : ∀ k, parse (Secp.serialize k) = some k) :
    ∃ t bs, (exTransferBuilder.transaction >>= fun t => t.sign (exKey 1)) = .ok t ∧ t.encode = .ok bs ∧
      NodeAccepts parse bs :=
  C80_transfer_accepted parse hp exTransferBuilder rfl
    ⟨exBody.1, exBody.2.1, ⟨testnetAddr_canonical, by decide +kernel⟩, .inl ⟨_, rfl⟩⟩
-- C80: the same with another recipient or another code
example (parse : Arr 33 → Option Secp.PK) (hp : ∀ k, parse (Secp.serialize k) = some k) :
    ∃ t', ({ exTx with payload := .tokenTransfer ⟨.uint 1, 1, []⟩ } : Transaction).sign (exKey 1) = .ok t' ∧
      (∃ n, t'.verifyOrigin = .ok n) ∧ ∀ bs, t'.encode = .ok bs → ¬ NodeAccepts parse bs := by
  have hw : WellFormedPayload (.tokenTransfer ⟨.uint 1, 1, []⟩) := ⟨trivial, by decide⟩
  have ht : WellFormedTransaction { exTx with payload := .tokenTransfer ⟨.uint 1, 1, []⟩ } :=
    ⟨exTx_wf.1, exTx_wf.2.1, exTx_wf.2.2.1, hw⟩
  obtain ⟨s, _, h1, h2, _⟩ := C47_sign_then_verify _ _ 180 5 .p2pkh exSingle (exKey 1) exSingle_new (by rfl)
    (wf_encodable_tx _ ht).2
  refine ⟨_, h1, ⟨_, h2 rfl⟩, fun bs he => ?_⟩
  obtain ⟨_, _, _, e⟩ := (sign_iff _ _ _).1 h1
  refine C80_misfit_refused parse hp s.tx ?_ (.inr ?_) bs he
  · rw [e]; exact ⟨show _ ∨ _ from .inl rfl, exTx_wf.2.1, exTx_wf.2.2.1, hw⟩
  · rw [e]; rintro (⟨_, h⟩ | ⟨_, _, h⟩) <;> cases h
example : ∃ c, WellFormedCondition c ∧ ¬ CodeFits c :=
  ⟨.stx (.principalStd exAddr) 1 .has, ⟨.inl ⟨_, rfl⟩, exAddr_canonical⟩, by intro h; cases h⟩

/-- A transfer of one of `n` keys, signed by the first two or the first only. -/
def exOneOf (ks : List Secp.PK) (fs : List AuthField) : Transaction :=
  { exTx with auth := .standard (.multi ⟨.p2sh, 180, 5, hash160Of (multisigScriptSpec 1 ks), fs, 1⟩) }

theorem exOneOf_verifies (ks : List Secp.PK) (fs : List AuthField) (n : Arr 32)
    (h1 : Recovers 4 180 5 (Hashes.sha512_256 (signingPreimage (exOneOf ks []))) fs ks n)
    (h2 : 1 ≤ fs.countP isSignature) (h3 : fs.length < 176) : (exOneOf ks fs).verifyOrigin = .ok n := by
  have := recovers_length h1
  have := fs.countP_le_length (p := isSignature)
  exact (verifyOrigin_iff _ _).2 ⟨(wf_encodable_tx _ exTx_wf).2, (multi_verify_iff _ _ _ _).2
    ⟨ks, h1, h2, by show fs.countP isSignature < 256; omega, ⟨by show (1 : UInt8).toNat ≤ 175; decide, by omega⟩, rfl⟩⟩

theorem exOneOf_wf (ks : List Secp.PK) (fs : List AuthField) (h : fs.length < 2 ^ 32) :
    WellFormedTransaction (exOneOf ks fs) := ⟨⟨.inl rfl, h⟩, exTx_wf.2.1, exConditions_wf, exTransfer_wf⟩

/-- What the first signs. -/
def exFirst (ks : List Secp.PK) : Arr 32 :=
  presignDigest (Hashes.sha512_256 (signingPreimage (exOneOf ks []))) 4 180 5

-- C80: one of two, signed by both: the crate verifies it, no node accepts it
example (parse : Arr 33 → Option Secp.PK) (hp : ∀ k, parse (Secp.serialize k) = some k) :
    ∃ t c, t.auth.origin = .multi c ∧ WellFormedTransaction t ∧ (∃ n, t.verifyOrigin = .ok n) ∧
      ∀ bs, t.encode = .ok bs → ¬ NodeAccepts parse bs := by
  have hr := Recovers.msg _ _ _ _ _ _ (recovers_signature (exFirst [exKey 1, exKey 2]) (exKey 1))
    (.msg _ _ _ _ _ _ (recovers_signature _ (exKey 2)) (.nil _))
  exact ⟨_, _, rfl, exOneOf_wf _ _ (by simp), ⟨_, exOneOf_verifies _ _ _ hr (by simp [isSignature]) (by simp)⟩,
    fun bs he => C80_extra_signatures_refused parse hp _ (exOneOf_wf _ _ (by simp)) _ rfl (by exact (by decide : 1 < 2)) bs he⟩

/-- Seventeen keys. -/
def exSeventeen : List Secp.PK := exKey 1 :: List.replicate 16 (exKey 2)

-- C80: one of seventeen: the crate verifies it, no node accepts it
example (parse : Arr 33 → Option Secp.PK) (hp : ∀ k, parse (Secp.serialize k) = some k) :
    ∃ t c, t.auth.origin = .multi c ∧ WellFormedTransaction t ∧ (∃ n, t.verifyOrigin = .ok n) ∧
      c.fields.countP isSignature = c.required.toNat ∧ ∀ bs, t.encode = .ok bs → ¬ NodeAccepts parse bs := by
  have hr := Recovers.msg _ _ _ _ _ _ (recovers_signature (exFirst exSeventeen) (exKey 1))
    (recovers_keys 4 180 5 _ (List.replicate 16 (exKey 2)))
  refine ⟨_, _, rfl, exOneOf_wf _ _ (by simp), ⟨_, exOneOf_verifies exSeventeen _ _ hr (by simp [isSignature]) (by simp)⟩, rfl, ?_⟩
  intro bs he hn
  obtain ⟨ks, n, h1, _, h3⟩ := accepts_multi parse hp _ (exOneOf_wf _ _ (by simp)) _ rfl bs he hn
  obtain ⟨rfl, _⟩ := recovers_det hr h1
  exact absurd h3 (by decide +kernel)

end

end Stacks.Tx

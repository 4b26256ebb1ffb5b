import Verif.Props.SponsorFee
import Verif.Props.Rpc

/-! # C134: transactions of accounts of several keys that the network takes -/

namespace Stacks.Tx
open Stacks.Spec Stacks.Clarity Stacks.Rpc

section
variable [Secp]

theorem fields_bytes_length (gs : List AuthField) :
    (gs.map fieldBytes).flatten.length = 34 * gs.length + 32 * gs.countP isSignature := by
  induction gs with
  | nil => rfl
  | cons g gs ih =>
    rw [List.map_cons, List.flatten_cons, List.length_append, ih, List.length_cons]
    cases g with
    | pk k =>
      rw [List.countP_cons_of_neg (by simp [isSignature])]
      simp only [fieldBytes, List.length_cons, (Secp.serialize k).2]
      omega
    | msg s =>
      rw [List.countP_cons_of_pos (by rfl)]
      simp only [fieldBytes, List.length_cons, s.2]
      omega

theorem multi_bytes_length (c : MultiSig) :
    (spendingBytes (.multi c)).length = 43 + 34 * c.fields.length + 32 * c.fields.countP isSignature := by
  simp only [spendingBytes, List.length_append, fields_bytes_length, List.length_cons, List.length_nil, beBytes_length,
    c.signer.2]
  omega

variable [Hashes]

omit [Hashes] in
/-- The bytes but for the authorization. -/
theorem transactionBytes_length (t : Transaction) (a : Auth) :
    (transactionBytes { t with auth := a }).length + (authBytes t.auth).length =
      (transactionBytes t).length + (authBytes a).length := by
  unfold transactionBytes
  simp only [List.length_append, List.length_cons]
  omega

/-- The members sign, and what a node with further rules then decides. -/
theorem several_decide [Secp.Lawful] (rules : Transaction → Prop) (parse : Arr 33 → Option Secp.PK)
    (hp : ∀ k, parse (Secp.serialize k) = some k) (t : Transaction) (ps : List Participant) (fee nonce : UInt64)
    (m : UInt8) (mode : C32.Mode) (c : MultiSig)
    (hnew : (MultiSig.new (ps.map Participant.key) fee nonce m mode : Outcome TxError MultiSig) = .ok c)
    (hc : t.auth = .standard (.multi c)) (hb : AcceptableBody t.postConditions t.payload)
    (hasc : ∀ v ∈ valuesIn t, Ascending v)
    (hm : ps.countP Participant.isSigner = m.toNat) (h1 : 1 ≤ m.toNat) (h16 : ps.length ≤ 16) :
    ∃ s bs gs, (Signer.new t >>= fun s => walk s ps) = .ok s ∧ s.tx.encode = .ok bs ∧ bs = transactionBytes s.tx ∧
      s.tx = { t with auth := .standard (.multi { c with fields := gs }) } ∧ gs.length = ps.length ∧
      gs.countP isSignature = m.toNat ∧
      (SortingNodeAccepts rules parse bs ↔ rules { s.tx with payload := readBack t.payload }) := by
  obtain ⟨s, bs, g1, g2, g3⟩ := C80_multisig_accepted parse hp t ps fee nonce m mode c hnew hc hb hm h1 h16
  obtain ⟨_, hsig, hce⟩ := (multi_new_iff _ fee nonce m mode c).1 hnew
  have hmode : mode = .p2sh ∨ mode = .p2wsh := by
    cases mode <;> first | exact .inl rfl | exact .inr rfl | cases hsig
  have hcm : c.mode = mode := by rw [hce]
  have hcr : c.required = m := by rw [hce]
  have hcf : c.fields = [] := by rw [hce]
  have hE := (wf_encodable_tx t (acceptable_wf (by rw [hc]; exact ⟨by rw [hcm]; exact hmode, by simp [hcf]⟩) hb)).2
  have hs0 := (signer_new_iff t _).2 ⟨hE, rfl⟩
  obtain ⟨s', gs, k1, k2, _, k4, _⟩ := walk_ok ps ⟨t, Hashes.sha512_256 (signingPreimage t), false, true, true⟩ c
    (by rw [hc]; rfl) (by rw [hcm]; exact hmode) (by simp) (fun _ => by rw [hcf, hcr, List.countP_nil]; omega)
  have hss : s' = s := by
    rw [hs0, Outcome.ok_bind] at g1
    exact Outcome.ok.inj (k1.symm.trans g1)
  subst hss
  have hglen : gs.length = ps.length := by
    have := congrArg List.length k4; rw [List.length_map, List.length_map] at this; exact this
  have hcount : gs.countP isSignature = ps.countP Participant.isSigner := by
    have e1 : (gs.map isSignature).countP id = gs.countP isSignature := by rw [List.countP_map]; rfl
    have e2 : (ps.map Participant.isSigner).countP id = ps.countP Participant.isSigner := by
      rw [List.countP_map]; rfl
    rw [← e1, ← e2, k4]
  have ha : t.auth.setOrigin (.multi { c with fields := c.fields ++ gs }) = .standard (.multi { c with fields := gs }) := by
    rw [hc, hcf]; rfl
  have hq : s'.tx = { t with auth := .standard (.multi { c with fields := gs }) } := by
    rw [k2, ← ha]; rfl
  refine ⟨s', bs, gs, g1, g2, ((transaction_encode_iff _ bs).1 g2).2, hq, hglen, by omega, ?_⟩
  rw [hq] at g2 ⊢
  have hwu : WellFormedTransaction { t with auth := .standard (.multi { c with fields := gs }) } :=
    acceptable_wf (show _ ∧ _ from ⟨by rw [hcm]; exact hmode, by simp only []; omega⟩) hb
  rw [C112_ascending rules parse hp _ hwu hasc bs g2, and_iff_left g3]

/-- **C134** A transfer of an account of `n` keys, `n` at most 16, of which `m` sign. It has `34 n + 32 m + 120` bytes
(`121` and the length of the name if the recipient is a contract); a node of a network takes it exactly when it is made
for that network, the fee is at least that number, the amount is not zero, the recipient is an account of the
network and not the account itself, there are no post-conditions and the name is good. -/
theorem C134_transfer [Secp.Lawful] (parse : Arr 33 → Option Secp.PK) (hp : ∀ k, parse (Secp.serialize k) = some k)
    (net : Chain) (t : Transaction) (ps : List Participant) (fee nonce : UInt64) (m : UInt8) (mode : C32.Mode)
    (c : MultiSig)
    (hnew : (MultiSig.new (ps.map Participant.key) fee nonce m mode : Outcome TxError MultiSig) = .ok c)
    (hc : t.auth = .standard (.multi c)) (hm : ps.countP Participant.isSigner = m.toNat) (h1 : 1 ≤ m.toNat)
    (h16 : ps.length ≤ 16) (pay : TokenTransfer) (hpay : t.payload = .tokenTransfer pay)
    (hb : AcceptableBody t.postConditions t.payload)
    (hasc : ∀ a v code info, .nonFungible a v code info ∈ t.postConditions → Ascending v) :
    ∃ s bs, (Signer.new t >>= fun s => walk s ps) = .ok s ∧ s.tx.encode = .ok bs ∧
      (t.postConditions = [] → bs.length + 60 = transferSize pay.address + 34 * ps.length + 32 * m.toNat) ∧
      (SortingNodeAccepts (fun t => GoodNames t ∧ Admissible net t) parse bs ↔
        net.IsOf t ∧ bs.length ≤ fee.toNat ∧ pay.amount ≠ 0 ∧ net.Begins (addressText pay.address) ∧
        (∀ signer own, scriptSigner mode m.toNat (ps.map Participant.key) = some signer →
          C32.c32Address signer.1 net.multiVersion = .ok own → pay.address ≠ .principalStd own) ∧
        t.postConditions = [] ∧ ValueNames pay.address) := by
  have hasc' : ∀ v ∈ valuesIn t, Ascending v := by
    intro v hv
    rcases List.mem_append.1 hv with hv | hv
    · rw [hpay] at hv; exact absurd hv List.not_mem_nil
    · obtain ⟨c, hm, e⟩ := List.mem_filterMap.1 hv
      cases c with
      | stx => cases e
      | fungible => cases e
      | nonFungible a x code info => cases e; exact hasc a v code info hm
  obtain ⟨_, hsig, hce⟩ := (multi_new_iff _ fee nonce m mode c).1 hnew
  have hmode : mode = .p2sh ∨ mode = .p2wsh := by
    cases mode <;> first | exact .inl rfl | exact .inr rfl | cases hsig
  have hcm : c.mode = mode := by rw [hce]
  have hcf : c.fee = fee := by rw [hce]
  obtain ⟨s, bs, gs, g1, g2, g3, g4, g5, g6, g7⟩ := several_decide (fun t => GoodNames t ∧ Admissible net t) parse hp
    t ps fee nonce m mode c hnew hc hb hasc' hm h1 h16
  refine ⟨s, bs, g1, g2, ?_, g7.trans ?_⟩
  · intro hnil
    have hwp := hb.2.2.1
    have hacc := hb.2.2.2
    rw [hpay] at hwp hacc
    have hl := transfer_bytes_length { t with auth := .standard (.single SingleSig.default) } SingleSig.default rfl hnil pay
      hpay hwp.1 hacc hwp.2
    have e1 := transactionBytes_length { t with auth := .standard (.single SingleSig.default) }
      (.standard (.multi { c with fields := gs }))
    simp only [authBytes, List.length_cons, single_bytes_length, multi_bytes_length, g5, g6] at e1
    rw [g3, g4]
    omega
  · rw [g3, g4]
    have ea := admissible_transfer net { t with auth := .standard (.multi { c with fields := gs }) } pay hpay hb
    have eg := goodNames_readBack { t with auth := .standard (.multi { c with fields := gs }) }
    simp only [] at ea eg ⊢
    rw [ea, eg]
    have hne : ¬ mode = .p2pkh := by rcases hmode with rfl | rfl <;> decide
    unfold GoodNames
    simp only [hpay, PayloadNames, Auth.origin, paidFee, Spending.fee, hcf, Spending.mode, hcm, hne, if_false, signerOf, hsig,
      Option.some.injEq]
    constructor
    · rintro ⟨⟨_, q1⟩, q2, q3, q4, q5, q6, q7⟩
      exact ⟨q2, q3, q4, q5, fun signer own e => e ▸ q6 own, q7, q1⟩
    · rintro ⟨q2, q3, q4, q5, q6, q7, q1⟩
      exact ⟨⟨by rw [q7]; exact fun _ h => absurd h List.not_mem_nil, q1⟩, q2, q3, q4, q5, fun own => q6 _ own rfl, q7⟩

/-- **C134** A contract call of such an account. -/
theorem C134_call [Secp.Lawful] (parse : Arr 33 → Option Secp.PK) (hp : ∀ k, parse (Secp.serialize k) = some k)
    (net : Chain) (t : Transaction) (ps : List Participant) (fee nonce : UInt64) (m : UInt8) (mode : C32.Mode)
    (c : MultiSig)
    (hnew : (MultiSig.new (ps.map Participant.key) fee nonce m mode : Outcome TxError MultiSig) = .ok c)
    (hc : t.auth = .standard (.multi c)) (hm : ps.countP Participant.isSigner = m.toNat) (h1 : 1 ≤ m.toNat)
    (h16 : ps.length ≤ 16) (call : ContractCall) (hcall : t.payload = .contractCall call)
    (hb : AcceptableBody t.postConditions t.payload) (hasc : ∀ v ∈ valuesIn t, Ascending v) :
    ∃ s bs, (Signer.new t >>= fun s => walk s ps) = .ok s ∧ s.tx.encode = .ok bs ∧
      (SortingNodeAccepts (fun t => GoodNames t ∧ Admissible net t) parse bs ↔
        net.IsOf t ∧ bs.length ≤ fee.toNat ∧
        (call.address.version = net.singleVersion ∨ call.address.version = net.multiVersion) ∧
        ContractName call.contract ∧ ClarityName call.name ∧ (∀ v ∈ call.args, ValueNames v) ∧
        ∀ c ∈ t.postConditions, ConditionNames c) := by
  obtain ⟨_, _, hce⟩ := (multi_new_iff _ fee nonce m mode c).1 hnew
  have hcf : c.fee = fee := by rw [hce]
  obtain ⟨s, bs, gs, g1, g2, g3, g4, _, _, g7⟩ := several_decide (fun t => GoodNames t ∧ Admissible net t) parse hp
    t ps fee nonce m mode c hnew hc hb hasc hm h1 h16
  refine ⟨s, bs, g1, g2, g7.trans ?_⟩
  have hrb : readBack t.payload = t.payload := by rw [hcall]; rfl
  rw [g3, g4, hrb]
  unfold GoodNames Admissible
  simp only [hcall, PayloadNames, paidFee, Spending.fee, hcf, Chain.Owns, List.head?_cons, Option.some.injEq]
  constructor
  · rintro ⟨⟨q1, q2, q3, q4⟩, q5, q6, q7⟩
    exact ⟨q5, q6, q7, q2, q3, q4, q1⟩
  · rintro ⟨q5, q6, q7, q2, q3, q4, q1⟩
    exact ⟨⟨q1, q2, q3, q4⟩, q5, q6, q7⟩

/-- **C134** Before it is signed the transaction is shorter by 34 bytes for each key and 32 for each signature to come. So a
fee of one microSTX for each byte it then has is refused by every node. -/
theorem C134_fee_before_signing [Secp.Lawful] (parse : Arr 33 → Option Secp.PK)
    (hp : ∀ k, parse (Secp.serialize k) = some k) (t : Transaction) (ps : List Participant) (fee nonce : UInt64)
    (m : UInt8) (mode : C32.Mode) (c : MultiSig)
    (hnew : (MultiSig.new (ps.map Participant.key) fee nonce m mode : Outcome TxError MultiSig) = .ok c)
    (hc : t.auth = .standard (.multi c)) (hm : ps.countP Participant.isSigner = m.toNat) (h1 : 1 ≤ m.toNat)
    (h16 : ps.length ≤ 16) (hb : AcceptableBody t.postConditions t.payload) (hasc : ∀ v ∈ valuesIn t, Ascending v) :
    ∃ s unsigned bs, (Signer.new t >>= fun s => walk s ps) = .ok s ∧ t.encode = .ok unsigned ∧ s.tx.encode = .ok bs ∧
      bs.length = unsigned.length + 34 * ps.length + 32 * m.toNat ∧
      (fee.toNat < unsigned.length + 34 * ps.length + 32 * m.toNat →
        ∀ net, ¬ SortingNodeAccepts (fun t => GoodNames t ∧ Admissible net t) parse bs) ∧
      (fee.toNat = unsigned.length →
        ∀ net, ¬ SortingNodeAccepts (fun t => GoodNames t ∧ Admissible net t) parse bs) := by
  obtain ⟨_, hsig, hce⟩ := (multi_new_iff _ fee nonce m mode c).1 hnew
  have hmode : mode = .p2sh ∨ mode = .p2wsh := by
    cases mode <;> first | exact .inl rfl | exact .inr rfl | cases hsig
  have hcm : c.mode = mode := by rw [hce]
  have hcf : c.fields = [] := by rw [hce]
  have hcfee : c.fee = fee := by rw [hce]
  have hE := wf_encodable_tx t (acceptable_wf (by rw [hc]; exact ⟨by rw [hcm]; exact hmode, by simp [hcf]⟩) hb)
  have hu := (transaction_encode_iff t _).2 ⟨hE, rfl⟩
  obtain ⟨s, bs, gs, g1, g2, g3, g4, g5, g6, _⟩ := several_decide (fun _ => True) parse hp
    t ps fee nonce m mode c hnew hc hb hasc hm h1 h16
  have hlen : bs.length = (transactionBytes t).length + 34 * ps.length + 32 * m.toNat := by
    have e1 := transactionBytes_length t (.standard (.multi { c with fields := gs }))
    rw [hc] at e1
    simp only [authBytes, List.length_cons, multi_bytes_length, g5, g6, hcf, List.length_nil, List.countP_nil] at e1
    rw [g3, g4]
    omega
  have key : fee.toNat < bs.length →
      ∀ net, ¬ SortingNodeAccepts (fun t => GoodNames t ∧ Admissible net t) parse bs := by
    intro hlt net hacc
    obtain ⟨s', bs', gs', k1, k2, k3, k4, _, _, k7⟩ := several_decide (fun t => GoodNames t ∧ Admissible net t) parse hp
      t ps fee nonce m mode c hnew hc hb hasc hm h1 h16
    obtain rfl := Outcome.ok.inj (g1.symm.trans k1)
    obtain rfl := Outcome.ok.inj (g2.symm.trans k2)
    have ha := (k7.1 hacc).2.2.1
    have hq : transactionBytes { s.tx with payload := readBack t.payload } = bs := by
      rw [show t.payload = s.tx.payload by rw [g4], transactionBytes_readBack s.tx (by rw [g4]; exact hE.2.2.2), ← g3]
    rw [hq] at ha
    have hfee : paidFee s.tx.auth = fee.toNat := by rw [g4]; simp only [paidFee, Spending.fee, hcfee]
    exact absurd (show bs.length ≤ paidFee s.tx.auth from ha) (by omega)
  exact ⟨s, _, bs, g1, hu, g2, hlen, fun h => key (by omega), fun h => key (by omega)⟩

/-- **C134** `estimate_fee` asks about the transaction as it is. For an account of several keys that has not signed yet the
question names a length short of the final one by 34 for each key and 32 for each signature; the one about the signed
transaction names the right length. -/
theorem C134_estimate_short [Secp.Lawful] [Http] (r : StacksRPC) (server server' : Request → Reply) (t : Transaction)
    (ps : List Participant) (fee nonce : UInt64) (m : UInt8) (mode : C32.Mode) (c : MultiSig)
    (hnew : (MultiSig.new (ps.map Participant.key) fee nonce m mode : Outcome TxError MultiSig) = .ok c)
    (hc : t.auth = .standard (.multi c)) (hm : ps.countP Participant.isSigner = m.toNat)
    (hl : ps.length < 2 ^ 32) (hE : EncodableBody t) :
    ∃ s p unsigned bs, (Signer.new t >>= fun s => walk s ps) = .ok s ∧ t.payload.encode = .ok p ∧
      s.tx.encode = .ok bs ∧ bs.length = unsigned + 34 * ps.length + 32 * m.toNat ∧
      (r.estimateFee server t).sent = [feeQuestion r.url (Hex.bytesToHex p) unsigned] ∧
      (r.estimateFee server' s.tx).sent = [feeQuestion r.url (Hex.bytesToHex p) bs.length] := by
  obtain ⟨_, hsig, hce⟩ := (multi_new_iff _ fee nonce m mode c).1 hnew
  have hmode : mode = .p2sh ∨ mode = .p2wsh := by
    cases mode <;> first | exact .inl rfl | exact .inr rfl | cases hsig
  have hcm : c.mode = mode := by rw [hce]
  have hcr : c.required = m := by rw [hce]
  have hcf : c.fields = [] := by rw [hce]
  have hs0 := (signer_new_iff t _).2 ⟨hE, rfl⟩
  obtain ⟨s, gs, k1, k2, _, k4, _⟩ := walk_ok ps ⟨t, Hashes.sha512_256 (signingPreimage t), false, true, true⟩ c
    (by rw [hc]; rfl) (by rw [hcm]; exact hmode) (by simp) (fun _ => by rw [hcf, hcr, List.countP_nil]; omega)
  have hglen : gs.length = ps.length := by
    have := congrArg List.length k4; rw [List.length_map, List.length_map] at this; exact this
  have hcount : gs.countP isSignature = ps.countP Participant.isSigner := by
    have e1 : (gs.map isSignature).countP id = gs.countP isSignature := by rw [List.countP_map]; rfl
    have e2 : (ps.map Participant.isSigner).countP id = ps.countP Participant.isSigner := by
      rw [List.countP_map]; rfl
    rw [← e1, ← e2, k4]
  have ha : t.auth.setOrigin (.multi { c with fields := c.fields ++ gs }) = .standard (.multi { c with fields := gs }) := by
    rw [hc, hcf]; rfl
  have hq : s.tx = { t with auth := .standard (.multi { c with fields := gs }) } := by
    rw [k2, ← ha]; rfl
  have hu := (transaction_encode_iff t _).2 ⟨⟨by rw [hc]; show c.fields.length < 2 ^ 32; simp [hcf], hE⟩, rfl⟩
  have hb := (transaction_encode_iff s.tx _).2 ⟨⟨by rw [hq]; show gs.length < 2 ^ 32; omega, by rw [hq]; exact hE⟩, rfl⟩
  obtain ⟨hex, p, e1, _, _, rfl, e2⟩ := (C62_estimate_fee r server t).1 _ hu
  obtain ⟨hex', p', e1', _, _, rfl, e2'⟩ := (C62_estimate_fee r server' s.tx).1 _ hb
  have hpp : p' = p := by rw [hq] at e1'; exact Outcome.ok.inj (e1'.symm.trans e1)
  subst hpp
  refine ⟨s, p', _, _, by rw [hs0]; exact k1, e1, hb, ?_, e2, e2'⟩
  have e3 := transactionBytes_length t (.standard (.multi { c with fields := gs }))
  rw [hc] at e3
  simp only [authBytes, List.length_cons, multi_bytes_length, hglen, hcount, hm, hcf, List.length_nil, List.countP_nil] at e3
  rw [hq]
  omega

/-- **C134** With one key the question is the same before and after signing. -/
theorem C134_estimate_single [Http] (r : StacksRPC) (server server' : Request → Reply) (t t' : Transaction) (c : SingleSig)
    (k : Secp.SK) (hc : t.auth.origin = .single c) (hs : t.sign k = .ok t') :
    (r.estimateFee server t).sent = (r.estimateFee server' t').sent := by
  obtain ⟨hE, _, _, e⟩ := (sign_iff _ _ _).1 hs
  obtain ⟨a', rfl, hsm, hlen⟩ : ∃ a' : Auth, t' = { t with auth := a' } ∧
      (SmallAuth a' ↔ SmallAuth t.auth) ∧ (authBytes a').length = (authBytes t.auth).length := by
    cases hau : t.auth with
    | standard o =>
      rw [hau] at hc e
      obtain rfl : o = .single c := hc
      exact ⟨_, e, Iff.rfl, by
        simp only [Auth.setOrigin, withSignature, Auth.origin, authBytes, List.length_cons, single_bytes_length]⟩
    | sponsored o q =>
      rw [hau] at hc e
      obtain rfl : o = .single c := hc
      exact ⟨_, e, Iff.rfl, by
        simp only [Auth.setOrigin, withSignature, Auth.origin, authBytes, List.length_cons, List.length_append,
          single_bytes_length]⟩
  by_cases hsmall : SmallAuth t.auth
  · have h1 := (transaction_encode_iff t _).2 ⟨⟨hsmall, hE⟩, rfl⟩
    have h2 := (transaction_encode_iff { t with auth := a' } _).2 ⟨⟨hsm.2 hsmall, hE⟩, rfl⟩
    obtain ⟨_, p, e1, _, _, rfl, e2⟩ := (C62_estimate_fee r server t).1 _ h1
    obtain ⟨_, p', e1', _, _, rfl, e2'⟩ := (C62_estimate_fee r server' { t with auth := a' }).1 _ h2
    obtain rfl := Outcome.ok.inj (e1.symm.trans e1')
    have := transactionBytes_length t a'
    rw [e2, e2', show (transactionBytes { t with auth := a' }).length = (transactionBytes t).length by omega]
  · rw [((C62_estimate_fee r server t).2 fun bs h => hsmall ((transaction_encode_iff t bs).1 h).1.1).1,
      ((C62_estimate_fee r server' { t with auth := a' }).2 fun bs h =>
        hsmall (hsm.1 ((transaction_encode_iff _ bs).1 h).1.1)).1]

end

/-! ## Concrete cases -/

section
open Stacks.Concrete.Ecdsa
attribute [local instance] realSecp Concrete.realHashes
local instance severalKeysFeeLawful : Secp.Lawful := realLawful

def exMemberA : Secp.SK := ⟨7, by decide⟩
def exMemberB : Secp.SK := ⟨9, by decide⟩
def exMemberC : Secp.SK := ⟨11, by decide⟩

/-- Two of three members sign. -/
def exMembers : List Participant := [.signs exMemberA, .absent (Secp.pub exMemberB), .signs exMemberC]

/-- Their condition, with a fee. -/
def exMembersPart (fee : UInt64) : MultiSig :=
  ⟨.p2sh, fee, 3, hash160Of (multisigScriptSpec 2 (exMembers.map Participant.key)), [], 2⟩

/-- A payment of their account on the testnet. -/
def exMembersPay (a : Str) (amount fee : UInt64) : Transaction :=
  { version := .testnet, chainId := .testnet, auth := .standard (.multi (exMembersPart fee)), anchorMode := .any,
    postConditionMode := .deny, postConditions := [], payload := .tokenTransfer ⟨.principalStd a, amount, "hi".toList⟩ }

theorem exMembersPart_new (fee : UInt64) :
    (MultiSig.new (exMembers.map Participant.key) fee 3 2 .p2sh : Outcome TxError MultiSig) = .ok (exMembersPart fee) :=
  (multi_new_iff _ _ _ _ _ _).2 ⟨⟨by decide, by show 3 % 256 ≤ 175; decide⟩, rfl, rfl⟩

theorem exMembersPay_body (amount fee : UInt64) :
    AcceptableBody (exMembersPay testnetAddr amount fee).postConditions (exMembersPay testnetAddr amount fee).payload :=
  ⟨by show 0 < _; decide, fun _ h => absurd h List.not_mem_nil,
    ⟨testnetAddr_canonical, by show (Str.bytes "hi".toList).length ≤ 34; decide +kernel⟩, .inl ⟨_, rfl⟩⟩

/-- An address that begins with `ST` is not one of an account of several keys. -/
theorem testnetAddr_not_several (signer : Bytes) (own : Str) (h : C32.c32Address signer 21 = .ok own) :
    CV.principalStd testnetAddr ≠ .principalStd own := by
  intro e
  cases e
  have h1 := addrBytes_canonical h
  have h2 : C32.c32Address testnetHash 26 = .ok testnetAddr := by decide +kernel
  rw [addrBytes_canonical h2] at h1
  exact absurd (List.cons.inj h1).1 (by decide)

/-- 2 of 3: 286 microSTX are enough for the fee, 285 are not, and the 120 of its bytes before it is signed are not. -/
example (parse : Arr 33 → Option Secp.PK) (hp : ∀ k, parse (Secp.serialize k) = some k) :
    ∀ q ∈ [((286 : UInt64), Chain.testnet, true), (285, .testnet, false), (120, .testnet, false), (286, .mainnet, false)],
    ∃ s bs, (Signer.new (exMembersPay testnetAddr 5 q.1) >>= fun s => walk s exMembers) = .ok s ∧ s.tx.encode = .ok bs ∧
      bs.length = 286 ∧
      (SortingNodeAccepts (fun t => GoodNames t ∧ Admissible q.2.1 t) parse bs ↔ q.2.2 = true) := by
  intro q hq
  obtain ⟨s, bs, h1, h2, h3, h4⟩ := C134_transfer parse hp q.2.1 (exMembersPay testnetAddr 5 q.1) exMembers q.1 3 2 .p2sh _
    (exMembersPart_new _) rfl rfl (by decide) (by show 3 ≤ 16; decide) ⟨.principalStd testnetAddr, 5, "hi".toList⟩ rfl
    (exMembersPay_body _ _) (fun _ _ _ _ h => absurd h List.not_mem_nil)
  have hlen : bs.length = 286 := by
    have : bs.length + 60 = 180 + 34 * 3 + 32 * 2 := h3 rfl
    omega
  refine ⟨s, bs, h1, h2, hlen, h4.trans ?_⟩
  rw [hlen]
  simp only [List.mem_cons, List.not_mem_nil, or_false] at hq
  rcases hq with rfl | rfl | rfl | rfl
  · refine iff_of_true ⟨⟨rfl, rfl⟩, ?_, ?_, ?_, fun signer own _ h => testnetAddr_not_several signer.1 own h, rfl, trivial⟩ rfl
    · decide
    · decide
    · show "ST".toList <+: testnetAddr ∨ _
      decide +kernel
  · exact iff_of_false (fun h => absurd (show 286 ≤ (285 : UInt64).toNat from h.2.1) (by decide)) (by decide)
  · exact iff_of_false (fun h => absurd (show 286 ≤ (120 : UInt64).toNat from h.2.1) (by decide)) (by decide)
  · exact iff_of_false (fun h => absurd (show versionNumber .testnet = 0 from h.1.1) (by decide)) (by decide)

/-- The question about its fee says 120 before it is signed and 286 afterwards. -/
example [Http] (r : StacksRPC) (server : Request → Reply) (parse : Arr 33 → Option Secp.PK)
    (hp : ∀ k, parse (Secp.serialize k) = some k) :
    ∃ s p, (Signer.new (exMembersPay testnetAddr 5 0) >>= fun s => walk s exMembers) = .ok s ∧
      (r.estimateFee server (exMembersPay testnetAddr 5 0)).sent = [feeQuestion r.url p 120] ∧
      (r.estimateFee server s.tx).sent = [feeQuestion r.url p 286] := by
  have hb := exMembersPay_body 5 0
  have hE : EncodableBody (exMembersPay testnetAddr 5 0) :=
    ⟨hb.1, fun _ h => absurd h List.not_mem_nil, wf_encodablePayload _ hb.2.2.1⟩
  obtain ⟨s, p, unsigned, bs, h1, h2, h3, h4, h5, h6⟩ := C134_estimate_short r server server (exMembersPay testnetAddr 5 0)
    exMembers 0 3 2 .p2sh _ (exMembersPart_new _) rfl rfl (by show 3 < _; decide) hE
  have hlen : bs.length = 286 := by
    obtain ⟨s', bs', k1, k2, k3, _⟩ := C134_transfer parse hp .testnet (exMembersPay testnetAddr 5 0) exMembers 0 3 2
      .p2sh _ (exMembersPart_new _) rfl rfl (by decide) (by show 3 ≤ 16; decide) ⟨.principalStd testnetAddr, 5, "hi".toList⟩ rfl
      (exMembersPay_body _ _) (fun _ _ _ _ h => absurd h List.not_mem_nil)
    obtain rfl := Outcome.ok.inj (h1.symm.trans k1)
    obtain rfl := Outcome.ok.inj (h3.symm.trans k2)
    have : bs.length + 60 = 180 + 34 * 3 + 32 * 2 := k3 rfl
    omega
  refine ⟨s, _, h1, ?_, hlen ▸ h6⟩
  have : bs.length = unsigned + 34 * 3 + 32 * 2 := h4
  rw [h5, show unsigned = 120 by omega]

/-- A contract call of their account. -/
def exMembersCall (fee : UInt64) : Transaction := { exMembersPay [] 0 fee with payload := exCallToSponsor.payload }

/-- C134: the call is taken if they pay a thousand, and refused if they pay nothing. -/
example (parse : Arr 33 → Option Secp.PK) (hp : ∀ k, parse (Secp.serialize k) = some k) :
    ∀ q ∈ [((1000 : UInt64), true), (0, false)],
    ∃ s bs, (Signer.new (exMembersCall q.1) >>= fun s => walk s exMembers) = .ok s ∧ s.tx.encode = .ok bs ∧
      (SortingNodeAccepts (fun t => GoodNames t ∧ Admissible .testnet t) parse bs ↔ q.2 = true) := by
  intro q hq
  have hb : AcceptableBody (exMembersCall q.1).postConditions (exMembersCall q.1).payload :=
    ⟨by show 0 < _; decide, fun _ h => absurd h List.not_mem_nil, exCallToSponsor_wf, trivial⟩
  have hasc : ∀ v ∈ valuesIn (exMembersCall q.1), Ascending v := by
    intro v hv
    obtain rfl := List.mem_singleton.1 hv
    exact ⟨by decide +kernel, trivial, trivial, trivial⟩
  obtain ⟨s, bs, h1, h2, h3⟩ := C134_call parse hp .testnet (exMembersCall q.1) exMembers q.1 3 2 .p2sh _ (exMembersPart_new _)
    rfl rfl (by decide) (by show 3 ≤ 16; decide) _ rfl hb hasc
  obtain ⟨s', unsigned, bs', k1, k2, k3, k4, _⟩ := C134_fee_before_signing parse hp (exMembersCall q.1) exMembers q.1 3 2 .p2sh _
    (exMembersPart_new _) rfl rfl (by decide) (by show 3 ≤ 16; decide) hb hasc
  obtain rfl := Outcome.ok.inj (h1.symm.trans k1)
  obtain rfl := Outcome.ok.inj (h2.symm.trans k3)
  have hlen : bs.length = unsigned.length + 34 * 3 + 32 * 2 := k4
  refine ⟨s, bs, h1, h2, h3.trans ?_⟩
  simp only [List.mem_cons, List.not_mem_nil, or_false] at hq
  rcases hq with rfl | rfl
  · refine iff_of_true ⟨⟨rfl, rfl⟩, ?_, .inl rfl, by decide, by decide, fun v hv => ?_, fun _ h => absurd h List.not_mem_nil⟩ rfl
    · obtain ⟨_, rfl⟩ := (transaction_encode_iff _ unsigned).1 k2
      have hu : (transactionBytes (exMembersCall 1000)).length < 500 := by
        unfold transactionBytes
        simp only [exMembersCall, exMembersPay, authBytes, multi_bytes_length, List.length_append, List.length_cons,
          List.length_nil, beBytes_length]
        have hl : (payloadBytes exCallToSponsor.payload).length < 300 := by decide +kernel
        have hc : (conditionsBytes []).length = 4 := rfl
        have hf : (exMembersPart 1000).fields = [] := rfl
        rw [hc, hf, List.length_nil, List.countP_nil]
        omega
      have h1000 : (1000 : UInt64).toNat = 1000 := rfl
      simp only [] at hlen ⊢
      omega
    · obtain rfl := List.mem_singleton.1 hv
      exact ⟨by simp, by decide, trivial, by decide, trivial, trivial⟩
  · refine iff_of_false (fun h => ?_) (by decide)
    have h0 : bs.length ≤ 0 := show bs.length ≤ (0 : UInt64).toNat from h.2.1
    omega

/-- C134: with one key the question about the fee is the same before and after signing. -/
example [Http] (r : StacksRPC) (server : Request → Reply) :
    ∃ t', (exToSponsor testnetAddr 5 1).sign exOriginKey = .ok t' ∧
      (r.estimateFee server (exToSponsor testnetAddr 5 1)).sent = (r.estimateFee server t').sent := by
  have hE : EncodableBody (exToSponsor testnetAddr 5 1) := by
    have hb := exMembersPay_body 5 0
    exact ⟨hb.1, fun _ h => absurd h List.not_mem_nil, wf_encodablePayload _ hb.2.2.1⟩
  obtain ⟨s₀, _, h1, _⟩ := C47_sign_then_verify (exToSponsor testnetAddr 5 1) (Secp.pub exOriginKey) 1 3 .p2pkh _ exOriginKey
    (exOriginPart_new 1) rfl hE
  exact ⟨_, h1, C134_estimate_single r server server _ _ (exOriginPart 1) exOriginKey rfl h1⟩

end

end Stacks.Tx

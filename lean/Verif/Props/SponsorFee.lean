import Verif.Props.Admission

/-! # C133: sponsored transactions that the network takes -/

namespace Stacks.Tx
open Stacks.Spec Stacks.Clarity

section
variable [Secp] [Hashes]

omit [Hashes] in
theorem single_bytes_length (c : SingleSig) : (spendingBytes (.single c)).length = 103 := by
  simp [spendingBytes, c.signer.2, c.signature.2]

theorem transactionBytes_readBack (t : Transaction) (h : EncodablePayload t.payload) :
    transactionBytes { t with payload := readBack t.payload } = transactionBytes t := by
  unfold transactionBytes
  simp only [payloadBytes_readBack _ h]

/-- Sponsoring and signing with one key, and what a node with further rules then decides. -/
theorem sponsored_decides [Secp.Lawful] (rules : Transaction → Prop) (parse : Arr 33 → Option Secp.PK)
    (hp : ∀ k, parse (Secp.serialize k) = some k) (t : Transaction) (o p : Spending) (n : Arr 32) (k : Secp.SK)
    (fee nonce : UInt64) (mode : C32.Mode) (q : SingleSig) (ha : t.auth = .sponsored o p)
    (hv : t.verifyOrigin = .ok n)
    (hnew : (SingleSig.new (Secp.pub k) fee nonce mode : Outcome TxError SingleSig) = .ok q)
    (hw : WellFormedSpending o) (hs : SmallScript o) (hx : ExactSpending o)
    (hb : AcceptableBody t.postConditions t.payload) (hasc : ∀ v ∈ valuesIn t, Ascending v) :
    ∃ s s' bs q', Signer.newSponsor t (.single q) = .ok s ∧ s.signSponsor k = .ok s' ∧ s'.tx.encode = .ok bs ∧
      bs = transactionBytes s'.tx ∧ s'.tx = { t with auth := .sponsored o (.single q') } ∧ q'.fee = fee ∧
      (SortingNodeAccepts rules parse bs ↔ rules { s'.tx with payload := readBack t.payload }) := by
  obtain ⟨s, s', bs, h1, h2, h3, h4⟩ :=
    C80_sponsored_accepted parse hp t o p n k fee nonce mode q ha hv hnew hw hs hx hb
  obtain ⟨hm, hfee, _, hsig, _⟩ := (single_new_iff (Secp.pub k) fee nonce mode q).1 hnew
  have hmode : q.mode = .p2pkh ∨ q.mode = .p2wpkh := by
    rw [hm]; cases mode <;> first | exact .inl rfl | exact .inr rfl | cases hsig
  obtain ⟨o', c', _, he, _, rfl⟩ := (newSponsor_iff _ _ _).1 h1
  rw [ha] at he
  cases he
  obtain ⟨q', hq, hmode', hfee'⟩ : ∃ q' : SingleSig, s'.tx = { t with auth := .sponsored o (.single q') } ∧
      (q'.mode = .p2pkh ∨ q'.mode = .p2wpkh) ∧ q'.fee = fee := by
    obtain ⟨o'', c'', he, _, _, rfl⟩ := (signSponsor_iff _ _ _).1 h2
    cases he
    exact ⟨{ q with signature := Signer.sponsorSig _ (.single q) k }, rfl, hmode, hfee⟩
  refine ⟨_, s', bs, q', h1, h2, h3, ((transaction_encode_iff _ bs).1 h3).2, hq, hfee', ?_⟩
  rw [hq] at h3 ⊢
  have hwu : WellFormedTransaction { t with auth := .sponsored o (.single q') } :=
    acceptable_wf (show _ ∧ _ from ⟨hw, hmode'⟩) hb
  rw [C112_ascending rules parse hp _ hwu hasc bs h3, and_iff_left h4]

/-- The rules for a transfer that is read back, in terms of the transfer. -/
theorem admissible_transfer (net : Chain) (t : Transaction) (p : TokenTransfer) (hp : t.payload = .tokenTransfer p)
    (hb : AcceptableBody t.postConditions t.payload) :
    Admissible net { t with payload := readBack t.payload } ↔
      net.IsOf t ∧ (transactionBytes t).length ≤ paidFee t.auth ∧ p.amount ≠ 0 ∧ net.Begins (addressText p.address) ∧
      (∀ own, C32.c32Address (signerOf t.auth.origin).1
          (if t.auth.origin.mode = .p2pkh then net.singleVersion else net.multiVersion) = .ok own →
        p.address ≠ .principalStd own) ∧ t.postConditions = [] := by
  have henc : EncodablePayload t.payload := by
    have := hb.2.2.1
    rw [hp] at this ⊢
    exact (wf_encodablePayload _ this)
  have hwp := hb.2.2.1
  have hacc := hb.2.2.2
  rw [hp] at hwp hacc
  replace hacc : IsPrincipal p.address := hacc
  have hwa : WellFormed p.address := hwp.1
  have hcan : CanonicalAddress (addressText p.address) := by
    rcases hacc with ⟨a, ea⟩ | ⟨a, m, ea⟩
    · rw [ea] at hwa ⊢; exact hwa
    · rw [ea] at hwa ⊢; exact hwa.1
  have hpa : principalAddress p.address = addrBytes (addressText p.address) := by
    rcases hacc with ⟨a, ea⟩ | ⟨a, m, ea⟩ <;> rw [ea] <;> rfl
  have hamt : 1 ≤ p.amount.toNat ↔ p.amount ≠ 0 := by
    rw [Ne, ← UInt64.toNat_inj]
    show _ ↔ ¬ p.amount.toNat = 0
    omega
  have hself : (∀ a, p.address = .principalStd a → addrBytes a ≠ spenderAddress net t.auth.origin) ↔
      ∀ own, C32.c32Address (signerOf t.auth.origin).1
          (if t.auth.origin.mode = .p2pkh then net.singleVersion else net.multiVersion) = .ok own →
        p.address ≠ .principalStd own := by
    constructor
    · intro h own ho er
      exact h own er (addrBytes_canonical ho)
    · intro h a ea hab
      have hca : CanonicalAddress a := by rw [ea] at hcan; exact hcan
      obtain ⟨x, v, ex⟩ := C32.canonical_iff.1 hca
      rw [addrBytes_canonical ex] at hab
      obtain ⟨rfl, hx⟩ := List.cons.inj hab
      rw [hx] at ex
      exact h a ex ea
  unfold Admissible
  rw [transactionBytes_readBack t henc, ← hself, ← hamt, ← owns_iff net hcan, ← hpa, hp]
  exact Iff.rfl

/-- **C133** A sponsored transfer whose origin verifies is sponsored and signed by one key; a node of a network takes it
exactly when it is made for that network, the fee of the sponsor is at least the number of bytes, the amount is not zero,
the recipient is an account of the network and not the origin's own, there are no post-conditions and the names are good.
The fee of the origin is not among the conditions. With an origin of one key the number of bytes is 283, or 284
and the length of the contract's name. -/
theorem C133_transfer [Secp.Lawful] (parse : Arr 33 → Option Secp.PK) (hp : ∀ k, parse (Secp.serialize k) = some k)
    (net : Chain) (t : Transaction) (o p : Spending) (n : Arr 32) (k : Secp.SK) (fee nonce : UInt64) (mode : C32.Mode)
    (q : SingleSig) (ha : t.auth = .sponsored o p) (hv : t.verifyOrigin = .ok n)
    (hnew : (SingleSig.new (Secp.pub k) fee nonce mode : Outcome TxError SingleSig) = .ok q)
    (hw : WellFormedSpending o) (hs : SmallScript o) (hx : ExactSpending o)
    (hb : AcceptableBody t.postConditions t.payload)
    (hasc : ∀ a v code info, .nonFungible a v code info ∈ t.postConditions → Ascending v)
    (pay : TokenTransfer) (hpay : t.payload = .tokenTransfer pay) :
    ∃ s s' bs, Signer.newSponsor t (.single q) = .ok s ∧ s.signSponsor k = .ok s' ∧ s'.tx.encode = .ok bs ∧
      (SortingNodeAccepts (fun t => GoodNames t ∧ Admissible net t) parse bs ↔
        net.IsOf t ∧ bs.length ≤ fee.toNat ∧ pay.amount ≠ 0 ∧ net.Begins (addressText pay.address) ∧
        (∀ own, C32.c32Address (signerOf o).1 (if o.mode = .p2pkh then net.singleVersion else net.multiVersion) =
          .ok own → pay.address ≠ .principalStd own) ∧
        t.postConditions = [] ∧ ValueNames pay.address) ∧
      (∀ c, o = .single c → t.postConditions = [] → bs.length = transferSize pay.address + 103) := by
  have hasc' : ∀ v ∈ valuesIn t, Ascending v := by
    intro v hv
    rcases List.mem_append.1 hv with hv | hv
    · rw [hpay] at hv; exact absurd hv List.not_mem_nil
    · obtain ⟨c, hm, e⟩ := List.mem_filterMap.1 hv
      cases c with
      | stx => cases e
      | fungible => cases e
      | nonFungible a x code info => cases e; exact hasc a v code info hm
  obtain ⟨s, s', bs, q', h1, h2, h3, h4, h5, h6, h7⟩ := sponsored_decides
    (fun t => GoodNames t ∧ Admissible net t) parse hp t o p n k fee nonce mode q ha hv hnew hw hs hx hb hasc'
  refine ⟨s, s', bs, h1, h2, h3, h7.trans ?_, ?_⟩
  · rw [h4, h5]
    have ea := admissible_transfer net { t with auth := .sponsored o (.single q') } pay hpay hb
    have eg := goodNames_readBack { t with auth := .sponsored o (.single q') }
    simp only [] at ea eg ⊢
    rw [ea, eg]
    unfold GoodNames
    simp only [hpay, PayloadNames, Auth.origin, paidFee, Spending.fee, h6]
    constructor
    · rintro ⟨⟨_, q1⟩, q2, q3, q4, q5, q6, q7⟩
      exact ⟨q2, q3, q4, q5, q6, q7, q1⟩
    · rintro ⟨q2, q3, q4, q5, q6, q7, q1⟩
      exact ⟨⟨by rw [q7]; exact fun _ h => absurd h List.not_mem_nil, q1⟩, q2, q3, q4, q5, q6, q7⟩
  · intro c hc hnil
    have hwp := hb.2.2.1
    have hacc := hb.2.2.2
    rw [hpay] at hwp hacc
    have hl := transfer_bytes_length { t with auth := .standard (.single c) } c rfl hnil pay hpay hwp.1 hacc hwp.2
    rw [← hl, h4, h5, hc]
    unfold transactionBytes
    simp only [authBytes, spendingBytes, List.length_append, List.length_cons, List.length_nil, beBytes_length, c.signer.2,
      c.signature.2, q'.signer.2, q'.signature.2]
    omega

/-- **C133** A sponsored contract call: the network is the right one, the fee of the sponsor is at least the number of
bytes, the contract's address is one of the network, and the names and texts are good. -/
theorem C133_call [Secp.Lawful] (parse : Arr 33 → Option Secp.PK) (hp : ∀ k, parse (Secp.serialize k) = some k)
    (net : Chain) (t : Transaction) (o p : Spending) (n : Arr 32) (k : Secp.SK) (fee nonce : UInt64) (mode : C32.Mode)
    (q : SingleSig) (ha : t.auth = .sponsored o p) (hv : t.verifyOrigin = .ok n)
    (hnew : (SingleSig.new (Secp.pub k) fee nonce mode : Outcome TxError SingleSig) = .ok q)
    (hw : WellFormedSpending o) (hs : SmallScript o) (hx : ExactSpending o)
    (hb : AcceptableBody t.postConditions t.payload) (hasc : ∀ v ∈ valuesIn t, Ascending v)
    (call : ContractCall) (hcall : t.payload = .contractCall call) :
    ∃ s s' bs, Signer.newSponsor t (.single q) = .ok s ∧ s.signSponsor k = .ok s' ∧ s'.tx.encode = .ok bs ∧
      (SortingNodeAccepts (fun t => GoodNames t ∧ Admissible net t) parse bs ↔
        net.IsOf t ∧ bs.length ≤ fee.toNat ∧
        (call.address.version = net.singleVersion ∨ call.address.version = net.multiVersion) ∧
        ContractName call.contract ∧ ClarityName call.name ∧ (∀ v ∈ call.args, ValueNames v) ∧
        ∀ c ∈ t.postConditions, ConditionNames c) := by
  obtain ⟨s, s', bs, q', h1, h2, h3, h4, h5, h6, h7⟩ := sponsored_decides
    (fun t => GoodNames t ∧ Admissible net t) parse hp t o p n k fee nonce mode q ha hv hnew hw hs hx hb hasc
  refine ⟨s, s', bs, h1, h2, h3, h7.trans ?_⟩
  have hrb : readBack t.payload = t.payload := by rw [hcall]; rfl
  rw [h4, h5, hrb]
  unfold GoodNames Admissible
  simp only [hcall, PayloadNames, paidFee, Spending.fee, h6, Chain.Owns, List.head?_cons, Option.some.injEq]
  constructor
  · rintro ⟨⟨q1, q2, q3, q4⟩, q5, q6, q7⟩
    exact ⟨q5, q6, q7, q2, q3, q4, q1⟩
  · rintro ⟨q5, q6, q7, q2, q3, q4, q1⟩
    exact ⟨⟨q1, q2, q3, q4⟩, q5, q6, q7⟩

/-- **C133** The whole of it, for an origin of one key: the origin writes a transfer with whatever fee and with whatever
sponsor in place and signs it, another key sponsors and signs it. The node takes it exactly when the sponsor's
fee is enough for the 283 bytes (284 and the length of the contract's name) and the transfer is in order. -/
theorem C133_flow [Secp.Lawful] (parse : Arr 33 → Option Secp.PK) (hp : ∀ k, parse (Secp.serialize k) = some k)
    (net : Chain) (t : Transaction) (p : Spending) (k k' : Secp.SK) (fee nonce fee' nonce' : UInt64) (c q : SingleSig)
    (mode : C32.Mode)
    (hc : (SingleSig.new (Secp.pub k) fee nonce .p2pkh : Outcome TxError SingleSig) = .ok c)
    (hq : (SingleSig.new (Secp.pub k') fee' nonce' mode : Outcome TxError SingleSig) = .ok q)
    (ha : t.auth = .sponsored (.single c) p) (hn : t.postConditions = [])
    (pay : TokenTransfer) (hpay : t.payload = .tokenTransfer pay)
    (hb : WellFormedPayload t.payload) (hto : IsPrincipal pay.address) :
    ∃ t' s s' bs, t.sign k = .ok t' ∧ Signer.newSponsor t' (.single q) = .ok s ∧ s.signSponsor k' = .ok s' ∧
      s'.tx.encode = .ok bs ∧ bs.length = transferSize pay.address + 103 ∧
      (SortingNodeAccepts (fun t => GoodNames t ∧ Admissible net t) parse bs ↔
        net.IsOf t ∧ transferSize pay.address + 103 ≤ fee'.toNat ∧ pay.amount ≠ 0 ∧
        net.Begins (addressText pay.address) ∧
        (∀ own, C32.c32Address (hash160Of (Secp.serialize (Secp.pub k)).1).1 net.singleVersion = .ok own →
          pay.address ≠ .principalStd own) ∧ ValueNames pay.address) := by
  obtain ⟨hm, _, _, hsig, hns⟩ := (single_new_iff (Secp.pub k) fee nonce .p2pkh c).1 hc
  have hsg : c.signer = hash160Of (Secp.serialize (Secp.pub k)).1 := (Option.some.inj hsig).symm
  have hbody : AcceptableBody t.postConditions t.payload :=
    ⟨by rw [hn]; show 0 < _; decide, by rw [hn]; exact fun _ h => absurd h List.not_mem_nil, hb, by rw [hpay]; exact hto⟩
  have hE : EncodableBody t :=
    ⟨by rw [hn]; show 0 < _; decide, by rw [hn]; exact fun _ h => absurd h List.not_mem_nil, wf_encodablePayload _ hb⟩
  obtain ⟨s₀, _, h1, h2, _⟩ := C47_sign_then_verify t (Secp.pub k) fee nonce .p2pkh c k hc (by rw [ha]; rfl) hE
  have hv := h2 rfl
  obtain ⟨_, _, _, e⟩ := (sign_iff _ _ _).1 h1
  obtain ⟨c', hau, hm', hsg'⟩ : ∃ c' : SingleSig, s₀.tx.auth = .sponsored (.single c') p ∧ c'.mode = .p2pkh ∧
      c'.signer = c.signer := by
    rw [e, ha]; refine ⟨{ c with signature := _ }, rfl, ?_, ?_⟩; exacts [hm, rfl]
  have hpc : s₀.tx.postConditions = [] := by rw [e]; exact hn
  have hpl : s₀.tx.payload = .tokenTransfer pay := by rw [e]; exact hpay
  obtain ⟨s, s', bs, g1, g2, g3, g4, g5⟩ := C133_transfer parse hp net s₀.tx (.single c') p _ k' fee' nonce' mode q hau hv hq
    (.inl hm') trivial trivial (by rw [hpc, hpl, ← hpay, ← hn]; exact hbody)
    (by rw [hpc]; exact fun _ _ _ _ h => absurd h List.not_mem_nil) pay hpl
  have hlen := g5 c' rfl hpc
  have hof : net.IsOf s₀.tx ↔ net.IsOf t := by rw [e]; exact Iff.rfl
  refine ⟨s₀.tx, s, s', bs, h1, g1, g2, g3, hlen, g4.trans ?_⟩
  rw [hof, hlen, hpc]
  simp only [signerOf, Spending.mode, hm', hsg', hsg, if_true, true_and]

omit [Hashes] in
/-- **C133** `set_fee` sets the fee that is paid of a transaction without a sponsor. Of a sponsored one it sets a fee that
nobody pays: for the rules of the network it makes no difference. -/
theorem C133_set_fee (net : Chain) (t : Transaction) (fee : UInt64) :
    (t.auth.isSponsored = false → paidFee (t.setFee fee).auth = fee.toNat) ∧
    (t.auth.isSponsored = true → (Admissible net (t.setFee fee) ↔ Admissible net t)) := by
  cases ha : t.auth with
  | standard o =>
    refine ⟨fun _ => ?_, nofun⟩
    simp only [Transaction.setFee, ha, Auth.setFee, paidFee]
    cases o <;> rfl
  | sponsored o p =>
    refine ⟨nofun, fun _ => ?_⟩
    have hlen : (transactionBytes (t.setFee fee)).length = (transactionBytes t).length := by
      unfold transactionBytes Transaction.setFee
      simp only [ha, Auth.setFee, authBytes, List.length_append, List.length_cons, beBytes_length]
      cases o <;> simp [Spending.setFee, spendingBytes]
    have hsp : spenderAddress net (t.setFee fee).auth.origin = spenderAddress net t.auth.origin := by
      simp only [Transaction.setFee, ha, Auth.setFee, Auth.origin]
      cases o <;> rfl
    have hfee : paidFee (t.setFee fee).auth = paidFee t.auth := by
      simp only [Transaction.setFee, ha, Auth.setFee, paidFee]
    unfold Admissible
    rw [hlen, hsp, hfee]
    exact Iff.rfl

end

/-! ## Concrete cases -/

section
open Stacks.Concrete.Ecdsa
attribute [local instance] realSecp Concrete.realHashes
local instance sponsorFeeLawful : Secp.Lawful := realLawful

def exOriginKey : Secp.SK := ⟨7, by decide⟩
def exPayerKey : Secp.SK := ⟨9, by decide⟩

/-- The condition of the origin, with a fee. -/
def exOriginPart (fee : UInt64) : SingleSig := ⟨.p2pkh, fee, 3, hash160Of (Secp.serialize (Secp.pub exOriginKey)).1, noSignature⟩
/-- The condition of the sponsor, with a fee. -/
def exPayerPart (fee : UInt64) : SingleSig := ⟨.p2pkh, fee, 8, hash160Of (Secp.serialize (Secp.pub exPayerKey)).1, noSignature⟩

/-- A payment on the testnet that is to be sponsored. -/
def exToSponsor (a : Str) (amount fee : UInt64) : Transaction :=
  { version := .testnet, chainId := .testnet, auth := .sponsored (.single (exOriginPart fee)) (.single SingleSig.default),
    anchorMode := .any, postConditionMode := .deny, postConditions := [],
    payload := .tokenTransfer ⟨.principalStd a, amount, "hi".toList⟩ }

theorem exOriginPart_new (fee : UInt64) :
    (SingleSig.new (Secp.pub exOriginKey) fee 3 .p2pkh : Outcome TxError SingleSig) = .ok (exOriginPart fee) :=
  (single_new_iff _ _ _ _ _).2 ⟨rfl, rfl, rfl, rfl, rfl⟩

theorem exPayerPart_new (fee : UInt64) :
    (SingleSig.new (Secp.pub exPayerKey) fee 8 .p2pkh : Outcome TxError SingleSig) = .ok (exPayerPart fee) :=
  (single_new_iff _ _ _ _ _).2 ⟨rfl, rfl, rfl, rfl, rfl⟩

/-- 5 microSTX are taken on the testnet if the sponsor pays 283, whether the origin offers nothing or a million; they are
refused if the sponsor pays 282 or nothing, however much the origin offers, on the mainnet, and if the payment
goes to the origin itself. -/
example (parse : Arr 33 → Option Secp.PK) (hp : ∀ k, parse (Secp.serialize k) = some k) :
    ∀ q ∈ [((testnetAddr, (0 : UInt64), (283 : UInt64)), Chain.testnet, true), ((testnetAddr, 1000000, 283), .testnet, true),
      ((testnetAddr, 1000000, 282), .testnet, false), ((testnetAddr, 1000000, 0), .testnet, false),
      ((testnetAddr, 0, 283), .mainnet, false), ((exOwn, 0, 283), .testnet, false)],
    ∃ t' s s' bs, (exToSponsor q.1.1 5 q.1.2.1).sign exOriginKey = .ok t' ∧
      Signer.newSponsor t' (.single (exPayerPart q.1.2.2)) = .ok s ∧ s.signSponsor exPayerKey = .ok s' ∧
      s'.tx.encode = .ok bs ∧ bs.length = 283 ∧
      (SortingNodeAccepts (fun t => GoodNames t ∧ Admissible q.2.1 t) parse bs ↔ q.2.2 = true) := by
  intro q hq
  have hown : CanonicalAddress exOwn := C32.canonical_iff.2 ⟨_, _, exOwn_address⟩
  have hto : CanonicalAddress q.1.1 := by
    simp only [List.mem_cons, List.not_mem_nil, or_false] at hq
    rcases hq with rfl | rfl | rfl | rfl | rfl | rfl
    all_goals first | exact testnetAddr_canonical | exact hown
  obtain ⟨t', s, s', bs, h1, h2, h3, h4, h5, h6⟩ := C133_flow parse hp q.2.1 (exToSponsor q.1.1 5 q.1.2.1)
    (.single SingleSig.default) exOriginKey exPayerKey q.1.2.1 3 q.1.2.2 8 _ _ .p2pkh (exOriginPart_new _) (exPayerPart_new _)
    rfl rfl ⟨.principalStd q.1.1, 5, "hi".toList⟩ rfl
    ⟨hto, by show (Str.bytes "hi".toList).length ≤ 34; decide +kernel⟩ (.inl ⟨_, rfl⟩)
  refine ⟨t', s, s', bs, h1, h2, h3, h4, h5, h6.trans ?_⟩
  have hself : ∀ a : Str, (∀ own, C32.c32Address (hash160Of (Secp.serialize (Secp.pub exOriginKey)).1).1 26 = .ok own →
      CV.principalStd a ≠ .principalStd own) ↔ a ≠ exOwn := by
    intro a
    rw [show C32.c32Address (hash160Of (Secp.serialize (Secp.pub exOriginKey)).1).1 26 = .ok exOwn from exOwn_address]
    constructor
    · rintro h rfl; exact h _ rfl rfl
    · rintro h own e e'
      cases e; cases e'; exact h rfl
  simp only [List.mem_cons, List.not_mem_nil, or_false] at hq
  rcases hq with rfl | rfl | rfl | rfl | rfl | rfl
  · refine iff_of_true ⟨⟨rfl, rfl⟩, ?_, ?_, ?_, (hself _).2 (by decide +kernel), trivial⟩ rfl
    · decide
    · decide
    · show "ST".toList <+: testnetAddr ∨ _
      decide +kernel
  · refine iff_of_true ⟨⟨rfl, rfl⟩, ?_, ?_, ?_, (hself _).2 (by decide +kernel), trivial⟩ rfl
    · decide
    · decide
    · show "ST".toList <+: testnetAddr ∨ _
      decide +kernel
  · exact iff_of_false (fun h => absurd (show 283 ≤ (282 : UInt64).toNat from h.2.1) (by decide)) (by decide)
  · exact iff_of_false (fun h => absurd (show 283 ≤ (0 : UInt64).toNat from h.2.1) (by decide)) (by decide)
  · exact iff_of_false (fun h => absurd (show versionNumber .testnet = 0 from h.1.1) (by decide)) (by decide)
  · exact iff_of_false (fun h => (hself _).1 h.2.2.2.2.1 rfl) (by decide)

/-- The same with a contract call. -/
def exCallToSponsor : Transaction :=
  { exToSponsor [] 0 0 with
    payload := .contractCall ⟨⟨⟨List.replicate 20 1, rfl⟩, 26⟩, "pool".toList, "stack".toList,
      [.tuple [("amount".toList, .uint 1), ("until".toList, .uint 2)]]⟩ }

theorem exCallToSponsor_wf : WellFormedPayload exCallToSponsor.payload :=
  ⟨by show (Str.bytes "pool".toList).length ≤ 128; decide +kernel,
    by show (Str.bytes "stack".toList).length ≤ 128; decide +kernel, by show 1 < _; decide, fun v hv => by
      obtain rfl := List.mem_singleton.1 hv
      exact ⟨by show 2 < _; decide, by decide +kernel, trivial, by decide +kernel, trivial, trivial⟩⟩

/-- C133: a contract call is taken if the sponsor pays a thousand, and refused if the sponsor pays nothing. -/
example (parse : Arr 33 → Option Secp.PK) (hp : ∀ k, parse (Secp.serialize k) = some k) :
    ∀ q ∈ [((1000 : UInt64), true), (0, false)],
    ∃ t' s s' bs, exCallToSponsor.sign exOriginKey = .ok t' ∧ Signer.newSponsor t' (.single (exPayerPart q.1)) = .ok s ∧
      s.signSponsor exPayerKey = .ok s' ∧ s'.tx.encode = .ok bs ∧
      (SortingNodeAccepts (fun t => GoodNames t ∧ Admissible .testnet t) parse bs ↔ q.2 = true) := by
  intro q hq
  have hE : EncodableBody exCallToSponsor :=
    ⟨by show 0 < _; decide, fun _ h => absurd h List.not_mem_nil, wf_encodablePayload _ exCallToSponsor_wf⟩
  obtain ⟨s₀, _, h1, h2, _⟩ := C47_sign_then_verify exCallToSponsor (Secp.pub exOriginKey) 0 3 .p2pkh _ exOriginKey
    (exOriginPart_new 0) rfl hE
  have hv := h2 rfl
  obtain ⟨_, _, _, e⟩ := (sign_iff _ _ _).1 h1
  obtain ⟨c', hau, hm'⟩ : ∃ c' : SingleSig, s₀.tx.auth = .sponsored (.single c') (.single SingleSig.default) ∧
      c'.mode = .p2pkh := by
    rw [e]; exact ⟨{ exOriginPart 0 with signature := _ }, rfl, rfl⟩
  have hpc : s₀.tx.postConditions = [] := by rw [e]; rfl
  have hpl : s₀.tx.payload = exCallToSponsor.payload := by rw [e]
  have hof : Chain.testnet.IsOf s₀.tx := by rw [e]; exact ⟨rfl, rfl⟩
  have hvals : valuesIn s₀.tx = [.tuple [("amount".toList, .uint 1), ("until".toList, .uint 2)]] := by rw [e]; rfl
  obtain ⟨s, s', bs, g1, g2, g3, g4⟩ := C133_call parse hp .testnet s₀.tx (.single c') (.single SingleSig.default) _ exPayerKey q.1 8
    .p2pkh _ hau hv (exPayerPart_new _) (.inl hm') trivial trivial
    (by
      rw [hpc, hpl]
      exact ⟨by show 0 < _; decide, fun _ h => absurd h List.not_mem_nil, exCallToSponsor_wf, trivial⟩)
    (by
      rw [hvals]
      intro v hv
      obtain rfl := List.mem_singleton.1 hv
      exact ⟨by decide +kernel, trivial, trivial, trivial⟩) _ hpl
  refine ⟨s₀.tx, s, s', bs, h1, g1, g2, g3, g4.trans ?_⟩
  rw [hpc]
  simp only [List.mem_cons, List.not_mem_nil, or_false] at hq
  rcases hq with rfl | rfl
  · refine iff_of_true ⟨hof, ?_, .inl rfl, by decide, by decide, fun v hv => ?_, fun _ h => absurd h List.not_mem_nil⟩ rfl
    · obtain ⟨_, _, _, he, _, rfl⟩ := (newSponsor_iff _ _ _).1 g1
      rw [hau] at he
      cases he
      obtain ⟨o'', c'', he, _, _, rfl⟩ := (signSponsor_iff _ _ _).1 g2
      cases he
      obtain ⟨_, rfl⟩ := (transaction_encode_iff _ bs).1 g3
      unfold transactionBytes
      simp only [Signer.withSponsor, hpc, hpl, authBytes, withSignature, single_bytes_length, List.length_append,
        List.length_cons, List.length_nil, beBytes_length]
      have hl : (payloadBytes exCallToSponsor.payload).length < 300 := by decide +kernel
      have hc : (conditionsBytes []).length = 4 := rfl
      have h1000 : (1000 : UInt64).toNat = 1000 := rfl
      omega
    · obtain rfl := List.mem_singleton.1 hv
      exact ⟨by simp, by decide, trivial, by decide, trivial, trivial⟩
  · refine iff_of_false (fun h => ?_) (by decide)
    have h0 : bs.length = 0 := Nat.le_zero.1 (show bs.length ≤ (0 : UInt64).toNat from h.2.1)
    obtain ⟨_, he⟩ := (transaction_encode_iff _ bs).1 g3
    rw [he] at h0
    unfold transactionBytes at h0
    simp only [List.length_append, List.length_cons] at h0
    omega

/-- C133: a fee set on the sponsored payment changes nothing for the network. -/
example : Admissible .testnet ((exToSponsor testnetAddr 5 0).setFee 1000000) ↔ Admissible .testnet (exToSponsor testnetAddr 5 0) :=
  (C133_set_fee .testnet _ _).2 rfl

end

end Stacks.Tx

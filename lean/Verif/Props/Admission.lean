import Verif.Spec.Admission
import Verif.Props.Names

/-! # C117: transactions that the network takes -/

namespace Stacks.Tx
open Stacks.Spec Stacks.Clarity

section
variable [Secp] [Hashes]

omit [Hashes] in
theorem isOf_iff (net : Chain) (t : Transaction) (n : Network) (hv : t.version = n.version) (hc : t.chainId = n.chainId) :
    net.IsOf t ↔ networkChain n = some net := by
  unfold Chain.IsOf
  rw [hv, hc]
  cases n with
  | mainnet => cases net <;> simp [Network.version, Network.chainId, versionNumber, chainNumber, networkChain]
  | testnet => cases net <;> simp [Network.version, Network.chainId, versionNumber, chainNumber, networkChain]
  | mocknet => cases net <;> simp [Network.version, Network.chainId, versionNumber, chainNumber, networkChain]
  | custom v c u =>
    cases net <;> cases v <;> cases c <;>
      simp [Network.version, Network.chainId, versionNumber, chainNumber, networkChain]

omit [Secp] in
theorem addrBytes_length {a : Str} (h : CanonicalAddress a) : (addrBytes a).length = 21 := by
  obtain ⟨x, v, e⟩ := C32.canonical_iff.1 h
  rw [addrBytes_canonical e, List.length_cons, x.2]

theorem transfer_bytes_length (t : Transaction) (c : SingleSig) (hc : t.auth = .standard (.single c))
    (hn : t.postConditions = []) (p : TokenTransfer) (hp : t.payload = .tokenTransfer p) (hw : WellFormed p.address)
    (ha : IsPrincipal p.address) (hm : p.memo.bytes.length ≤ 34) : (transactionBytes t).length = transferSize p.address := by
  have hmemo : (memoField p.memo).length = 34 := by simp [memoField]; omega
  unfold transactionBytes
  rw [hc, hn, hp]
  simp only [authBytes, spendingBytes, conditionsBytes, payloadBytes, tokenTransferBytes, List.length_append,
    List.length_cons, List.length_nil, List.map_nil, List.flatten_nil, hmemo, beBytes_length, c.signer.2, c.signature.2]
  rcases ha with ⟨a, e⟩ | ⟨a, n, e⟩
  · rw [e] at hw ⊢
    simp only [sip005, transferSize, List.length_cons, addrBytes_length (show CanonicalAddress a from hw)]
  · rw [e] at hw ⊢
    simp only [sip005, transferSize, List.length_cons, List.length_append, sized8, addrBytes_length hw.1]
    omega

omit [Secp] in
theorem owns_iff (net : Chain) {a : Str} (h : CanonicalAddress a) : net.Owns (addrBytes a) ↔ net.Begins a := by
  obtain ⟨x, v, e⟩ := C32.canonical_iff.1 h
  obtain ⟨letter, r, rfl, hm, _⟩ := C32.C10_c32_address_shape _ _ _ e
  rw [addrBytes_canonical e]
  simp only [List.mem_cons, Prod.mk.injEq, List.not_mem_nil, or_false] at hm
  rcases hm with ⟨rfl, rfl⟩ | ⟨rfl, rfl⟩ | ⟨rfl, rfl⟩ | ⟨rfl, rfl⟩ <;> cases net <;>
    simp [Chain.Owns, Chain.Begins, Chain.singleVersion, Chain.multiVersion]

/-- **C117** A transfer is built, signed, verified and encoded as long as it can be written. A node of a network takes
it exactly when the builder's network is that one, the fee is at least 180 microSTX (181 and the length of the name
if the recipient is a contract), the amount is not zero, the recipient's address is one of the network and not
the sender's own, there are no post-conditions and the name of the contract, if any, is good. -/
theorem C117_transfer [Secp.Lawful] (parse : Arr 33 → Option Secp.PK) (hp : ∀ k, parse (Secp.serialize k) = some k)
    (net : Chain) (b : STXTokenTransfer) (hs : b.sponsored = false)
    (hb : AcceptableBody b.postConditions (.tokenTransfer ⟨b.recipient, b.amount, b.memo⟩)) :
    ∃ t n bs, (b.transaction >>= fun t => t.sign b.sender) = .ok t ∧ t.verifyOrigin = .ok n ∧ t.encode = .ok bs ∧
      (SortingNodeAccepts (fun t => GoodNames t ∧ Admissible net t) parse bs ↔
        networkChain b.network = some net ∧ transferSize b.recipient ≤ b.fee.toNat ∧ b.amount ≠ 0 ∧
        net.Begins (addressText b.recipient) ∧
        (∀ own, C32.c32Address (hash160Of (Secp.serialize (Secp.pub b.sender)).1).1 net.singleVersion = .ok own →
          b.recipient ≠ .principalStd own) ∧
        b.postConditions = [] ∧ ValueNames b.recipient) := by
  obtain ⟨t, c, g1, gv, gc, g2, g3, gs, gf, _, _, _, _, g4, g5⟩ := C56_token_transfer TxError b hs
  obtain ⟨t', bs, h1, h2, h3⟩ := C80_transfer_accepted parse hp b hs hb
  have h1' : t.sign b.sender = .ok t' := by rw [g1] at h1; exact h1
  obtain ⟨_, _, _, e⟩ := (sign_iff _ _ _).1 h1'
  have hpc : t'.postConditions = b.postConditions := by rw [e]; exact g4
  have hpl : t'.payload = .tokenTransfer ⟨b.recipient, b.amount, b.memo⟩ := by rw [e]; exact g5
  have hver : t'.version = b.network.version := by rw [e]; exact gv
  have hcid : t'.chainId = b.network.chainId := by rw [e]; exact gc
  have hau : ∃ c' : SingleSig, c'.mode = .p2pkh ∧ c'.signer = c.signer ∧ c'.fee = c.fee ∧
      t'.auth = .standard (.single c') := by
    rw [e, g2]; refine ⟨{ c with signature := _ }, ?_, ?_, ?_, rfl⟩; exacts [g3, rfl, rfl]
  obtain ⟨c', hm, hsg, hfee, hau⟩ := hau
  have hw : WellFormedTransaction t' := acceptable_wf (by rw [hau]; exact .inl hm) (by rw [hpc, hpl]; exact hb)
  obtain ⟨_, _, ⟨⟨n, hv⟩, _⟩, _⟩ := (C80_accepts_iff parse hp t' hw (by rw [hau]; exact trivial) bs h2).1 h3
  refine ⟨t', n, bs, h1, hv, h2, ?_⟩
  by_cases hnil : b.postConditions = []
  · obtain ⟨⟨hwa, hmemo⟩, hacc⟩ := hb.2.2
    replace hacc : IsPrincipal b.recipient := hacc
    have hpad : (paddedMemo b.memo).bytes.length ≤ 34 := by
      rw [paddedMemo_bytes, memoField_length b.memo hmemo]
    have hcan : CanonicalAddress (addressText b.recipient) := by
      have hwa' : WellFormed b.recipient := hwa
      rcases hacc with ⟨a, ea⟩ | ⟨a, m, ea⟩
      · rw [ea] at hwa' ⊢; exact hwa'
      · rw [ea] at hwa' ⊢; exact hwa'.1
    have hpa : principalAddress b.recipient = addrBytes (addressText b.recipient) := by
      rcases hacc with ⟨a, ea⟩ | ⟨a, m, ea⟩ <;> rw [ea] <;> rfl
    rw [C112_ascending _ parse hp t' hw ?_ bs h2, goodNames_readBack, and_iff_left h3]
    · have hlen := transfer_bytes_length { t' with payload := readBack t'.payload } c' hau (by rw [hpc]; exact hnil)
        ⟨b.recipient, b.amount, paddedMemo b.memo⟩ (by rw [hpl]; rfl) hwa hacc hpad
      unfold Admissible
      rw [isOf_iff net { t' with payload := readBack t'.payload } b.network hver hcid, hlen]
      unfold GoodNames
      rw [hpc, hpl, hau]
      simp only [readBack, PayloadNames, Auth.origin, hnil, paidFee, Spending.fee, hfee, gf, hpa, owns_iff net hcan,
        spenderAddress, Spending.mode, hm, signerOf, hsg, gs, if_true]
      have hself : (∀ a, b.recipient = .principalStd a → addrBytes a ≠ net.singleVersion ::
            (hash160Of (Secp.serialize (Secp.pub b.sender)).1).1) ↔
          ∀ own, C32.c32Address (hash160Of (Secp.serialize (Secp.pub b.sender)).1).1 net.singleVersion = .ok own →
            b.recipient ≠ .principalStd own := by
        constructor
        · intro h own ho er
          exact h own er (addrBytes_canonical ho)
        · intro h a ea hab
          have hca : CanonicalAddress a := by rw [ea] at hcan; exact hcan
          obtain ⟨x, v, ex⟩ := C32.canonical_iff.1 hca
          rw [addrBytes_canonical ex] at hab
          obtain ⟨rfl, hx⟩ := List.cons.inj hab
          rw [hx] at ex
          exact h a ex ea
      have hamt : 1 ≤ b.amount.toNat ↔ b.amount ≠ 0 := by
        rw [Ne, ← UInt64.toNat_inj]
        show _ ↔ ¬ b.amount.toNat = 0
        omega
      rw [hself, hamt]
      constructor
      · rintro ⟨⟨_, q1⟩, q2, q3, q4, q5, q6, _⟩
        exact ⟨q2, q3, q4, q5, q6, trivial, q1⟩
      · rintro ⟨q2, q3, q4, q5, q6, _, q1⟩
        exact ⟨⟨fun _ h => absurd h List.not_mem_nil, q1⟩, q2, q3, q4, q5, q6, trivial⟩
    · intro w hv
      rcases List.mem_append.1 hv with hv | hv
      · rw [hpl] at hv; exact absurd hv List.not_mem_nil
      · rw [hpc, hnil] at hv; exact absurd hv List.not_mem_nil
  · constructor
    · rintro ⟨u, r1, ⟨_, _, _, r2⟩, _⟩
      obtain ⟨bs', he', hr⟩ := C43_reader_recovers parse hp t' hw []
      obtain rfl := Outcome.ok.inj (h2.symm.trans he')
      rw [List.append_nil, r1] at hr
      have hu := (Prod.mk.inj (Option.some.inj hr)).1
      rw [hu, hpl] at r2
      exact absurd (hpc ▸ r2.2.2.2) hnil
    · rintro ⟨_, _, _, _, _, h, _⟩
      exact absurd h hnil

/-- **C117** So with the default fee, which is zero, every transfer is refused. -/
theorem C117_default_fee_refused [Secp.Lawful] (parse : Arr 33 → Option Secp.PK)
    (hp : ∀ k, parse (Secp.serialize k) = some k) (net : Chain) (recipient : CV) (amount : UInt64) (sender : Secp.SK)
    (network : Network) (o : TransferOptions) (hf : o.fee = none) (hs : o.sponsored ≠ some true)
    (hb : AcceptableBody (o.postConditions.getD []) (.tokenTransfer ⟨recipient, amount, o.memo.getD []⟩)) :
    ∃ t n bs, ((STXTokenTransfer.build recipient amount sender network o).transaction >>= fun t => t.sign sender) =
        .ok t ∧ t.verifyOrigin = .ok n ∧ t.encode = .ok bs ∧
      ¬ SortingNodeAccepts (fun t => GoodNames t ∧ Admissible net t) parse bs := by
  obtain ⟨t, n, bs, h1, h2, h3, h4⟩ := C117_transfer parse hp net
    (STXTokenTransfer.build recipient amount sender network o)
    (by
      show o.sponsored.getD false = false
      match h : o.sponsored with
      | none => rfl
      | some false => rfl
      | some true => exact absurd h hs) hb
  refine ⟨t, n, bs, h1, h2, h3, fun h => ?_⟩
  have h5 := (h4.1 h).2.1
  have h6 : (STXTokenTransfer.build recipient amount sender network o).fee = 0 := by
    show o.fee.getD 0 = 0
    rw [hf]; rfl
  rw [h6] at h5
  have h7 : 180 ≤ transferSize (STXTokenTransfer.build recipient amount sender network o).recipient := by
    unfold transferSize
    split <;> omega
  have h8 : (0 : UInt64).toNat = 0 := rfl
  omega

/-- **C117** A contract call: the network is the right one, the fee is at least the number of bytes, the contract's
address is one of the network, and the names and texts are good. -/
theorem C117_call [Secp.Lawful] (parse : Arr 33 → Option Secp.PK) (hp : ∀ k, parse (Secp.serialize k) = some k)
    (net : Chain) (b : STXContractCall) (t : Transaction) (ht : b.transaction = .ok t)
    (hlen : b.contract.bytes.length ≤ 128 ∧ b.fnName.bytes.length ≤ 128)
    (hargs : b.fnArgs.length < 2 ^ 32 ∧ ∀ v ∈ b.fnArgs, WellFormed v ∧ Ascending v)
    (hconds : b.postConditions.length < 2 ^ 32 ∧ ∀ c ∈ b.postConditions, WellFormedCondition c ∧ CodeFits c ∧
      ∀ a v code info, c = .nonFungible a v code info → Ascending v) :
    ∃ t' n bs hash v, t.sign b.sender = .ok t' ∧ t'.verifyOrigin = .ok n ∧ t'.encode = .ok bs ∧
      C32.c32AddressDecode b.address = .ok (hash, v) ∧
      (SortingNodeAccepts (fun t => GoodNames t ∧ Admissible net t) parse bs ↔
        networkChain b.network = some net ∧ bs.length ≤ b.fee.toNat ∧ (v = net.singleVersion ∨ v = net.multiVersion) ∧
        ContractName b.contract ∧ ClarityName b.fnName ∧ (∀ v ∈ b.fnArgs, ValueNames v) ∧
        ∀ c ∈ b.postConditions, ConditionNames c) := by
  obtain ⟨hs, bytes, v, hd, hl⟩ := (C57_ok_iff b).1 ⟨t, ht⟩
  obtain ⟨t2, c, g1, gv, gc, g2, g3, _, gf, _, _, _, _, g4, g5⟩ := (C57_contract_call b).2.2.2 bytes v hl hd hs
  rw [ht] at g1
  cases g1
  have hb : AcceptableBody t.postConditions t.payload := by
    rw [g4, g5]
    exact ⟨hconds.1, fun c hc => ⟨(hconds.2 c hc).1, (hconds.2 c hc).2.1⟩,
      ⟨hlen.1, hlen.2, hargs.1, fun v hv => (hargs.2 v hv).1⟩, trivial⟩
  obtain ⟨t', bs, h1, h2, h3⟩ := C80_call_accepted parse hp b t ht hb
  obtain ⟨_, _, _, e⟩ := (sign_iff _ _ _).1 h1
  have hpc : t'.postConditions = b.postConditions := by rw [e]; exact g4
  have hpl : t'.payload = .contractCall ⟨⟨⟨bytes, hl⟩, v⟩, b.contract, b.fnName, b.fnArgs⟩ := by rw [e]; exact g5
  have hver : t'.version = b.network.version := by rw [e]; exact gv
  have hcid : t'.chainId = b.network.chainId := by rw [e]; exact gc
  have hau : ∃ c' : SingleSig, c'.mode = .p2pkh ∧ c'.fee = c.fee ∧ t'.auth = .standard (.single c') := by
    rw [e, g2]; refine ⟨{ c with signature := _ }, ?_, ?_, rfl⟩; exacts [g3, rfl]
  obtain ⟨c', hm, hfee, hau⟩ := hau
  have hw : WellFormedTransaction t' := acceptable_wf (by rw [hau]; exact .inl hm) (by rw [hpc, hpl, ← g4, ← g5]; exact hb)
  obtain ⟨_, _, ⟨⟨n, hv⟩, _⟩, _⟩ := (C80_accepts_iff parse hp t' hw (by rw [hau]; exact trivial) bs h2).1 h3
  refine ⟨t', n, bs, bytes, v, h1, hv, h2, hd, ?_⟩
  obtain ⟨_, hbs⟩ := (transaction_encode_iff t' bs).1 h2
  rw [C112_ascending _ parse hp t' hw ?_ bs h2, goodNames_readBack, and_iff_left h3]
  · have hrb : readBack t'.payload = t'.payload := by rw [hpl]; rfl
    unfold Admissible
    rw [hrb, isOf_iff net t' b.network hver hcid, ← hbs]
    unfold GoodNames
    rw [hpc, hpl, hau]
    simp only [PayloadNames, paidFee, Spending.fee, hfee, gf, Chain.Owns, List.head?_cons, Option.some.injEq]
    constructor
    · rintro ⟨⟨q1, q2, q3, q4⟩, q5, q6, q7⟩
      exact ⟨q5, q6, q7, q2, q3, q4, q1⟩
    · rintro ⟨q5, q6, q7, q2, q3, q4, q1⟩
      exact ⟨⟨q1, q2, q3, q4⟩, q5, q6, q7⟩
  · intro w hv
    rcases List.mem_append.1 hv with hv | hv
    · rw [hpl] at hv; exact (hargs.2 w hv).2
    · obtain ⟨c, hm, e⟩ := List.mem_filterMap.1 hv
      rw [hpc] at hm
      cases c with
      | stx => cases e
      | fungible => cases e
      | nonFungible a x code info => cases e; exact (hconds.2 _ hm).2.2 a w code info rfl

end

/-! ## Concrete cases -/

section
open Stacks.Concrete.Ecdsa
attribute [local instance] realSecp Concrete.realHashes
local instance admissionLawful : Secp.Lawful := realLawful

/-- A payment on the testnet. -/
def exPayment (a : Str) (amount fee : UInt64) (conditions : List Condition) : STXTokenTransfer :=
  { recipient := .principalStd a, amount := amount, sender := ⟨7, by decide⟩, network := .testnet, fee := fee,
    postConditions := conditions }

/-- The address of the key 7 on the testnet. -/
def exOwn : Str := "ST1EYVYZSX9CSVN73S9N81CSKRHSFT2SZD70Q08P4".toList

theorem exOwn_address : C32.c32Address (hash160Of (Secp.serialize (Secp.pub (⟨7, by decide⟩ : Secp.SK))).1).1 26 = .ok exOwn := by
  decide +kernel

/-- 5 microSTX for a fee of 180 are accepted on the testnet; on the mainnet, for a fee of 179, of nothing, to
oneself, to an address of the mainnet, or with a post-condition they are refused, although each is signed, verified
and encoded. -/
example (parse : Arr 33 → Option Secp.PK) (hp : ∀ k, parse (Secp.serialize k) = some k) :
    ∀ q ∈ [((testnetAddr, 5, 180, false), Chain.testnet, true), ((testnetAddr, 5, 180, false), .mainnet, false),
      ((testnetAddr, 5, 179, false), .testnet, false), ((testnetAddr, 0, 180, false), .testnet, false),
      ((exOwn, 5, 180, false), .testnet, false), ((exAddr, 5, 180, false), .testnet, false),
      ((testnetAddr, 5, 1000, true), .testnet, false)],
    ∃ t n bs, ((exPayment q.1.1 q.1.2.1 q.1.2.2.1 (if q.1.2.2.2 then [.stx (.principalStd exOwn) 5 .eq] else [])).transaction
        >>= fun t => t.sign ⟨7, by decide⟩) = .ok t ∧ t.verifyOrigin = .ok n ∧ t.encode = .ok bs ∧
      (SortingNodeAccepts (fun t => GoodNames t ∧ Admissible q.2.1 t) parse bs ↔ q.2.2 = true) := by
  intro q hq
  have hown : CanonicalAddress exOwn := C32.canonical_iff.2 ⟨_, _, exOwn_address⟩
  have hto : CanonicalAddress q.1.1 := by
    simp only [List.mem_cons, List.not_mem_nil, or_false] at hq
    rcases hq with rfl | rfl | rfl | rfl | rfl | rfl | rfl
    all_goals first | exact testnetAddr_canonical | exact hown | exact exAddr_canonical
  obtain ⟨t, n, bs, h1, h2, h3, h4⟩ := C117_transfer parse hp q.2.1
    (exPayment q.1.1 q.1.2.1 q.1.2.2.1 (if q.1.2.2.2 then [.stx (.principalStd exOwn) 5 .eq] else [])) rfl
    ⟨by show (if q.1.2.2.2 then _ else _ : List Condition).length < 2 ^ 32; split <;> decide, fun c hc => by
        replace hc : c ∈ (if q.1.2.2.2 then [Condition.stx (.principalStd exOwn) 5 .eq] else []) := hc
        split at hc
        · cases List.mem_singleton.1 hc
          exact ⟨⟨.inl ⟨_, rfl⟩, hown⟩, rfl⟩
        · exact absurd hc List.not_mem_nil, ⟨hto, by show 0 ≤ 34; decide⟩, .inl ⟨_, rfl⟩⟩
  refine ⟨t, n, bs, h1, h2, h3, h4.trans ?_⟩
  have hself : ∀ a : Str, (∀ own, C32.c32Address (hash160Of (Secp.serialize (Secp.pub (⟨7, by decide⟩ : Secp.SK))).1).1 26 = .ok own →
      CV.principalStd a ≠ .principalStd own) ↔ a ≠ exOwn := by
    intro a
    rw [exOwn_address]
    constructor
    · rintro h rfl; exact h _ rfl rfl
    · rintro h own e e'
      cases e; cases e'; exact h rfl
  simp only [List.mem_cons, List.not_mem_nil, or_false] at hq
  rcases hq with rfl | rfl | rfl | rfl | rfl | rfl | rfl
  · refine iff_of_true ⟨rfl, ?_, ?_, ?_, (hself _).2 (by decide +kernel), rfl, trivial⟩ rfl
    · decide
    · decide
    · show "ST".toList <+: testnetAddr ∨ _
      decide +kernel
  · exact iff_of_false (fun h => absurd h.1 (by decide)) (by decide)
  · exact iff_of_false (fun h => absurd (show 180 ≤ (179 : UInt64).toNat from h.2.1) (by decide)) (by decide)
  · exact iff_of_false (fun h => h.2.2.1 rfl) (by decide)
  · exact iff_of_false (fun h => (hself _).1 h.2.2.2.2.1 rfl) (by decide)
  · exact iff_of_false (fun h => absurd (show Chain.testnet.Begins exAddr from h.2.2.2.1) (by
      show ¬ ("ST".toList <+: exAddr ∨ "SN".toList <+: exAddr)
      decide +kernel)) (by decide)
  · exact iff_of_false (fun h => absurd h.2.2.2.2.2.1 (by show ¬ ([_] : List Condition) = []; simp)) (by decide)

/-- C117: a payment with all options left out. -/
example (parse : Arr 33 → Option Secp.PK) (hp : ∀ k, parse (Secp.serialize k) = some k) :
    ∃ t n bs, ((STXTokenTransfer.build (.principalStd testnetAddr) 5 (⟨7, by decide⟩ : Secp.SK) .testnet {}).transaction
        >>= fun t => t.sign (⟨7, by decide⟩ : Secp.SK)) = .ok t ∧ t.verifyOrigin = .ok n ∧ t.encode = .ok bs ∧
      ¬ SortingNodeAccepts (fun t => GoodNames t ∧ Admissible .testnet t) parse bs :=
  C117_default_fee_refused parse hp .testnet _ 5 (⟨7, by decide⟩ : Secp.SK) .testnet {} rfl nofun
    ⟨by show 0 < _; decide, fun _ h => absurd h List.not_mem_nil, ⟨testnetAddr_canonical, by show 0 ≤ 34; decide⟩, .inl ⟨_, rfl⟩⟩

/-- C117: the call of `stack` with a tuple has 204 bytes. On the mainnet it is accepted for a fee of 204 and refused for
one of 203; on the testnet it is refused. -/
example (parse : Arr 33 → Option Secp.PK) (hp : ∀ k, parse (Secp.serialize k) = some k) :
    ∀ q ∈ [((204 : UInt64), Chain.mainnet, true), (203, .mainnet, false), (1000, .testnet, false)],
    ∃ t t' bs, ({ exTupleBuilder with fee := q.1 } : STXContractCall).transaction = .ok t ∧ t.sign ⟨7, by decide⟩ = .ok t' ∧
      t'.encode = .ok bs ∧ (SortingNodeAccepts (fun t => GoodNames t ∧ Admissible q.2.1 t) parse bs ↔ q.2.2 = true) := by
  intro q hq
  obtain ⟨t, ht⟩ : ∃ t, ({ exTupleBuilder with fee := q.1 } : STXContractCall).transaction = .ok t :=
    (C57_ok_iff _).2 ⟨rfl, [0xa4, 0x6f, 0xf8, 0x88, 0x86, 0xc2, 0xef, 0x97, 0x62, 0xd9, 0x70, 0xb4, 0xd2, 0xc6, 0x36,
      0x78, 0x83, 0x5b, 0xd3, 0x9d], 22, (by
        show C32.c32AddressDecode "SP2J6ZY48GV1EZ5V2V5RB9MP66SW86PYKKNRV9EJ7".toList = _
        decide +kernel), rfl⟩
  obtain ⟨t', n, bs, hash, v, h1, _, h3, h4, h5⟩ := C117_call parse hp q.2.1 { exTupleBuilder with fee := q.1 } t ht
    ⟨by show (Str.bytes "pool".toList).length ≤ 128; decide +kernel,
      by show (Str.bytes "stack".toList).length ≤ 128; decide +kernel⟩
    ⟨by show 1 < _; decide, fun v hv => by
      obtain rfl := List.mem_singleton.1 hv
      exact ⟨⟨by show 2 < _; decide, by decide +kernel, trivial, by decide +kernel, trivial, trivial⟩,
        ⟨by decide +kernel, trivial, trivial, trivial⟩⟩⟩
    ⟨by show 0 < _; decide, fun _ h => absurd h List.not_mem_nil⟩
  obtain ⟨t2, c, g1, _, _, g2, _, _, _, _, _, _, _, g4, g5⟩ := (C57_contract_call { exTupleBuilder with fee := q.1 }).2.2.2
    [0xa4, 0x6f, 0xf8, 0x88, 0x86, 0xc2, 0xef, 0x97, 0x62, 0xd9, 0x70, 0xb4, 0xd2, 0xc6, 0x36, 0x78, 0x83, 0x5b, 0xd3, 0x9d]
    22 rfl (by
      show C32.c32AddressDecode "SP2J6ZY48GV1EZ5V2V5RB9MP66SW86PYKKNRV9EJ7".toList = _
      decide +kernel) rfl
  rw [ht] at g1
  cases g1
  have hv : v = 22 := by
    have : C32.c32AddressDecode "SP2J6ZY48GV1EZ5V2V5RB9MP66SW86PYKKNRV9EJ7".toList = .ok (hash, v) := h4
    have h22 : C32.c32AddressDecode "SP2J6ZY48GV1EZ5V2V5RB9MP66SW86PYKKNRV9EJ7".toList =
      .ok ([0xa4, 0x6f, 0xf8, 0x88, 0x86, 0xc2, 0xef, 0x97, 0x62, 0xd9, 0x70, 0xb4, 0xd2, 0xc6, 0x36, 0x78, 0x83, 0x5b, 0xd3,
        0x9d], 22) := by decide +kernel
    rw [h22] at this
    cases this; rfl
  have hl : bs.length = 204 := by
    obtain ⟨_, _, _, e⟩ := (sign_iff _ _ _).1 h1
    obtain ⟨_, rfl⟩ := (transaction_encode_iff t' bs).1 h3
    rw [e, transactionBytes]
    simp only [g2, g4, g5, List.length_append, beBytes_length]
    have hauth : ∀ (c : SingleSig), (authBytes (.standard (.single c))).length = 104 := fun c => by
      simp [authBytes, spendingBytes, c.signer.2, c.signature.2]
    erw [hauth]
    show 1 + 4 + 104 + 2 + (conditionsBytes []).length + (payloadBytes (.contractCall ⟨⟨⟨[0xa4, 0x6f, 0xf8, 0x88, 0x86,
      0xc2, 0xef, 0x97, 0x62, 0xd9, 0x70, 0xb4, 0xd2, 0xc6, 0x36, 0x78, 0x83, 0x5b, 0xd3, 0x9d], _⟩, 22⟩, "pool".toList,
      "stack".toList, [.tuple [("amount".toList, .uint 1), ("until".toList, .uint 2)]]⟩)).length = _
    decide +kernel
  refine ⟨t, t', bs, ht, h1, h3, h5.trans ?_⟩
  rw [hl, hv]
  have hnames : ContractName "pool".toList ∧ ClarityName "stack".toList ∧
      (∀ v ∈ exTupleBuilder.fnArgs, ValueNames v) ∧ ∀ c ∈ exTupleBuilder.postConditions, ConditionNames c := by
    refine ⟨by decide, by decide, fun v hv => ?_, fun _ h => absurd h List.not_mem_nil⟩
    obtain rfl := List.mem_singleton.1 hv
    exact ⟨by simp, by decide, trivial, by decide, trivial, trivial⟩
  simp only [List.mem_cons, List.not_mem_nil, or_false] at hq
  rcases hq with rfl | rfl | rfl
  · exact iff_of_true ⟨rfl, by decide, .inl rfl, hnames⟩ rfl
  · exact iff_of_false (fun h => absurd (show 204 ≤ (203 : UInt64).toNat from h.2.1) (by decide)) (by decide)
  · exact iff_of_false (fun h => absurd h.1 (by decide)) (by decide)

end

end Stacks.Tx

import Verif.Props.Admission
import Verif.Props.Types
import Verif.Props.TransactionErrors
import Verif.Props.Verify

/-! # C122: mistakes that signing reports, and mistakes that it does not -/

namespace Stacks.Tx
open Stacks.Spec Stacks.Clarity

section
variable [Secp] [Hashes]

omit [Secp] [Hashes] in
theorem begins_one {c d : Chain} {a : Str} (hc : c.Begins a) (hd : d.Begins a) : c = d := by
  have h : ∀ s : Str, ("SP".toList <+: s ∨ "SM".toList <+: s) → ("ST".toList <+: s ∨ "SN".toList <+: s) → False := by
    rintro s (⟨r, rfl⟩ | ⟨r, rfl⟩) (⟨q, e⟩ | ⟨q, e⟩) <;>
      simp at e
  cases c <;> cases d
  · rfl
  · exact (h a hc hd).elim
  · exact (h a hd hc).elim
  · rfl

omit [Secp] [Hashes] in
theorem versions_differ {c d : Chain} {v : UInt8} (hc : v = c.singleVersion ∨ v = c.multiVersion)
    (hd : v = d.singleVersion ∨ v = d.multiVersion) : c = d := by
  cases c <;> cases d <;> first
    | rfl
    | (rcases hc with rfl | rfl <;> rcases hd with h | h <;> exact absurd h (by decide))

/-- **C122** A transfer whose recipient has an address of another network than the builder's is built, signed, verified
and encoded, and no node of any network takes it, whatever the fee and the amount. -/
theorem C122_transfer_other_network [Secp.Lawful] (parse : Arr 33 → Option Secp.PK)
    (hp : ∀ k, parse (Secp.serialize k) = some k) (b : STXTokenTransfer) (hs : b.sponsored = false)
    (hb : AcceptableBody b.postConditions (.tokenTransfer ⟨b.recipient, b.amount, b.memo⟩))
    (own other : Chain) (hne : own ≠ other) (hown : networkChain b.network = some own)
    (hother : other.Begins (addressText b.recipient)) :
    ∃ t n bs, (b.transaction >>= fun t => t.sign b.sender) = .ok t ∧ t.verifyOrigin = .ok n ∧ t.encode = .ok bs ∧
      ∀ net, ¬ SortingNodeAccepts (fun t => GoodNames t ∧ Admissible net t) parse bs := by
  obtain ⟨t, n, bs, h1, h2, h3, _⟩ := C117_transfer parse hp own b hs hb
  refine ⟨t, n, bs, h1, h2, h3, fun net h => ?_⟩
  obtain ⟨t', n', bs', g1, g2, g3, g4⟩ := C117_transfer parse hp net b hs hb
  obtain rfl := Outcome.ok.inj (h1.symm.trans g1)
  obtain rfl := Outcome.ok.inj (h3.symm.trans g3)
  obtain ⟨e, _, _, ha, _⟩ := g4.1 h
  obtain rfl := Option.some.inj (hown.symm.trans e)
  exact hne (begins_one ha hother)

/-- **C122** The same for a call of a contract at an address of another network. -/
theorem C122_call_other_network [Secp.Lawful] (parse : Arr 33 → Option Secp.PK)
    (hp : ∀ k, parse (Secp.serialize k) = some k) (b : STXContractCall) (t : Transaction) (ht : b.transaction = .ok t)
    (hlen : b.contract.bytes.length ≤ 128 ∧ b.fnName.bytes.length ≤ 128)
    (hargs : b.fnArgs.length < 2 ^ 32 ∧ ∀ v ∈ b.fnArgs, WellFormed v ∧ Ascending v)
    (hconds : b.postConditions.length < 2 ^ 32 ∧ ∀ c ∈ b.postConditions, WellFormedCondition c ∧ CodeFits c ∧
      ∀ a v code info, c = .nonFungible a v code info → Ascending v)
    (own other : Chain) (hne : own ≠ other) (hown : networkChain b.network = some own)
    (hash : Bytes) (v : UInt8) (hd : C32.c32AddressDecode b.address = .ok (hash, v))
    (hother : v = other.singleVersion ∨ v = other.multiVersion) :
    ∃ t' n bs, t.sign b.sender = .ok t' ∧ t'.verifyOrigin = .ok n ∧ t'.encode = .ok bs ∧
      ∀ net, ¬ SortingNodeAccepts (fun t => GoodNames t ∧ Admissible net t) parse bs := by
  obtain ⟨t', n, bs, _, _, h1, h2, h3, _⟩ := C117_call parse hp own b t ht hlen hargs hconds
  refine ⟨t', n, bs, h1, h2, h3, fun net h => ?_⟩
  obtain ⟨t'', n', bs', hash', v', g1, _, g3, gd, g4⟩ := C117_call parse hp net b t ht hlen hargs hconds
  obtain rfl := Outcome.ok.inj (h1.symm.trans g1)
  obtain rfl := Outcome.ok.inj (h3.symm.trans g3)
  obtain ⟨e, _, hv, _⟩ := g4.1 h
  obtain rfl := Option.some.inj (hown.symm.trans e)
  have e2 := Outcome.ok.inj (hd.symm.trans gd)
  obtain rfl : v = v' := congrArg Prod.snd e2
  exact hne (versions_differ hv hother)

/-- **C122** A call with the default fee, which is zero, is built, signed, verified and encoded, and no node takes it. -/
theorem C122_call_default_fee [Secp.Lawful] (parse : Arr 33 → Option Secp.PK)
    (hp : ∀ k, parse (Secp.serialize k) = some k) (address contract fnName : Str) (args : List CV) (sender : Secp.SK)
    (network : Network) (o : CallOptions) (hf : o.fee = none) (t : Transaction)
    (ht : (STXContractCall.build address contract fnName args sender network o).transaction = .ok t)
    (hlen : contract.bytes.length ≤ 128 ∧ fnName.bytes.length ≤ 128)
    (hargs : args.length < 2 ^ 32 ∧ ∀ v ∈ args, WellFormed v ∧ Ascending v)
    (hconds : (o.postConditions.getD []).length < 2 ^ 32 ∧ ∀ c ∈ o.postConditions.getD [], WellFormedCondition c ∧
      CodeFits c ∧ ∀ a v code info, c = .nonFungible a v code info → Ascending v) :
    ∃ t' n bs, t.sign sender = .ok t' ∧ t'.verifyOrigin = .ok n ∧ t'.encode = .ok bs ∧
      ∀ net, ¬ SortingNodeAccepts (fun t => GoodNames t ∧ Admissible net t) parse bs := by
  obtain ⟨t', n, bs, _, _, h1, h2, h3, _⟩ := C117_call parse hp .mainnet _ t ht hlen hargs hconds
  refine ⟨t', n, bs, h1, h2, h3, fun net h => ?_⟩
  obtain ⟨t'', n', bs', hash', v', g1, _, g3, gd, g4⟩ := C117_call parse hp net _ t ht hlen hargs hconds
  obtain rfl := Outcome.ok.inj (h1.symm.trans g1)
  obtain rfl := Outcome.ok.inj (h3.symm.trans g3)
  obtain ⟨_, hl, _⟩ := g4.1 h
  have h0 : (STXContractCall.build address contract fnName args sender network o).fee = 0 := by
    show o.fee.getD 0 = 0
    rw [hf]; rfl
  rw [h0] at hl
  obtain ⟨_, rfl⟩ := (transaction_encode_iff _ _).1 h3
  have : 0 < (transactionBytes t').length := by
    unfold transactionBytes
    simp only [List.length_append, beBytes_length, List.length_cons]
    omega
  have h00 : ((0 : UInt64)).toNat = 0 := rfl
  omega

omit [Secp] in
theorem condition_no_address {c : Condition} {a : Str}
    (ha : conditionAddress c = .principalStd a ∨ ∃ name, conditionAddress c = .principalCon a name)
    {e : C32.Error} (hd : C32.c32AddressDecode a = .err e) : ConditionFails c (.c32 e) := by
  rcases ha with h | ⟨n, h⟩
  · exact .principal (.inl ⟨a, h⟩) (h ▸ .principalStd ((C32.address_err_iff _ _).1 hd))
  · exact .principal (.inr ⟨a, n, h⟩) (h ▸ .principalCon ((C32.address_err_iff _ _).1 hd))

/-- **C122** What signing does report: a post-condition about something that is no address, in any place. No transaction
with such a condition can be signed, by any key; the error is that of the address unless an earlier condition is bad. -/
theorem C122_condition_without_address (t : Transaction) (c : Condition) (a : Str)
    (ha : conditionAddress c = .principalStd a ∨ ∃ name, conditionAddress c = .principalCon a name)
    (e : C32.Error) (hd : C32.c32AddressDecode a = .err e) (key : Secp.SK) :
    (c ∈ t.postConditions → ∃ e', t.sign key = .err (.clarity e')) ∧
    (∀ before after, t.postConditions = before ++ c :: after → t.postConditions.length < 2 ^ 32 →
      (∀ d ∈ before, EncodableCondition d) → t.sign key = .err (.clarity (.c32 e))) := by
  have hf := condition_no_address ha hd
  constructor
  · intro hc
    obtain ⟨e', he⟩ := conditionsFail_exists (cs := t.postConditions) (fun h => by
      have hb := condition_encode_ok c (h.2 c hc)
      rw [(C72_condition_error_exact c _).2 hf] at hb
      cases hb)
    exact ⟨e', (C75_sign_exact t key).1 e' (.conditions he)⟩
  · intro before after hs hl hb
    refine (C75_sign_exact t key).1 _ (.conditions ?_)
    rw [hs] at hl ⊢
    exact .first hl hb hf

end

/-! ## The examples of the project's README -/

section
open Stacks.Concrete.Ecdsa
attribute [local instance] realSecp Concrete.realHashes
local instance unreportedLawful : Secp.Lawful := realLawful

/-- /repo/README.md:25 -/
def readmeAddr : Str := "ST000000000000000000002AMW42H".toList

/-- /repo/README.md:163 -/
def readmeShort : Str := "ST000000000000002AMW42H".toList

theorem readmeAddr_address : C32.c32Address (List.replicate 20 0) 26 = .ok readmeAddr := by decide +kernel

theorem readmeAddr_decode : C32.c32AddressDecode readmeAddr = .ok (List.replicate 20 0, 26) := by decide +kernel

theorem readmeAddr_canonical : CanonicalAddress readmeAddr := C32.canonical_iff.2 ⟨⟨List.replicate 20 0, rfl⟩, 26, readmeAddr_address⟩

theorem readmeShort_decode : C32.c32AddressDecode readmeShort = .err (.badChecksum ⟨[46, 63, 107, 211], rfl⟩ [149, 78, 16, 81]) := by
  decide +kernel

/-- The transfer of the README, lines 23-29, with any key and any options. It names a testnet address and the mainnet. -/
example (parse : Arr 33 → Option Secp.PK) (hp : ∀ k, parse (Secp.serialize k) = some k) (sender : Secp.SK) (fee nonce : UInt64) :
    ∃ t n bs, ((STXTokenTransfer.build (.principalStd readmeAddr) 100000 sender .mainnet
        { fee := some fee, nonce := some nonce }).transaction >>= fun t => t.sign sender) = .ok t ∧
      t.verifyOrigin = .ok n ∧ t.encode = .ok bs ∧
      ∀ net, ¬ SortingNodeAccepts (fun t => GoodNames t ∧ Admissible net t) parse bs :=
  C122_transfer_other_network parse hp (STXTokenTransfer.build (.principalStd readmeAddr) 100000 sender .mainnet
      { fee := some fee, nonce := some nonce }) rfl
    ⟨by show 0 < _; decide, fun _ h => absurd h List.not_mem_nil, ⟨readmeAddr_canonical, by show 0 ≤ 34; decide⟩,
      .inl ⟨_, rfl⟩⟩ .mainnet .testnet (by decide) rfl (by
      show "ST".toList <+: readmeAddr ∨ _
      exact .inl (by decide))

/-- The arguments of the call of the README, lines 57-67. -/
def readmeArgs : List CV := [.uint 123, .tru, .buffer [1, 2, 3, 4], .list [.strAscii "foo".toList, .strAscii "bar".toList]]

theorem readmeArgs_good : readmeArgs.length < 2 ^ 32 ∧ ∀ v ∈ readmeArgs, WellFormed v ∧ Ascending v :=
  ⟨by decide, fun v hv => by
    simp only [readmeArgs, List.mem_cons, List.not_mem_nil, or_false] at hv
    rcases hv with rfl | rfl | rfl | rfl
    · exact ⟨trivial, trivial⟩
    · exact ⟨trivial, trivial⟩
    · exact ⟨by show 4 < _; decide, trivial⟩
    · exact ⟨⟨by show 2 < _; decide, ⟨by decide, by decide +kernel⟩, ⟨by decide, by decide +kernel⟩, trivial⟩,
        trivial, trivial, trivial⟩⟩

theorem readme_lengths : (Str.bytes "pox".toList).length ≤ 128 ∧ (Str.bytes "make-pox".toList).length ≤ 128 := by
  decide +kernel

/-- The call of the README. -/
def readmeCall (sender : Secp.SK) (network : Network) (o : CallOptions) : STXContractCall :=
  STXContractCall.build readmeAddr "pox".toList "make-pox".toList readmeArgs sender network o

/-- The call of the README names the mainnet too. With any key and any fee it is signed, and refused. -/
example (parse : Arr 33 → Option Secp.PK) (hp : ∀ k, parse (Secp.serialize k) = some k) (sender : Secp.SK) (fee nonce : UInt64) :
    ∃ t t' n bs, (readmeCall sender .mainnet { fee := some fee, nonce := some nonce }).transaction = .ok t ∧
      t.sign sender = .ok t' ∧ t'.verifyOrigin = .ok n ∧ t'.encode = .ok bs ∧
      ∀ net, ¬ SortingNodeAccepts (fun t => GoodNames t ∧ Admissible net t) parse bs := by
  obtain ⟨t, ht⟩ := (C57_ok_iff (readmeCall sender .mainnet { fee := some fee, nonce := some nonce })).2
    ⟨rfl, _, _, readmeAddr_decode, rfl⟩
  obtain ⟨t', n, bs, h⟩ := C122_call_other_network parse hp _ t ht readme_lengths readmeArgs_good
    ⟨by show 0 < _; decide, fun _ h => absurd h List.not_mem_nil⟩ .mainnet .testnet (by decide) rfl _ _ readmeAddr_decode
    (.inl rfl)
  exact ⟨t, t', n, bs, ht, h⟩

/-- On the testnet it is refused as it stands, since it has no fee. -/
example (parse : Arr 33 → Option Secp.PK) (hp : ∀ k, parse (Secp.serialize k) = some k) (sender : Secp.SK) :
    ∃ t t' n bs, (readmeCall sender .testnet {}).transaction = .ok t ∧
      t.sign sender = .ok t' ∧ t'.verifyOrigin = .ok n ∧ t'.encode = .ok bs ∧
      ∀ net, ¬ SortingNodeAccepts (fun t => GoodNames t ∧ Admissible net t) parse bs := by
  obtain ⟨t, ht⟩ := (C57_ok_iff (readmeCall sender .testnet {})).2 ⟨rfl, _, _, readmeAddr_decode, rfl⟩
  obtain ⟨t', n, bs, h⟩ := C122_call_default_fee parse hp readmeAddr "pox".toList "make-pox".toList readmeArgs sender .testnet {}
    rfl t ht readme_lengths readmeArgs_good ⟨by show 0 < _; decide, fun _ h => absurd h List.not_mem_nil⟩
  exact ⟨t, t', n, bs, ht, h⟩

/-- With the testnet and a fee it is taken: the refusals above are due to the network and the fee alone. -/
example (parse : Arr 33 → Option Secp.PK) (hp : ∀ k, parse (Secp.serialize k) = some k) (sender : Secp.SK) (fee nonce : UInt64) :
    ∃ t t' bs, (readmeCall sender .testnet { fee := some fee, nonce := some nonce }).transaction = .ok t ∧
      t.sign sender = .ok t' ∧ t'.encode = .ok bs ∧
      (SortingNodeAccepts (fun t => GoodNames t ∧ Admissible .testnet t) parse bs ↔ bs.length ≤ fee.toNat) := by
  obtain ⟨t, ht⟩ := (C57_ok_iff (readmeCall sender .testnet { fee := some fee, nonce := some nonce })).2
    ⟨rfl, _, _, readmeAddr_decode, rfl⟩
  obtain ⟨t', n, bs, hash, v, h1, _, h3, h4, h5⟩ := C117_call parse hp .testnet _ t ht readme_lengths readmeArgs_good
    ⟨by show 0 < _; decide, fun _ h => absurd h List.not_mem_nil⟩
  refine ⟨t, t', bs, ht, h1, h3, h5.trans ⟨fun h => h.2.1, fun h => ⟨rfl, h, ?_, ?_, ?_, ?_, ?_⟩⟩⟩
  · have e := Outcome.ok.inj (readmeAddr_decode.symm.trans h4)
    exact .inl (congrArg Prod.snd e).symm
  · show ContractName "pox".toList
    decide
  · show ClarityName "make-pox".toList
    decide
  · intro v hv
    replace hv : v ∈ readmeArgs := hv
    simp only [readmeArgs, List.mem_cons, List.not_mem_nil, or_false] at hv
    rcases hv with rfl | rfl | rfl | rfl
    · trivial
    · trivial
    · trivial
    · exact ⟨show AsciiText "foo".toList by decide, show AsciiText "bar".toList by decide, trivial⟩
  · exact fun _ h => absurd h List.not_mem_nil

/-- The post-condition of the README, lines 161-166: the address in it is too short, and no transaction with it is signed. -/
example (t : Transaction) (key : Secp.SK) (h : t.postConditions = [.stx (.principalStd readmeShort) 1000000 .gte]) :
    t.sign key = .err (.clarity (.c32 (.badChecksum ⟨[46, 63, 107, 211], rfl⟩ [149, 78, 16, 81]))) :=
  (C122_condition_without_address t _ readmeShort (.inl rfl) _ readmeShort_decode key).2 [] [] h
    (by rw [h]; decide) (fun _ h => absurd h List.not_mem_nil)

/-- The list of the README, lines 100-116. -/
def readmeList : List CV := [.int 3, .int (-4), .uint 1, .tru, .fls, .principalStd readmeAddr, .principalCon readmeAddr "pox".toList,
  .optSome (.int 1), .optNone, .respOk (.optSome (.int 1)), .respErr .optNone,
  .tuple [("foo".toList, .int 1), ("bar".toList, .uint 2)], .buffer [0xde, 0xad, 0xbe, 0xef],
  .strAscii "Hello, world!".toList, .strUtf8 "🌾!".toList]

/-- Each value of it has a text, as the README says, and so has the list, but the list is of no type that a contract
can take. -/
example : (∀ v ∈ CV.list readmeList :: readmeList, (match v.hex with | .ok _ => true | _ => false) = true) ∧ ¬ Typed (.list readmeList) :=
  ⟨by decide +kernel, fun h =>
    absurd ((C119_list _ h).1 (.int 3) (by simp [readmeList]) .tru (by simp [readmeList])) (by decide)⟩

end
end Stacks.Tx

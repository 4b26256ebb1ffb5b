import Verif.Model.Builder
import Verif.Props.C32
import Verif.Props.Signing

/-! # Properties C56 - C58: transaction builders and networks -/

namespace Stacks.Tx
open Stacks.Spec Stacks.Clarity

section
variable [Secp] [Hashes]

theorem p2pkh_new {ε : Type} (pk : Secp.PK) (fee nonce : UInt64) :
    (SingleSig.new pk fee nonce .p2pkh : Outcome ε SingleSig) =
      .ok ⟨.p2pkh, fee, nonce, hash160Of (Secp.serialize pk).1, noSignature⟩ := rfl

/-! ## C56 -/

/-- **C56** The transaction of a token-transfer builder. -/
theorem C56_token_transfer (ε : Type) (b : STXTokenTransfer) (h : b.sponsored = false) :
    ∃ (t : Transaction) (c : SingleSig), (b.transaction : Outcome ε Transaction) = .ok t ∧
      t.version = b.network.version ∧ t.chainId = b.network.chainId ∧
      t.auth = .standard (.single c) ∧ c.mode = .p2pkh ∧ c.signer = hash160Of (Secp.serialize (Secp.pub b.sender)).1 ∧
      c.fee = b.fee ∧ c.nonce = b.nonce ∧ c.signature = noSignature ∧
      t.anchorMode = b.anchorMode ∧ t.postConditionMode = b.postConditionMode ∧ t.postConditions = b.postConditions ∧
      t.payload = .tokenTransfer ⟨b.recipient, b.amount, b.memo⟩ := by
  unfold STXTokenTransfer.transaction
  simp only [p2pkh_new, Outcome.ok_bind, h]
  exact ⟨_, _, rfl, rfl, rfl, rfl, rfl, rfl, rfl, rfl, rfl, rfl, rfl, rfl, rfl⟩

/-- **C56** `sponsored = true` panics, and nothing else does. -/
theorem C56_sponsored_panics (ε : Type) (b : STXTokenTransfer) :
    (b.transaction : Outcome ε Transaction) = .panic ↔ b.sponsored = true := by
  cases h : b.sponsored
  · obtain ⟨t, _, ht, _⟩ := C56_token_transfer ε b h
    rw [ht]; simp
  · unfold STXTokenTransfer.transaction
    simp [p2pkh_new, h]

/-- **C56** Options that are not given take the documented defaults; those given are used. -/
theorem C56_defaults (ε : Type) (recipient : CV) (amount : UInt64) (sender : Secp.SK) (network : Network) :
    (∃ (t : Transaction) (c : SingleSig),
      ((STXTokenTransfer.build recipient amount sender network {}).transaction : Outcome ε Transaction) = .ok t ∧
      t.auth = .standard (.single c) ∧ c.fee = 0 ∧ c.nonce = 0 ∧ t.anchorMode = .any ∧ t.postConditionMode = .allow ∧
      t.postConditions = [] ∧ t.payload = .tokenTransfer ⟨recipient, amount, []⟩) ∧
    (∀ fee nonce am memo pm pcs, ∃ (t : Transaction) (c : SingleSig),
      ((STXTokenTransfer.build recipient amount sender network
        ⟨some fee, some nonce, some am, some memo, some pm, some pcs, some false⟩).transaction : Outcome ε Transaction) = .ok t ∧
      t.auth = .standard (.single c) ∧ c.fee = fee ∧ c.nonce = nonce ∧ t.anchorMode = am ∧ t.postConditionMode = pm ∧
      t.postConditions = pcs ∧ t.payload = .tokenTransfer ⟨recipient, amount, memo⟩) := by
  constructor
  · obtain ⟨t, c, h1, _, _, h2, _, _, h3, h4, _, h5, h6, h7, h8⟩ :=
      C56_token_transfer ε (STXTokenTransfer.build recipient amount sender network {}) rfl
    exact ⟨t, c, h1, h2, h3, h4, h5, h6, h7, h8⟩
  · intro fee nonce am memo pm pcs
    obtain ⟨t, c, h1, _, _, h2, _, _, h3, h4, _, h5, h6, h7, h8⟩ :=
      C56_token_transfer ε (STXTokenTransfer.build recipient amount sender network
        ⟨some fee, some nonce, some am, some memo, some pm, some pcs, some false⟩) rfl
    exact ⟨t, c, h1, h2, h3, h4, h5, h6, h7, h8⟩

/-- **C56** Signed with the sender's key the transaction verifies, provided its post-conditions
and payload have an encoding. -/
theorem C56_sign_verifies [Secp.Lawful] (b : STXTokenTransfer) (h : b.sponsored = false)
    (hp : EncodablePayload (.tokenTransfer ⟨b.recipient, b.amount, b.memo⟩))
    (hc : b.postConditions.length < 2 ^ 32 ∧ ∀ c ∈ b.postConditions, EncodableCondition c) :
    ∃ t n, (b.transaction >>= fun t => t.sign b.sender) = .ok t ∧ t.verifyOrigin = .ok n := by
  obtain ⟨t, c, h1, _, _, h2, h3, h4, h5, h6, h7, _, _, h8, h9⟩ := C56_token_transfer TxError b h
  obtain ⟨s, _, h10, h11, _⟩ := C47_sign_then_verify t (Secp.pub b.sender) b.fee b.nonce .p2pkh c b.sender
    ((single_new_iff _ _ _ _ _).2 ⟨h3, h5, h6, by rw [h4]; rfl, h7⟩) (by rw [h2]; rfl)
    ⟨by rw [h8]; exact hc.1, by rw [h8]; exact hc.2, by rw [h9]; exact hp⟩
  exact ⟨s.tx, s.hash, by rw [h1]; exact h10, h11 rfl⟩

/-! ## C57 -/

/-- **C57** What a contract-call builder does, by what its address decodes to. -/
theorem C57_contract_call (b : STXContractCall) :
    (∀ e, C32.c32AddressDecode b.address = .err e → b.transaction = .err (.c32 e)) ∧
    (∀ bytes v, C32.c32AddressDecode b.address = .ok (bytes, v) → bytes.length ≠ 20 → b.transaction = .panic) ∧
    (∀ bytes v, C32.c32AddressDecode b.address = .ok (bytes, v) → b.sponsored = true → b.transaction = .panic) ∧
    (∀ bytes v (hl : bytes.length = 20), C32.c32AddressDecode b.address = .ok (bytes, v) → b.sponsored = false →
      ∃ (t : Transaction) (c : SingleSig), b.transaction = .ok t ∧
        t.version = b.network.version ∧ t.chainId = b.network.chainId ∧
        t.auth = .standard (.single c) ∧ c.mode = .p2pkh ∧ c.signer = hash160Of (Secp.serialize (Secp.pub b.sender)).1 ∧
        c.fee = b.fee ∧ c.nonce = b.nonce ∧ c.signature = noSignature ∧
        t.anchorMode = b.anchorMode ∧ t.postConditionMode = b.postConditionMode ∧ t.postConditions = b.postConditions ∧
        t.payload = .contractCall ⟨⟨⟨bytes, hl⟩, v⟩, b.contract, b.fnName, b.fnArgs⟩) := by
  obtain ⟨h1, h2, h3⟩ := C32.C12_address_from_str b.address
  unfold STXContractCall.transaction
  refine ⟨fun e he => ?_, fun bytes v he hl => ?_, fun bytes v he hs => ?_, fun bytes v hl he hs => ?_⟩
  · rw [h1 e he]; rfl
  · rw [h3.2 ⟨bytes, v, he, hl⟩]; rfl
  · by_cases hl : bytes.length = 20
    · simp only [h2 bytes v hl he, p2pkh_new, hs]; rfl
    · rw [h3.2 ⟨bytes, v, he, hl⟩]; rfl
  · simp only [h2 bytes v hl he, p2pkh_new, hs]
    exact ⟨_, _, rfl, rfl, rfl, rfl, rfl, rfl, rfl, rfl, rfl, rfl, rfl, rfl, rfl⟩

/-- **C57** The four cases are all there is: it never fails otherwise. -/
theorem C57_ok_iff (b : STXContractCall) :
    (∃ t, b.transaction = .ok t) ↔
      b.sponsored = false ∧ ∃ bytes v, C32.c32AddressDecode b.address = .ok (bytes, v) ∧ bytes.length = 20 := by
  obtain ⟨h1, h2, h3, h4⟩ := C57_contract_call b
  constructor
  · rintro ⟨t, ht⟩
    rcases hd : C32.c32AddressDecode b.address with ⟨bytes, v⟩ | e | _
    · by_cases hl : bytes.length = 20
      · cases hs : b.sponsored
        · exact ⟨rfl, bytes, v, rfl, hl⟩
        · rw [h3 bytes v hd hs] at ht; cases ht
      · rw [h2 bytes v hd hl] at ht; cases ht
    · rw [h1 e hd] at ht; cases ht
    · exact absurd hd (C32.C11_c32_address_decode_no_panic _)
  · rintro ⟨hs, bytes, v, hd, hl⟩
    obtain ⟨t, _, ht, _⟩ := h4 bytes v hl hd hs
    exact ⟨t, ht⟩

/-- **C57** Options that are not given take the documented defaults; those given are used. -/
theorem C57_defaults (address contract fnName : Str) (fnArgs : List CV) (sender : Secp.SK) (network : Network)
    (hash : Arr 20) (v : UInt8) (ha : C32.c32AddressDecode address = .ok (hash.1, v)) :
    (∃ (t : Transaction) (c : SingleSig),
      (STXContractCall.build address contract fnName fnArgs sender network {}).transaction = .ok t ∧
      t.auth = .standard (.single c) ∧ c.fee = 0 ∧ c.nonce = 0 ∧ t.anchorMode = .any ∧ t.postConditionMode = .allow ∧
      t.postConditions = [] ∧ t.payload = .contractCall ⟨⟨hash, v⟩, contract, fnName, fnArgs⟩) ∧
    (∀ fee nonce am pm pcs, ∃ (t : Transaction) (c : SingleSig),
      (STXContractCall.build address contract fnName fnArgs sender network
        ⟨some fee, some nonce, some am, some pm, some pcs, some false⟩).transaction = .ok t ∧
      t.auth = .standard (.single c) ∧ c.fee = fee ∧ c.nonce = nonce ∧ t.anchorMode = am ∧ t.postConditionMode = pm ∧
      t.postConditions = pcs ∧ t.payload = .contractCall ⟨⟨hash, v⟩, contract, fnName, fnArgs⟩) := by
  constructor
  · obtain ⟨t, c, h1, _, _, h2, _, _, h3, h4, _, h5, h6, h7, h8⟩ :=
      (C57_contract_call (STXContractCall.build address contract fnName fnArgs sender network {})).2.2.2
        hash.1 v hash.2 ha rfl
    exact ⟨t, c, h1, h2, h3, h4, h5, h6, h7, h8⟩
  · intro fee nonce am pm pcs
    obtain ⟨t, c, h1, _, _, h2, _, _, h3, h4, _, h5, h6, h7, h8⟩ :=
      (C57_contract_call (STXContractCall.build address contract fnName fnArgs sender network
        ⟨some fee, some nonce, some am, some pm, some pcs, some false⟩)).2.2.2 hash.1 v hash.2 ha rfl
    exact ⟨t, c, h1, h2, h3, h4, h5, h6, h7, h8⟩

/-- **C57** Signed with the sender's key the transaction verifies, provided its post-conditions
and payload have an encoding. -/
theorem C57_sign_verifies [Secp.Lawful] (b : STXContractCall) (t : Transaction) (ht : b.transaction = .ok t)
    (hb : EncodableBody t) : ∃ t' n, t.sign b.sender = .ok t' ∧ t'.verifyOrigin = .ok n := by
  obtain ⟨hs, bytes, v, hd, hl⟩ := (C57_ok_iff b).1 ⟨t, ht⟩
  obtain ⟨t2, c, h1, _, _, h2, h3, h4, h5, h6, h7, _⟩ := (C57_contract_call b).2.2.2 bytes v hl hd hs
  rw [ht] at h1
  cases h1
  obtain ⟨s, _, h10, h11, _⟩ := C47_sign_then_verify t (Secp.pub b.sender) b.fee b.nonce .p2pkh c b.sender
    ((single_new_iff _ _ _ _ _).2 ⟨h3, h5, h6, by rw [h4]; rfl, h7⟩) (by rw [h2]; rfl) hb
  exact ⟨s.tx, s.hash, h10, h11 rfl⟩

/-! ## C58 -/

omit [Secp] [Hashes] in
/-- **C58** The version byte and the chain id of the crate's networks: both are the mainnet's, or both
are the testnet's. (A network a user defines says itself what they are.) -/
theorem C58_network_pairs (n : Network) (hn : n ∈ [.mainnet, .testnet, .mocknet]) :
    (n = .mainnet ∧ n.version.toU8 = 0x00 ∧ n.chainId.toU32 = 0x00000001) ∨
    (n ≠ .mainnet ∧ n.version.toU8 = 0x80 ∧ n.chainId.toU32 = 0x80000000) := by
  revert hn n; decide

omit [Secp] [Hashes] in
/-- **C58** The crate's networks have different nodes: their base URLs are apart, only the local one is
not encrypted, the public ones have the network's name in them, and none ends in the slash that the
request paths begin with. -/
theorem C58_base_urls (n m : Network) (hn : n ∈ [.mainnet, .testnet, .mocknet])
    (hm : m ∈ [.mainnet, .testnet, .mocknet]) :
    (n.baseUrl = m.baseUrl → n = m) ∧
    ("https://".toList <+: n.baseUrl ↔ n ≠ .mocknet) ∧ ("http://localhost:".toList <+: n.baseUrl ↔ n = .mocknet) ∧
    (".mainnet.".toList <:+: n.baseUrl ↔ n = .mainnet) ∧ (".testnet.".toList <:+: n.baseUrl ↔ n = .testnet) ∧
    n.baseUrl.getLast? ≠ some '/' := by
  simp only [List.mem_cons, List.not_mem_nil, or_false] at hn hm
  rcases hn with rfl | rfl | rfl <;> rcases hm with rfl | rfl | rfl <;> decide +kernel

omit [Secp] [Hashes] in
/-- The five bytes a transaction begins with, and what is signed too. -/
theorem version_chain_of_head (v v' : TransactionVersion) (c c' : ChainID)
    (h : versionNumber v :: beBytes 4 (chainNumber c) = versionNumber v' :: beBytes 4 (chainNumber c')) :
    v = v' ∧ c = c' := by
  revert h
  cases v <;> cases v' <;> cases c <;> cases c' <;> decide

/-- Version or chain id apart, so are the bytes and what is signed. -/
theorem bytes_differ (t t' : Transaction) (h : t.version ≠ t'.version ∨ t.chainId ≠ t'.chainId) :
    (∀ bs bs', t.encode = .ok bs → t'.encode = .ok bs' → bs ≠ bs') ∧ signingPreimage t ≠ signingPreimage t' := by
  have key : ∀ t t' : Transaction, transactionBytes t = transactionBytes t' →
      t.version = t'.version ∧ t.chainId = t'.chainId := by
    intro t t' e
    have := congrArg (List.take 5) e
    apply version_chain_of_head
    simpa [transactionBytes, List.take_append, beBytes_length] using this
  constructor
  · rintro bs _ he he' rfl
    obtain ⟨_, hb⟩ := (transaction_encode_iff t _).1 he
    obtain ⟨_, hb'⟩ := (transaction_encode_iff t' _).1 he'
    obtain ⟨h1, h2⟩ := key t t' (hb ▸ hb')
    exact h.elim (absurd h1) (absurd h2)
  · intro he
    obtain ⟨h1, h2⟩ := key _ _ he
    exact h.elim (absurd h1) (absurd h2)

/-- **C58** The same token transfer for two networks of different version or different chain id: the
encodings and the signing preimages differ. -/
theorem C58_transfer_networks_apart (ε : Type) (b : STXTokenTransfer) (m n : Network)
    (hn : m.version ≠ n.version ∨ m.chainId ≠ n.chainId) (t t' : Transaction)
    (h : (STXTokenTransfer.transaction { b with network := m } : Outcome ε Transaction) = .ok t)
    (h' : (STXTokenTransfer.transaction { b with network := n } : Outcome ε Transaction) = .ok t') :
    (∀ bs bs', t.encode = .ok bs → t'.encode = .ok bs' → bs ≠ bs') ∧ signingPreimage t ≠ signingPreimage t' := by
  have hs : b.sponsored = false := by
    by_contra hne
    rw [(C56_sponsored_panics ε _).2 (by simpa using hne)] at h
    cases h
  obtain ⟨u, _, hu, hv, hi, _⟩ := C56_token_transfer ε { b with network := m } hs
  obtain ⟨u', _, hu', hv', hi', _⟩ := C56_token_transfer ε { b with network := n } hs
  rw [h] at hu; cases hu
  rw [h'] at hu'; cases hu'
  exact bytes_differ t t' (by rw [hv, hv', hi, hi']; exact hn)

/-- **C58** The same for contract calls. -/
theorem C58_call_networks_apart (b : STXContractCall) (m n : Network)
    (hn : m.version ≠ n.version ∨ m.chainId ≠ n.chainId) (t t' : Transaction)
    (h : STXContractCall.transaction { b with network := m } = .ok t)
    (h' : STXContractCall.transaction { b with network := n } = .ok t') :
    (∀ bs bs', t.encode = .ok bs → t'.encode = .ok bs' → bs ≠ bs') ∧ signingPreimage t ≠ signingPreimage t' := by
  obtain ⟨hs, bytes, v, hd, hl⟩ := (C57_ok_iff _).1 ⟨t, h⟩
  obtain ⟨u, _, hu, hv, hi, _⟩ := (C57_contract_call { b with network := m }).2.2.2 bytes v hl hd hs
  obtain ⟨u', _, hu', hv', hi', _⟩ := (C57_contract_call { b with network := n }).2.2.2 bytes v hl hd hs
  rw [h] at hu; cases hu
  rw [h'] at hu'; cases hu'
  exact bytes_differ t t' (by rw [hv, hv', hi, hi']; exact hn)

/-- **C58** No replay: a signature that verifies for a transaction of one version and chain id does not
verify for one of another with the same signer, unless a SHA-512/256 collision
or two digests recovering keys of the same hash are in hand. -/
theorem C58_no_replay (t t' : Transaction) (c c' : SingleSig) (n n' : Arr 32)
    (h : WellFormedTransaction t) (h' : WellFormedTransaction t') (hv : t.version ≠ t'.version ∨ t.chainId ≠ t'.chainId)
    (hc : t.auth.origin = .single c) (hc' : t'.auth.origin = .single c')
    (hsig : c.signature = c'.signature) (hsigner : c.signer = c'.signer)
    (hok : t.verifyOrigin = .ok n) (hok' : t'.verifyOrigin = .ok n') :
    (signingPreimage t ≠ signingPreimage t' ∧
      Hashes.sha512_256 (signingPreimage t) = Hashes.sha512_256 (signingPreimage t')) ∨
    (∃ x x', x = presignInput (Hashes.sha512_256 (signingPreimage t)) 4 c.fee c.nonce ∧
      x' = presignInput (Hashes.sha512_256 (signingPreimage t')) 4 c'.fee c'.nonce ∧ x ≠ x' ∧
      Hashes.sha512_256 x = Hashes.sha512_256 x') ∨
    (∃ m m' k k', m = presignDigest (Hashes.sha512_256 (signingPreimage t)) 4 c.fee c.nonce ∧
      m' = presignDigest (Hashes.sha512_256 (signingPreimage t')) 4 c'.fee c'.nonce ∧ m ≠ m' ∧
      RecoversKey m c.signature k ∧ RecoversKey m' c.signature k' ∧
      keySigner c.mode k = some c.signer ∧ keySigner c'.mode k' = some c.signer) := by
  rcases C49_single_binding t t' c c' n n' h h' hc hc' hsig hsigner hok hok' with ⟨hs, _⟩ | h
  · exact hv.elim (absurd (congrArg SignedContent.version hs)) (absurd (congrArg SignedContent.chainId hs))
  · exact h

end

section
attribute [local instance] Concrete.realHashes Concrete.toySecp
local instance : Secp.Lawful := Concrete.toyLawful

/-- A builder with a recipient, a memo and post-conditions. -/
def exTransferBuilder : STXTokenTransfer :=
  { recipient := exTransfer.address, amount := 12345, sender := exKey 1, network := .testnet, fee := 180, nonce := 5,
    memo := "hello".toList, postConditionMode := .deny, postConditions := exConditions }

/-- C56: it builds, signs and verifies. -/
example : ∃ t n, (exTransferBuilder.transaction >>= fun t => t.sign (exKey 1)) = .ok t ∧ t.verifyOrigin = .ok n :=
  C56_sign_verifies exTransferBuilder rfl
    ⟨(wf_encodable_tx _ exTx_wf).2.2.2.1, by decide +kernel⟩ ⟨exTx_wf.2.1, (wf_encodable_tx _ exTx_wf).2.2.1⟩

/-- C58: the crate's mainnet and its other networks are apart in this sense; so are the testnet and a
user's network with the mainnet's chain id. -/
example : Network.mainnet.version ≠ Network.mocknet.version ∨ Network.mainnet.chainId ≠ Network.mocknet.chainId := by
  decide
example : Network.testnet.version ≠ (Network.custom .testnet .mainnet "http://10.0.0.1:20443".toList).version ∨
    Network.testnet.chainId ≠ (Network.custom .testnet .mainnet "http://10.0.0.1:20443".toList).chainId := by
  decide

/-- A contract call, an address that is not 20 bytes, and one that does not decode. -/
def exCallBuilder (address : String) : STXContractCall :=
  { address := address.toList, contract := "pool".toList, fnName := "stack".toList,
    fnArgs := [.uint 1, .tru], sender := exKey 1, network := .mainnet }

/-- C57. -/
example : ∃ t, (exCallBuilder "SP2J6ZY48GV1EZ5V2V5RB9MP66SW86PYKKNRV9EJ7").transaction = .ok t :=
  (C57_ok_iff _).2 ⟨rfl, [0xa4, 0x6f, 0xf8, 0x88, 0x86, 0xc2, 0xef, 0x97,
    0x62, 0xd9, 0x70, 0xb4, 0xd2, 0xc6, 0x36, 0x78, 0x83, 0x5b, 0xd3, 0x9d], 22, by decide +kernel, rfl⟩
example : (exCallBuilder "SP820DJMP8B0").transaction = .panic :=
  (C57_contract_call _).2.1 [1, 2, 3] 22 (by decide +kernel) (by decide)
example : ∃ e, (exCallBuilder "SP2J6ZY48GV1EZ5V2V5RB9MP66SW86PYKKNRV9EJ8").transaction = .err (.c32 e) :=
  ⟨_, (C57_contract_call _).1 (.badChecksum ⟨[113, 180, 186, 71], rfl⟩ [113, 180, 186, 72]) (by decide +kernel)⟩

/-! ### instances of the theorems with hypotheses -/

example := C56_token_transfer Unit exTransferBuilder rfl
example := C57_defaults "SP2J6ZY48GV1EZ5V2V5RB9MP66SW86PYKKNRV9EJ7".toList "pool".toList "stack".toList [.uint 1, .tru]
  (exKey 1) .mainnet ⟨[0xa4, 0x6f, 0xf8, 0x88, 0x86, 0xc2, 0xef, 0x97, 0x62, 0xd9, 0x70, 0xb4, 0xd2, 0xc6, 0x36, 0x78,
    0x83, 0x5b, 0xd3, 0x9d], rfl⟩ 22 (by decide +kernel)
example := C58_network_pairs .mocknet (by decide)
example := C58_base_urls .mainnet .testnet (by decide) (by decide)

end

end Stacks.Tx

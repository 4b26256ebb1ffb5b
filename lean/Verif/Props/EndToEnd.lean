import Verif.Spec.EndToEnd
import Verif.Props.Node
import Verif.Props.Rpc
import Verif.Props.Wallet
import Verif.Props.EcdsaVerify

/-! # C87: from the words of a wallet to a node -/

namespace Stacks.Rpc
open Stacks.Spec Stacks.Tx Stacks.Wallet
open Stacks.Clarity (CV)

section
variable [Secp] [Hashes] [Http]

/-- What a node accepts and reads is delivered. -/
theorem delivers_of (parse : Arr 33 → Option Secp.PK) (r : StacksRPC) (server : Request → Reply) (t t' : Transaction)
    (bs : Bytes) (he : t.encode = .ok bs) (hn : NodeAccepts parse bs)
    (hr : (readTransaction parse).run bs = some (t', [])) :
    Delivers parse r.url server (r.broadcast server t) t' :=
  ⟨bs, (C62_broadcast r server t).1 bs he, hn, hr, fun code body txid h1 h2 h3 =>
    ((C63_broadcast r server t bs he).1 txid).2 ⟨code, body, h1, h2, h3⟩⟩

/-- Signing with the key a transaction was made for, and broadcasting it. -/
theorem single_delivers [Secp.Lawful] (parse : Arr 33 → Option Secp.PK) (hp : ∀ k, parse (Secp.serialize k) = some k)
    (r : StacksRPC) (server : Request → Reply) (t : Transaction) (k : Secp.SK) (c : SingleSig)
    (hc : t.auth = .standard (.single c)) (hm : c.mode = .p2pkh)
    (hs : c.signer = hash160Of (Secp.serialize (Secp.pub k)).1) (h0 : c.signature = noSignature)
    (hb : AcceptableBody t.postConditions t.payload) :
    ∃ t' c', t.sign k = .ok t' ∧
      Delivers parse r.url server (r.broadcast server t')
        { t with auth := .standard (.single c'), payload := readBack t.payload } ∧
      c'.mode = .p2pkh ∧ c'.fee = c.fee ∧ c'.nonce = c.nonce ∧ c'.signer = c.signer := by
  obtain ⟨t', bs, h1, h2, h3⟩ := C80_single_accepted parse hp t k c.fee c.nonce .p2pkh c
    ((single_new_iff _ _ _ _ _).2 ⟨hm, rfl, rfl, by rw [hs]; rfl, h0⟩) hc hb
  obtain ⟨_, _, _, e⟩ := (sign_iff _ _ _).1 h1
  have e' : ∃ sig, t' = { t with auth := .standard (.single { c with signature := sig }) } := by
    rw [e, hc]; exact ⟨_, rfl⟩
  obtain ⟨sig, e'⟩ := e'
  have hwf : WellFormedTransaction t' :=
    acceptable_wf (by rw [e']; exact .inl hm) (by rw [e']; exact hb)
  obtain ⟨bs', h4, h5⟩ := C43_reader_recovers parse hp t' hwf []
  obtain rfl := Outcome.ok.inj (h2.symm.trans h4)
  rw [List.append_nil, e'] at h5
  exact ⟨t', _, h1, delivers_of parse r server t' _ bs h2 h3 h5, hm, rfl, rfl, rfl⟩

variable [Bip]

omit [Hashes] [Http] in
/-- The account that a wallet gives out is the one of the phrase, whatever was asked before. -/
theorem isAccount_of (words : Str) (w : StacksWallet) (hw : StacksWallet.fromSecretKey words = .ok w)
    (history : List UInt32) (i : UInt32) (a : StacksAccount)
    (ha : ((afterCalls w (history.map .get)).getAccount i).1 = .ok a) : IsAccount words i a := by
  obtain ⟨m, p, x, h1, h2, h3, rfl⟩ := ((C59_root_key words).1 w).1 hw
  rw [C59_transparent] at ha
  cases hd : Bip.deriveChild x i with
  | error e => rw [hd] at ha; cases ha
  | ok child =>
    rw [hd] at ha
    obtain rfl := Outcome.ok.inj ha
    exact ⟨rfl, m, p, x, h1, h2, h3, hd⟩

omit [Http] in
/-- The key of an account hashes to its addresses. -/
theorem account_key [Bip.Lawful] (a : StacksAccount) (k : Secp.SK) (hk : a.privateKey = .ok k) (v : C32.Version) :
    ∃ s, a.getAddress v = .ok s ∧
      C32.addressFromStr s = .ok ⟨hash160Of (Secp.serialize (Secp.pub k)).1, versionByte v⟩ := by
  obtain ⟨k', h1, h2, _⟩ := Bip.Lawful.key a.ext
  unfold StacksAccount.privateKey at hk
  rw [h1] at hk
  obtain rfl := Outcome.ok.inj hk
  obtain ⟨s, h3, _, h4⟩ := C60_get_address a v
  exact ⟨s, h3, by rw [h2]; exact h4⟩

/-- **C87** A token transfer: an account of a wallet made from a phrase has a key; a transfer to an
account that is built with this key, signed with it and broadcast reaches the node as exactly the
transfer that was asked for, from that account, and the node accepts it. -/
theorem C87_transfer [Secp.Lawful] [Bip.Lawful] (parse : Arr 33 → Option Secp.PK)
    (hp : ∀ k, parse (Secp.serialize k) = some k) (words : Str) (w : StacksWallet)
    (hw : StacksWallet.fromSecretKey words = .ok w) (history : List UInt32) (i : UInt32) (a : StacksAccount)
    (ha : ((afterCalls w (history.map .get)).getAccount i).1 = .ok a) :
    IsAccount words i a ∧ ∃ k, a.privateKey = .ok k ∧
      ∀ (b : STXTokenTransfer) (r : StacksRPC) (server : Request → Reply), b.sender = k → b.sponsored = false →
        AcceptableBody b.postConditions (.tokenTransfer ⟨b.recipient, b.amount, b.memo⟩) →
        ∃ t tx, (b.transaction >>= fun t => t.sign k) = .ok t ∧
          Delivers parse r.url server (r.broadcast server t) tx ∧ SentFrom a b.fee b.nonce tx ∧
          tx.version = b.network.version ∧ tx.chainId = b.network.chainId ∧ tx.anchorMode = b.anchorMode ∧
          tx.postConditionMode = b.postConditionMode ∧ tx.postConditions = b.postConditions ∧
          tx.payload = .tokenTransfer ⟨b.recipient, b.amount, paddedMemo b.memo⟩ := by
  obtain ⟨k, hk, _⟩ := C61_private_key_exists a
  refine ⟨isAccount_of words w hw history i a ha, k, hk, fun b r server hb hs hbody => ?_⟩
  subst hb
  obtain ⟨t, c, h1, h2, h3, h4, h5, h6, h7, h8, h9, h10, h11, h12, h13⟩ := C56_token_transfer TxError b hs
  obtain ⟨t', c', g1, g2, g3, g4, g5, g6⟩ := single_delivers parse hp r server t b.sender c h4 h5 h6 h9
    (by rw [h12, h13]; exact hbody)
  refine ⟨t', _, by rw [h1]; exact g1, g2, ⟨c', rfl, g3, g4.trans h7, g5.trans h8, fun v => ?_⟩, h2, h3, h10, h11, h12,
    by simp only [h13]; rfl⟩
  rw [g6, h6]
  exact account_key a _ hk v

/-- **C87** A contract call. -/
theorem C87_call [Secp.Lawful] [Bip.Lawful] (parse : Arr 33 → Option Secp.PK)
    (hp : ∀ k, parse (Secp.serialize k) = some k) (words : Str) (w : StacksWallet)
    (hw : StacksWallet.fromSecretKey words = .ok w) (history : List UInt32) (i : UInt32) (a : StacksAccount)
    (ha : ((afterCalls w (history.map .get)).getAccount i).1 = .ok a) :
    IsAccount words i a ∧ ∃ k, a.privateKey = .ok k ∧
      ∀ (b : STXContractCall) (r : StacksRPC) (server : Request → Reply) (hash : Arr 20) (v : UInt8),
        b.sender = k → b.sponsored = false → IsAddress b.address v hash.1 →
        AcceptableBody b.postConditions (.contractCall ⟨⟨hash, v⟩, b.contract, b.fnName, b.fnArgs⟩) →
        ∃ t0 t tx, b.transaction = .ok t0 ∧ t0.sign k = .ok t ∧
          Delivers parse r.url server (r.broadcast server t) tx ∧ SentFrom a b.fee b.nonce tx ∧
          tx.version = b.network.version ∧ tx.chainId = b.network.chainId ∧ tx.anchorMode = b.anchorMode ∧
          tx.postConditionMode = b.postConditionMode ∧ tx.postConditions = b.postConditions ∧
          tx.payload = .contractCall ⟨⟨hash, v⟩, b.contract, b.fnName, b.fnArgs⟩ := by
  obtain ⟨k, hk, _⟩ := C61_private_key_exists a
  refine ⟨isAccount_of words w hw history i a ha, k, hk, fun b r server hash v hb hs hd hbody => ?_⟩
  subst hb
  obtain ⟨t, c, h1, h2, h3, h4, h5, h6, h7, h8, h9, h10, h11, h12, h13⟩ :=
    (C57_contract_call b).2.2.2 hash.1 v hash.2 (C32.decode_of_isAddress hd) hs
  obtain ⟨t', c', g1, g2, g3, g4, g5, g6⟩ := single_delivers parse hp r server t b.sender c h4 h5 h6 h9
    (by rw [h12, h13]; exact hbody)
  refine ⟨t, t', _, h1, g1, g2, ⟨c', rfl, g3, g4.trans h7, g5.trans h8, fun v => ?_⟩, h2, h3, h10, h11, h12,
    by simp only [h13]; rfl⟩
  rw [g6, h6]
  exact account_key a _ hk v

end

section
open Stacks.Concrete
attribute [local instance] Ecdsa.realSecp
variable [Hashes] [Http]

/-- The parser of compressed public keys. -/
def parseKey (bytes : Arr 33) : Option Ecdsa.PK :=
  match Bip32.pkFromSlice bytes.1 with
  | .ok k => some k
  | .error _ => none

omit [Hashes] [Http] in
/-- It reads every key. -/
theorem parseKey_serialize (q : Ecdsa.PK) : parseKey (Ecdsa.serialize q) = some q := by
  obtain ⟨d, rfl, _⟩ := C82_key_pairs q
  rw [parseKey, Bip32.pkFromSlice_eq]

/-- **C87** With ECDSA over secp256k1 and BIP 32 nothing is assumed of the cryptography (but for the
hash functions, of which nothing is needed); `phrases` says how phrases are read (C102 is about those of BIP 39). -/
theorem C87_real_transfer (phrases : Bip32.Phrases) : letI : Bip := Bip32.realBip phrases
    ∀ (words : Str) (w : StacksWallet), StacksWallet.fromSecretKey words = .ok w →
    ∀ (history : List UInt32) (i : UInt32) (a : StacksAccount),
      ((afterCalls w (history.map .get)).getAccount i).1 = .ok a →
      IsAccount words i a ∧ ∃ k, a.privateKey = .ok k ∧
        ∀ (b : STXTokenTransfer) (r : StacksRPC) (server : Request → Reply), b.sender = k → b.sponsored = false →
          AcceptableBody b.postConditions (.tokenTransfer ⟨b.recipient, b.amount, b.memo⟩) →
          ∃ t tx, (b.transaction >>= fun t => t.sign k) = .ok t ∧
            Delivers parseKey r.url server (r.broadcast server t) tx ∧ SentFrom a b.fee b.nonce tx ∧
            tx.version = b.network.version ∧ tx.chainId = b.network.chainId ∧ tx.anchorMode = b.anchorMode ∧
            tx.postConditionMode = b.postConditionMode ∧ tx.postConditions = b.postConditions ∧
            tx.payload = .tokenTransfer ⟨b.recipient, b.amount, paddedMemo b.memo⟩ := by
  have : Secp.Lawful := Ecdsa.realLawful
  let _ : Bip := Bip32.realBip phrases
  have : Bip.Lawful := Bip32.realBipLawful phrases
  intro words w hw history i a ha
  exact C87_transfer parseKey parseKey_serialize words w hw history i a ha

/-- **C87** The same for contract calls. -/
theorem C87_real_call (phrases : Bip32.Phrases) : letI : Bip := Bip32.realBip phrases
    ∀ (words : Str) (w : StacksWallet), StacksWallet.fromSecretKey words = .ok w →
    ∀ (history : List UInt32) (i : UInt32) (a : StacksAccount),
      ((afterCalls w (history.map .get)).getAccount i).1 = .ok a →
      IsAccount words i a ∧ ∃ k, a.privateKey = .ok k ∧
        ∀ (b : STXContractCall) (r : StacksRPC) (server : Request → Reply) (hash : Arr 20) (v : UInt8),
          b.sender = k → b.sponsored = false → IsAddress b.address v hash.1 →
          AcceptableBody b.postConditions (.contractCall ⟨⟨hash, v⟩, b.contract, b.fnName, b.fnArgs⟩) →
          ∃ t0 t tx, b.transaction = .ok t0 ∧ t0.sign k = .ok t ∧
            Delivers parseKey r.url server (r.broadcast server t) tx ∧ SentFrom a b.fee b.nonce tx ∧
            tx.version = b.network.version ∧ tx.chainId = b.network.chainId ∧ tx.anchorMode = b.anchorMode ∧
            tx.postConditionMode = b.postConditionMode ∧ tx.postConditions = b.postConditions ∧
            tx.payload = .contractCall ⟨⟨hash, v⟩, b.contract, b.fnName, b.fnArgs⟩ := by
  have : Secp.Lawful := Ecdsa.realLawful
  let _ : Bip := Bip32.realBip phrases
  have : Bip.Lawful := Bip32.realBipLawful phrases
  intro words w hw history i a ha
  exact C87_call parseKey parseKey_serialize words w hw history i a ha

end

/-! ## The hypotheses are satisfiable -/

section
attribute [local instance] Concrete.realHashes Concrete.toySecp toyBip toyHttp
local instance endToEndLawful : Secp.Lawful := Concrete.toyLawful

local instance endToEndBip : Bip.Lawful where
  key x := ⟨x, by show (if h : x.1.length = 32 then Except.ok _ else _) = _; rw [dif_pos x.2]; rfl, rfl,
    by show (if h : (x.1).length = 32 then Except.ok _ else _) = _; rw [dif_pos x.2]; rfl⟩

/-- A node that accepts everything. -/
def kindNode (_ : Request) : Reply := .response 200 ("txid".toList, .null)

/-- C87: the third account of a wallet pays. -/
example : ∃ (parse : Arr 33 → Option Secp.PK) (k : Secp.SK) (t tx : Transaction),
    (STXTokenTransfer.transaction { exTransferBuilder with sender := k } >>= fun t => t.sign k) = .ok t ∧
    Delivers parse "http://n".toList kindNode (StacksRPC.broadcast ⟨"http://n".toList⟩ kindNode t) tx ∧
    (StacksRPC.broadcast ⟨"http://n".toList⟩ kindNode t).result = .ok (.ok "txid".toList) := by
  obtain ⟨parse, hp⟩ := (parser_exists : ∃ parse : Arr 33 → Option Secp.PK, _)
  obtain ⟨_, k, _, h⟩ := C87_transfer parse hp "sound idle panel".toList _ rfl [5, 1] 2 _ rfl
  obtain ⟨t, tx, h1, h2, _⟩ := h { exTransferBuilder with sender := k } ⟨"http://n".toList⟩ kindNode rfl rfl
    ⟨exBody.1, exBody.2.1, ⟨testnetAddr_canonical, (by decide +kernel : (Str.bytes "hello".toList).length ≤ 34)⟩,
      .inl ⟨_, rfl⟩⟩
  obtain ⟨bs, g1, _, _, g4⟩ := id h2
  exact ⟨parse, k, t, tx, h1, h2, g4 200 _ _ rfl (by decide) rfl⟩

end

end Stacks.Rpc

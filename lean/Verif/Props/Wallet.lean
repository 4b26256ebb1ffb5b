import Verif.Spec.Wallet
import Verif.Props.Builder

/-! # Properties C59 - C61: wallets -/

namespace Stacks.Wallet
open Stacks.Spec Stacks.Tx

section
variable [Secp] [Bip]

/-! ## C59 -/

theorem derive_eq (i : UInt32) (x : Bip.XPrv) : StacksAccount.derive i x = derivedAccount x i := by
  unfold StacksAccount.derive derivedAccount
  cases Bip.deriveChild x i <;> rfl

theorem find_insert (m : StacksAccounts) (i j : UInt32) (a : StacksAccount) :
    StacksAccounts.find (StacksAccounts.insert m i a) j = if i = j then some a else StacksAccounts.find m j := by
  unfold StacksAccounts.find StacksAccounts.insert
  rw [List.lookup_cons]
  by_cases h : i = j
  · subst h; simp
  · rw [if_neg h, beq_false_of_ne (Ne.symm h)]
    simp only []
    induction m with
    | nil => rfl
    | cons e m ih =>
      obtain ⟨k, b⟩ := e
      rw [List.filter_cons]
      by_cases hk : k = i
      · subst hk
        simp only [bne_self_eq_false, Bool.false_eq_true, if_false, ih, List.lookup_cons,
          beq_false_of_ne (Ne.symm h)]
      · simp only [bne_iff_ne, ne_eq, hk, not_false_eq_true, if_true, List.lookup_cons]
        rw [ih]

/-- What the cache of a wallet knows: of every index the account last set, or derived. -/
def CacheOf (root : Bip.XPrv) (last : UInt32 → Option StacksAccount) (w : StacksWallet) : Prop :=
  w.ext = root ∧ ∀ i, match w.accounts.find i with
    | some a => (match last i with
      | some b => a = b
      | none => derivedAccount root i = .ok a)
    | none => last i = none

theorem cache_get {root : Bip.XPrv} {last : UInt32 → Option StacksAccount} {w : StacksWallet}
    (h : CacheOf root last w) (i : UInt32) :
    (w.getAccount i).1 = (match last i with | some a => .ok a | none => derivedAccount root i) ∧
    CacheOf root last (w.getAccount i).2 := by
  obtain ⟨h1, h2⟩ := h
  have hi := h2 i
  unfold StacksWallet.getAccount
  cases hf : w.accounts.find i with
  | some a =>
    rw [hf] at hi
    refine ⟨?_, h1, h2⟩
    cases hl : last i with
    | some b => rw [hl] at hi; simp only [] at hi; rw [hi]
    | none => rw [hl] at hi; simp only [] at hi; simp only [hi]
  | none =>
    rw [hf] at hi
    simp only [] at hi
    simp only [hi, derive_eq, h1]
    cases hd : derivedAccount root i with
    | ok a =>
      refine ⟨rfl, h1, fun j => ?_⟩
      simp only [StacksWallet.setAccount, find_insert]
      by_cases hij : i = j
      · subst hij; simp only [if_true, hi, hd]
      · rw [if_neg hij]; exact h2 j
    | err e => exact ⟨rfl, h1, h2⟩
    | panic => exact ⟨rfl, h1, h2⟩

theorem cache_set {root : Bip.XPrv} {last : UInt32 → Option StacksAccount} {w : StacksWallet}
    (h : CacheOf root last w) (i : UInt32) (a : StacksAccount) :
    CacheOf root (fun j => if i = j then some a else last j) (w.setAccount i a) := by
  obtain ⟨h1, h2⟩ := h
  refine ⟨h1, fun j => ?_⟩
  simp only [StacksWallet.setAccount, find_insert]
  by_cases hij : i = j
  · simp only [if_pos hij]
  · simp only [if_neg hij]; exact h2 j

theorem cache_after {root : Bip.XPrv} (ops : List WalletOp) : ∀ {last : UInt32 → Option StacksAccount}
    {w : StacksWallet}, CacheOf root last w → CacheOf root (fun i => lastSet i (last i) ops) (afterCalls w ops) := by
  induction ops with
  | nil => intro last w h; exact h
  | cons op ops ih =>
    intro last w h
    cases op with
    | get i => exact ih (cache_get h i).2
    | set i a => exact ih (cache_set h i a)

/-- **C59** After every history of calls on a fresh wallet, `get_account` returns the account last
set for that index, and otherwise exactly what derivation from the root key gives, success or
error. -/
theorem C59_get_account (root : Bip.XPrv) (history : List WalletOp) (i : UInt32) :
    ((afterCalls ⟨root, []⟩ history).getAccount i).1 = expectedAccount root history i :=
  (cache_get (cache_after (root := root) history (last := fun _ => none) (w := ⟨root, []⟩) ⟨rfl, fun _ => rfl⟩) i).1

/-- **C59** Without `set_account` the cache is invisible. -/
theorem C59_transparent (root : Bip.XPrv) (history : List UInt32) (i : UInt32) :
    ((afterCalls ⟨root, []⟩ (history.map .get)).getAccount i).1 =
      match Bip.deriveChild root i with
      | .ok child => .ok ⟨child, i⟩
      | .error e => .err (.bip32 e) := by
  rw [C59_get_account]
  have : ∀ l : List UInt32, lastSet i none (l.map .get) = none := by
    intro l; induction l with
    | nil => rfl
    | cons x l ih => exact ih
  unfold expectedAccount
  rw [this]; rfl

/-- **C59** Wallets from the same words answer alike, whatever was asked before. -/
theorem C59_from_secret_key (words : Str) (w w' : StacksWallet) (h h' : List UInt32) (i : UInt32)
    (hw : StacksWallet.fromSecretKey words = .ok w) (hw' : StacksWallet.fromSecretKey words = .ok w') :
    ((afterCalls w (h.map .get)).getAccount i).1 = ((afterCalls w' (h'.map .get)).getAccount i).1 := by
  rw [hw] at hw'
  cases hw'
  have he : ∃ root, w = ⟨root, []⟩ := by
    unfold StacksWallet.fromSecretKey at hw
    simp only [Outcome.bind_eq_ok, Outcome.pure_def, Outcome.ok.injEq] at hw
    obtain ⟨_, _, _, _, x, _, rfl⟩ := hw
    exact ⟨x, rfl⟩
  obtain ⟨root, rfl⟩ := he
  rw [C59_transparent, C59_transparent]

/-- **C59** The root key of a wallet: the key at `m/44'/5757'/0'/0` of the seed of the words with
an empty passphrase. Words that are no mnemonic are refused. -/
theorem C59_root_key (words : Str) :
    (∀ w, StacksWallet.fromSecretKey words = .ok w ↔
      ∃ m p x, Bip.parseMnemonic words = .ok m ∧ Bip.parsePath "m/44'/5757'/0'/0".toList = .ok p ∧
        Bip.deriveFromPath (Bip.toSeed m []) p = .ok x ∧ w = ⟨x, []⟩) ∧
    (∀ e, Bip.parseMnemonic words = .error e → StacksWallet.fromSecretKey words = .err (.bip39 e)) ∧
    (∀ m e, Bip.parseMnemonic words = .ok m → Bip.parsePath "m/44'/5757'/0'/0".toList = .error e →
      StacksWallet.fromSecretKey words = .err (.bip32 e)) ∧
    (∀ m p e, Bip.parseMnemonic words = .ok m → Bip.parsePath "m/44'/5757'/0'/0".toList = .ok p →
      Bip.deriveFromPath (Bip.toSeed m []) p = .error e → StacksWallet.fromSecretKey words = .err (.bip32 e)) ∧
    StacksWallet.fromSecretKey words ≠ .panic := by
  unfold StacksWallet.fromSecretKey stxDerivationPath
  refine ⟨fun w => ?_, fun e he => by rw [he]; rfl, fun m e h1 h2 => ?_, fun m p e h1 h2 h3 => ?_, ?_⟩
  rotate_left
  · rw [h1, h2]; rfl
  · rw [h1, h2]
    simp only [ofExcept, Outcome.ok_bind, h3]
    rfl
  rotate_left
  · constructor
    · intro h
      simp only [Outcome.bind_eq_ok, Outcome.pure_def, Outcome.ok.injEq] at h
      obtain ⟨m, h1, p, h2, x, h3, rfl⟩ := h
      refine ⟨m, p, x, ?_, ?_, ?_, rfl⟩
      · revert h1; cases Bip.parseMnemonic words <;> intro h1 <;> cases h1; rfl
      · revert h2; cases Bip.parsePath "m/44'/5757'/0'/0".toList <;> intro h2 <;> cases h2; rfl
      · revert h3; cases Bip.deriveFromPath (Bip.toSeed m []) p <;> intro h3 <;> cases h3; rfl
    · rintro ⟨m, p, x, h1, h2, h3, rfl⟩
      simp only [h1, h2, h3, ofExcept, Outcome.ok_bind, Outcome.pure_def]
  · cases h1 : Bip.parseMnemonic words with
    | error e => exact (by intro h; cases h)
    | ok m =>
      simp only [ofExcept, Outcome.ok_bind]
      cases Bip.parsePath "m/44'/5757'/0'/0".toList with
      | error e => exact (by intro h; cases h)
      | ok p =>
        simp only [Outcome.ok_bind]
        cases Bip.deriveFromPath (Bip.toSeed m []) p with
        | error e => exact (by intro h; cases h)
        | ok x => exact (by intro h; cases h)

variable [Hashes]

/-! ## C60 -/

/-- **C60** An account has an address in each version; it decodes to HASH160 of the account's
public key and that version. -/
theorem C60_get_address (a : StacksAccount) (v : C32.Version) :
    ∃ s, a.getAddress v = .ok s ∧
      C32.c32AddressDecode s = .ok ((hash160Of (Bip.publicBytes a.ext).1).1, versionByte v) ∧
      C32.addressFromStr s = .ok ⟨hash160Of (Bip.publicBytes a.ext).1, versionByte v⟩ := by
  have hv : v.toU8 = versionByte v := by cases v <;> rfl
  obtain ⟨s, hs⟩ := (C32.C10_c32_address_versions (hash160Of (Bip.publicBytes a.ext).1).1 (versionByte v)).1
    (by cases v <;> simp [versionByte])
  refine ⟨s, ?_, C32.C10_c32_address_roundtrip _ _ _ hs, C32.C12_address_from_str_roundtrip _ _ _ hs⟩
  unfold StacksAccount.getAddress
  rw [hv]
  show (C32.c32Address (hash160Of (Bip.publicBytes a.ext).1).1 (versionByte v)).mapErr _ = _
  rw [hs]; rfl

/-- **C60** The addresses of two accounts are equal exactly when the versions and the hashes of the
public keys are. -/
theorem C60_addresses_differ (a b : StacksAccount) (v v' : C32.Version) :
    a.getAddress v = b.getAddress v' ↔
      v = v' ∧ hash160Of (Bip.publicBytes a.ext).1 = hash160Of (Bip.publicBytes b.ext).1 := by
  constructor
  · intro h
    obtain ⟨s, h1, h2, h3⟩ := C60_get_address a v
    obtain ⟨s', h1', h2', h3'⟩ := C60_get_address b v'
    rw [h1, h1'] at h
    cases h
    rw [h3] at h3'
    have e := Outcome.ok.inj h3'
    have e1 := congrArg C32.Address.version e
    have e2 := congrArg C32.Address.hash e
    refine ⟨?_, e2⟩
    revert e1
    cases v <;> cases v' <;> simp [versionByte]
  · rintro ⟨rfl, h⟩
    unfold StacksAccount.getAddress C32.hashP2pkh
    show (C32.c32Address (hash160Of (Bip.publicBytes a.ext).1).1 v.toU8).mapErr _ =
      (C32.c32Address (hash160Of (Bip.publicBytes b.ext).1).1 v.toU8).mapErr _
    rw [h]

/-! ## C61 -/

/-- **C61** A token transfer built and signed with an account's private key verifies, and its
origin's signer is the hash in the account's address; the account's public key is the sender's. -/
theorem C61_account_transfer [Secp.Lawful] [Bip.Lawful] (a : StacksAccount) (b : STXTokenTransfer)
    (k : Secp.SK) (hk : a.privateKey = .ok k) (hs : b.sponsored = false) (hb : b.sender = k)
    (hp : EncodablePayload (.tokenTransfer ⟨b.recipient, b.amount, b.memo⟩))
    (hc : b.postConditions.length < 2 ^ 32 ∧ ∀ c ∈ b.postConditions, EncodableCondition c) (v : C32.Version) :
    ∃ t n s, (b.transaction >>= fun t => t.sign k) = .ok t ∧ t.verifyOrigin = .ok n ∧
      a.getAddress v = .ok s ∧ C32.addressFromStr s = .ok ⟨signerOf t.auth.origin, versionByte v⟩ ∧
      a.publicKey = .ok (Secp.pub k) := by
  obtain ⟨k', h1, h2, h3⟩ := Bip.Lawful.key a.ext
  have : k = k' := by
    unfold StacksAccount.privateKey at hk
    rw [h1] at hk
    exact (Outcome.ok.inj hk).symm
  subst this
  subst hb
  obtain ⟨t, n, h4, h5⟩ := C56_sign_verifies b hs hp hc
  obtain ⟨s, h6, _, h7⟩ := C60_get_address a v
  refine ⟨t, n, s, h4, h5, h6, ?_, ?_⟩
  · obtain ⟨t0, c, g1, _, _, g2, _, g3, _⟩ := C56_token_transfer TxError b hs
    rw [g1, Outcome.ok_bind] at h4
    obtain ⟨_, _, _, e⟩ := (sign_iff _ _ _).1 h4
    have hsig : signerOf t.auth.origin = hash160Of (Bip.publicBytes a.ext).1 := by
      rw [e]
      show signerOf (t0.auth.setOrigin _).origin = _
      rw [origin_setOrigin, g2, ← h2]
      exact g3
    rw [hsig]; exact h7
  · unfold StacksAccount.publicKey
    rw [h3]; rfl

omit [Hashes] in
/-- **C61** Every account has a private key. -/
theorem C61_private_key_exists [Bip.Lawful] (a : StacksAccount) :
    ∃ k, a.privateKey = .ok k ∧ a.publicKey = .ok (Secp.pub k) := by
  obtain ⟨k, h1, _, h3⟩ := Bip.Lawful.key a.ext
  exact ⟨k, by unfold StacksAccount.privateKey; rw [h1]; rfl, by unfold StacksAccount.publicKey; rw [h3]; rfl⟩

omit [Hashes] in
/-- **C61** A wallet's own keys are a pair too. -/
theorem C61_wallet_key_exists [Bip.Lawful] (w : StacksWallet) :
    ∃ k, w.privateKey = .ok k ∧ w.publicKey = .ok (Secp.pub k) := by
  obtain ⟨k, h1, _, h3⟩ := Bip.Lawful.key w.ext
  exact ⟨k, by unfold StacksWallet.privateKey; rw [h1]; rfl, by unfold StacksWallet.publicKey; rw [h3]; rfl⟩

end

/-! ## The hypotheses are satisfiable -/

section
attribute [local instance] Concrete.realHashes Concrete.toySecp
local instance : Secp.Lawful := Concrete.toyLawful

/-- A toy derivation: extended keys are secret keys; the child of index `i` adds `i` to every
byte; index 2³²-1 has no child. -/
@[reducible] def toyBip : Bip where
  XPrv := Arr 32
  Mnemonic := Str
  Path := Str
  Err32 := Unit
  Err39 := Unit
  parseMnemonic s := if s = [] then .error () else .ok s
  toSeed m p := Str.bytes (m ++ p)
  parsePath p := .ok p
  deriveFromPath seed _ := .ok ⟨(seed ++ List.replicate 32 0).take 32, by simp⟩
  deriveChild x i := if i = 0xffffffff then .error () else .ok ⟨x.1.map (· + UInt8.ofNat i.toNat), by rw [List.length_map, x.2]⟩
  privateBytes x := x
  publicBytes x := ⟨2 :: x.1, by simp [x.2]⟩
  skFromSlice bs := if h : bs.length = 32 then .ok ⟨bs, h⟩ else .error false
  pkFromSlice bs := if h : (bs.drop 1).length = 32 then .ok ⟨bs.drop 1, h⟩ else .error false

attribute [local instance] toyBip

local instance toyBipLawful : Bip.Lawful where
  key x := ⟨x, by show (if h : x.1.length = 32 then Except.ok _ else _) = _; rw [dif_pos x.2]; rfl, rfl,
    by show (if h : (x.1).length = 32 then Except.ok _ else _) = _; rw [dif_pos x.2]; rfl⟩

/-- C59: a derived account, one that is set, and an index without a child. -/
example (a : StacksAccount) :
    ((afterCalls ⟨exKey 1, []⟩ [.get 1, .set 2 a, .get 2, .get 5]).getAccount 1).1 = .ok ⟨exKey 2, 1⟩ ∧
    ((afterCalls ⟨exKey 1, []⟩ [.get 1, .set 2 a, .get 2, .get 5]).getAccount 2).1 = .ok a ∧
    ((afterCalls ⟨exKey 1, []⟩ [.get 1, .set 2 a]).getAccount 0xffffffff).1 = .err (.bip32 ()) := by
  refine ⟨?_, ?_, ?_⟩ <;> rw [C59_get_account] <;> rfl
example : ∃ w, StacksWallet.fromSecretKey "sound idle panel".toList = .ok w := ⟨_, rfl⟩

/-- C60. -/
example : C32.Version.mainnetP2PKH ≠ C32.Version.testnetP2PKH := by decide

/-- C61. -/
example : ∃ t n s, (exTransferBuilder.transaction >>= fun t => t.sign (exKey 1)) = .ok t ∧ t.verifyOrigin = .ok n ∧
    StacksAccount.getAddress ⟨exKey 1, 0⟩ .testnetP2PKH = .ok s ∧
    C32.addressFromStr s = .ok ⟨signerOf t.auth.origin, 26⟩ := by
  obtain ⟨k, hk, _⟩ := C61_private_key_exists ⟨exKey 1, 0⟩
  have hk1 : k = exKey 1 := by
    have : (StacksAccount.privateKey ⟨exKey 1, 0⟩) = .ok (exKey 1) := rfl
    rw [this] at hk; exact (Outcome.ok.inj hk).symm
  subst hk1
  obtain ⟨t, n, s, h1, h2, h3, h4, _⟩ := C61_account_transfer ⟨exKey 1, 0⟩ exTransferBuilder (exKey 1) hk rfl rfl
    ⟨(wf_encodable_tx _ exTx_wf).2.2.2.1, by decide +kernel⟩ ⟨exTx_wf.2.1, (wf_encodable_tx _ exTx_wf).2.2.1⟩
    .testnetP2PKH
  exact ⟨t, n, s, h1, h2, h3, h4⟩

end

end Stacks.Wallet

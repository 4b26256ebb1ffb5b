import Verif.Spec.Panics
import Verif.Proofs.CutShort
import Verif.Proofs.Address
import Verif.Props.B58
import Verif.Props.Clarity
import Verif.Props.ClarityValue
import Verif.Props.Condition
import Verif.Props.Verify
import Verif.Props.TransactionErrors
import Verif.Props.Rpc

/-! # When the calls panic -/

namespace Stacks.C32
open Stacks.Spec

variable [Hashes]

theorem checkDecode_panic_iff (s : Str) : c32checkDecode s = .panic ↔ s = [] := by
  constructor
  · intro h; by_contra hs; exact c32checkDecode_not_panic hs h
  · rintro rfl; rfl

theorem checkEncode_panic_iff (b : Bytes) (v : UInt8) : c32checkEncode b v = .panic ↔ 32 ≤ v := by
  constructor
  · intro h
    by_contra hv
    obtain ⟨e, _, he⟩ := c32checkEncode_eq b (version := v) (by rw [UInt8.le_iff_toNat_le] at hv; exact Nat.lt_of_not_le hv)
    rw [he] at h; cases h
  · exact C08_c32check_encode_panics b v

theorem address_panic (b : Bytes) (v : UInt8) : c32Address b v ≠ .panic := by
  by_cases h : v = 20 ∨ v = 21 ∨ v = 22 ∨ v = 26
  · obtain ⟨s, hs⟩ := (C10_c32_address_versions b v).1 h
    rw [hs]; simp
  · rw [(C10_c32_address_versions b v).2 h]; simp

theorem hash_panic_iff [Secp] {ε : Type} (m : UInt8) (ks : List Secp.PK) :
    ((hashP2sh m ks : Outcome ε (Arr 20)) = .panic ↔ 175 < m.toNat ∨ 175 < ks.length % 256) ∧
    ((hashP2wsh m ks : Outcome ε (Arr 20)) = .panic ↔ 175 < m.toNat ∨ 175 < ks.length % 256) := by
  by_cases h : 175 < m.toNat ∨ 175 < ks.length % 256
  · obtain ⟨h1, h2⟩ := C20_hash_multisig_panics (ε := ε) m ks h
    exact ⟨iff_of_true h1 h, iff_of_true h2 h⟩
  · have hs : ∃ b, (multisigScript m ks : Outcome ε Bytes) = .ok b := by
      unfold multisigScript addU8
      rw [if_pos (by show m.toNat + 80 < 256; omega), Outcome.ok_bind]
      simp only []
      rw [if_pos]
      · exact ⟨_, rfl⟩
      · rw [UInt8.toNat_ofNat']
        show ks.length % 256 + 80 < 256
        omega
    obtain ⟨b, hb⟩ := hs
    unfold hashP2sh hashP2wsh
    rw [hb]
    exact ⟨iff_of_false (by rw [Outcome.ok_bind]; nofun) h, iff_of_false (by rw [Outcome.ok_bind]; nofun) h⟩

end Stacks.C32

namespace Stacks.B58
open Stacks.Spec

/-- Every character is a digit, or there is a first one that is not. -/
theorem first_bad (s : Str) : (∀ c ∈ s, c ∈ b58Alphabet) ∨
    ∃ l c r, s = l ++ c :: r ∧ (∀ x ∈ l, x ∈ b58Alphabet) ∧ c ∉ b58Alphabet := by
  induction s with
  | nil => exact .inl (by simp)
  | cons c s ih =>
    by_cases hc : c ∈ b58Alphabet
    · rcases ih with ih | ⟨l, d, r, rfl, hl, hd⟩
      · exact .inl (by simpa [hc] using ih)
      · exact .inr ⟨c :: l, d, r, rfl, by simpa [hc] using hl, hd⟩
    · exact .inr ⟨[], c, s, rfl, by simp, hc⟩

theorem decode_panic_iff (s : Str) : b58Decode s = .panic ↔ BeyondB58 s := by
  constructor
  · intro h
    rcases first_bad s with ha | ⟨l, c, r, rfl, hl, hc⟩
    · obtain ⟨bs, hb, _⟩ := C15_b58_decode_value s ha
      rw [hb] at h; cases h
    · refine ⟨l, c, r, rfl, hl, hc, ?_⟩
      by_contra hn
      rw [(C15_b58_decode_bad l c r hl hc).1 (by omega)] at h; cases h
  · rintro ⟨l, c, r, rfl, hl, hc, h⟩
    exact (C15_b58_decode_bad l c r hl hc).2 h

theorem decode_spells {s : Str} {bs : Bytes} : b58Decode s = .ok bs ↔ SpellsB58 s bs := by
  constructor
  · intro h
    rcases first_bad s with ha | ⟨l, c, r, rfl, hl, hc⟩
    · obtain ⟨bs', hb, hv⟩ := C15_b58_decode_value s ha
      rw [hb] at h; cases h
      exact ⟨ha, hv⟩
    · by_cases hn : c.toNat < 0x100
      · rw [(C15_b58_decode_bad l c r hl hc).1 hn] at h; cases h
      · rw [(C15_b58_decode_bad l c r hl hc).2 (by omega)] at h; cases h
  · rintro ⟨ha, hv⟩
    obtain ⟨bs', hb, hv'⟩ := C15_b58_decode_value s ha
    rw [hb]
    congr 1
    have hinj : Function.Injective (List.map UInt8.toNat) :=
      List.map_injective_iff.2 (fun a b h => UInt8.toNat_inj.1 h)
    exact hinj (hv'.trans hv.symm)

variable [Hashes]

theorem check_panic_iff (s : Str) :
    base58checkDecode s = .panic ↔ BeyondB58 s ∨ ∃ bs, SpellsB58 s bs ∧ bs.length < 5 := by
  rw [C17_base58check_decode_panics, decode_panic_iff]
  simp only [decode_spells]

theorem checkEncode_total (b : Bytes) (v : UInt8) : base58checkEncode b v ≠ .panic := by
  unfold base58checkEncode
  simp only []
  have : ∃ c, (slice (dsha256Hash ([v] ++ b)).1 0 4 : Outcome Error Bytes) = .ok c := by
    unfold slice
    rw [if_pos ⟨by omega, by rw [(dsha256Hash ([v] ++ b)).2]; omega⟩]
    exact ⟨_, rfl⟩
  obtain ⟨c, hc⟩ := this
  rw [hc, Outcome.ok_bind]
  obtain ⟨s, hs⟩ := C13_b58_encode_total ([v] ++ b ++ c)
  rw [hs]; simp

end Stacks.B58

namespace Stacks
open Stacks.Spec

theorem copy_panic_iff {ε : Type} (n : Nat) (b : Bytes) :
    (copyFromSlice n b : Outcome ε (Arr n)) = .panic ↔ b.length ≠ n := by
  unfold copyFromSlice
  split
  · rename_i h; exact iff_of_false (by simp) (by simp [h])
  · rename_i h; exact iff_of_true rfl h

theorem hexToBytes_panic (s : Str) : Hex.hexToBytes s ≠ .panic := by
  unfold Hex.hexToBytes
  split
  · simp
  · generalize s.bytes = b
    induction b using Hex.decodeLoop.induct
    case case6 _ _ rest _ ha _ hb ih =>
      rw [Hex.decodeLoop, ha, hb]
      simp only []
      cases h : Hex.decodeLoop rest with
      | panic => exact absurd h ih
      | ok _ => simp
      | err _ => simp
    all_goals simp_all [Hex.decodeLoop]

theorem ok_panic_iff {ε α β : Type} (x : Outcome ε α) (f : α → β) :
    (x >>= fun a => .ok (f a)) = .panic ↔ x = .panic := by
  cases x <;> simp

theorem mapErr_panic_iff {ε ε' α : Type} (x : Outcome ε α) (f : ε → ε') : x.mapErr f = .panic ↔ x = .panic := by
  cases x <;> simp

end Stacks

namespace Stacks.Clarity
open Stacks.Spec

variable [Hashes]

theorem kind_nil {k : Kind} {i : UInt8} (h : identifierOf k = some i) : decodeKind k [] = .panic := by
  cases k <;> cases h <;> rfl

theorem kind_own {k : Kind} {t : UInt8} (r : Bytes) (h : identifierOf k = some t) :
    decodeKind k (t :: r) = .panic ↔ CutShort (t :: r) := by
  obtain ⟨a0, a1, a2, a3, a4, a5, a6, a7, a8, a9, aa, ab, ac, ad, ae⟩ := C27_typed_decoders_agree r
  rw [← decode_panic_iff]
  cases k <;> cases h <;> unfold decodeKind <;> simp only [ok_panic_iff, *]

theorem kind_other {k : Kind} {i t : UInt8} (r : Bytes) (h : identifierOf k = some i) (hne : t ≠ i)
    (hu : k ≠ .strUtf8) : decodeKind k (t :: r) ≠ .panic := by
  obtain ⟨a0, a1, a2, a3, a4, a5, a6, a7, a8, a9, aa, ab, ac, ad⟩ := C27_typed_decoders_check_identifier t r
  cases k <;> cases h <;> unfold decodeKind <;>
    first | exact absurd rfl hu | (simp only [hne, ne_eq, not_false_iff, true_imp_iff] at *; simp only [*]; simp)

omit [Hashes] in
theorem strUtf8_any (t : UInt8) (r : Bytes) : strUtf8Decode (t :: r) = strUtf8Decode (0x0e :: r) := by
  have h : ∀ (t : UInt8) (n : Nat), ((t :: r).take (5 + n)).drop 5 = (r.take (4 + n)).drop 4 := by
    intro t n
    rw [show 5 + n = (4 + n) + 1 by omega, List.take_succ_cons]; rfl
  unfold strUtf8Decode stringBody readLen slice
  simp only [List.length_cons, h]
  rfl

end Stacks.Clarity

namespace Stacks.Tx
open Stacks.Spec
open Stacks.Clarity (CV)

section
variable [Secp]

theorem fromSlice_panic (b : Bytes) : messageSigFromSlice b ≠ .panic := by
  unfold messageSigFromSlice
  split
  · simp
  · rename_i h
    exact fun hp => (copy_panic_iff 65 b).1 hp (not_not.1 h)

theorem fromRecov_panic (r : Secp.RSig) : messageSigFromRecov r ≠ .panic := fromSlice_panic _

theorem signatures_panic_iff (c : Spending) :
    (c.signatures : Outcome Unit UInt16) = .panic ↔ 65536 ≤ signatureCount c := by
  cases c with
  | single c =>
    refine iff_of_false (by unfold Spending.signatures; simp) ?_
    show ¬ 65536 ≤ (if c.signature = noSignature then 0 else 1)
    split <;> omega
  | multi c =>
    show countSignatures c.fields 0 = .panic ↔ 65536 ≤ c.fields.countP isSignature
    by_cases h : 65536 ≤ c.fields.countP isSignature
    · exact iff_of_true (countSignatures_panic _ 0 (by simpa using h)) h
    · refine iff_of_false ?_ h
      rw [countSignatures_ok _ 0 (by simp; omega)]; simp

theorem modify_panic (c : Spending) (m : Modification) : c.modify m ≠ .panic := by
  cases c with
  | single c => cases m <;> simp [Spending.modify, SingleSig.modify]
  | multi c => cases m <;> simp [Spending.modify, MultiSig.modify]

variable [Hashes]

theorem nextSignature_panic (h : Arr 32) (typ : UInt8) (fee nonce : UInt64) (k : Secp.SK) :
    nextSignature h typ fee nonce k ≠ .panic := by
  unfold nextSignature
  simp only []
  rcases hr : messageSigFromRecov (Secp.sign (makePresignHash h typ fee nonce) k) with s | e | _
  · simp
  · simp
  · exact absurd hr (fromRecov_panic _)

theorem single_new_panic_iff (k : Secp.PK) (fee nonce : UInt64) (mode : C32.Mode) :
    (SingleSig.new k fee nonce mode : Outcome Unit SingleSig) = .panic ↔ mode = .p2sh ∨ mode = .p2wsh := by
  rw [C75_single_new_exact]
  cases mode <;> simp [keySigner]

theorem multi_new_panic_iff (ks : List Secp.PK) (fee nonce : UInt64) (m : UInt8) (mode : C32.Mode) :
    (MultiSig.new ks fee nonce m mode : Outcome Unit MultiSig) = .panic ↔
      (mode = .p2pkh ∨ mode = .p2wpkh) ∨ 175 < m.toNat ∨ 175 < ks.length % 256 := by
  rw [C75_multi_new_exact]
  cases mode <;> simp [scriptSigner] <;> omega

theorem verifyOrigin_panic_iff (t : Transaction) : t.verifyOrigin = .panic ↔
    EncodableBody t ∧ SpendingVerdict (Hashes.sha512_256 (signingPreimage t)) 4 (originOf t.auth) .panic := by
  rw [origin_verdict_iff, ← origin_eq]
  constructor
  · intro h
    cases h with
    | origin h1 h2 => exact ⟨h1, h2⟩
  · rintro ⟨h1, h2⟩; exact .origin h1 h2

theorem newSponsor_panic_iff (t : Transaction) (c : Spending) : Signer.newSponsor t c = .panic ↔
    ∃ o p, t.auth = .sponsored o p ∧ EncodableBody t ∧
      SpendingVerdict (Hashes.sha512_256 (signingPreimage t)) 4 o .panic := by
  cases ha : t.auth with
  | standard o =>
    rw [(C75_new_sponsor_exact t c).1 o ha]
    simp
  | sponsored o p =>
    have hv := verifyOrigin_panic_iff t
    rw [ha] at hv
    have hs := C53_origin_independent_of_sponsor t o p c ha
    obtain ⟨h1, h2, h3⟩ := (C75_new_sponsor_exact t c).2 o p ha
    constructor
    · intro h
      refine ⟨o, p, rfl, hv.1 ?_⟩
      rw [← hs]
      rcases hx : Transaction.verifyOrigin { t with auth := .sponsored o c } with n | e | _
      · rw [h1 n ((origin_verdict_iff _ _).1 hx)] at h; cases h
      · rw [h2 e ((origin_verdict_iff _ _).1 hx)] at h; cases h
      · rfl
    · rintro ⟨o', p', he, hb⟩
      cases he
      exact h3 ((origin_verdict_iff _ _).1 (hs.trans (hv.2 hb)))

theorem sign_panic_iff (t : Transaction) (k : Secp.SK) :
    t.sign k = .panic ↔ EncodableBody t ∧ 65536 ≤ signatureCount (originOf t.auth) := by
  by_cases hb : EncodableBody t
  · rw [(C75_sign_exact t k).2 hb]
    by_cases h : 65536 ≤ signatureCount (originOf t.auth)
    · rw [if_pos h]; simp [hb, h]
    · rw [if_neg h]
      refine iff_of_false ?_ (fun x => h x.2)
      split
      · simp
      · split <;> simp
  · obtain ⟨e, he⟩ := bodyFails_exists hb
    rw [(C75_sign_exact t k).1 e he]
    simp [hb]

theorem newSigner_panic (t : Transaction) : Signer.new t ≠ .panic := by
  by_cases hb : EncodableBody t
  · rw [(C75_new_signer_exact t).2 hb]; simp
  · obtain ⟨e, he⟩ := bodyFails_exists hb
    rw [(C75_new_signer_exact t).1 e he]; simp

theorem signOrigin_panic_iff (s : Signer) (k : Secp.SK) : s.signOrigin k = .panic ↔
    ¬ (s.verifyOverlap = true ∧ s.originSigned = true) ∧ s.verifyOversign = true ∧
      65536 ≤ signatureCount (originOf s.tx.auth) := by
  rw [C75_sign_origin_exact]
  by_cases h1 : s.verifyOverlap = true ∧ s.originSigned = true
  · rw [if_pos h1]; exact iff_of_false (by simp) (fun h => h.1 h1)
  rw [if_neg h1]
  by_cases h2 : s.verifyOversign = true ∧ 65536 ≤ signatureCount (originOf s.tx.auth)
  · rw [if_pos h2]; exact iff_of_true rfl ⟨h1, h2⟩
  rw [if_neg h2]
  refine iff_of_false ?_ (fun h => h2 h.2)
  split
  · simp
  · split <;> simp

theorem signSponsor_panic_iff (s : Signer) (k : Secp.SK) : s.signSponsor k = .panic ↔
    ∃ o c, s.tx.auth = .sponsored o c ∧ s.verifyOversign = true ∧ 65536 ≤ signatureCount c := by
  rw [C75_sign_sponsor_exact]
  cases ha : s.tx.auth with
  | standard o => simp
  | sponsored o c =>
    simp only []
    by_cases h2 : s.verifyOversign = true ∧ 65536 ≤ signatureCount c
    · rw [if_pos h2]; exact iff_of_true rfl ⟨o, c, rfl, h2⟩
    rw [if_neg h2]
    refine iff_of_false ?_ (by rintro ⟨o', c', h, h'⟩; cases h; exact h2 h')
    split
    · simp
    · split <;> simp

omit [Hashes] in
theorem appendOrigin_panic (s : Signer) (k : Secp.PK) : s.appendOrigin k ≠ .panic := by
  rw [C75_append_origin_exact]
  split
  · simp
  · cases originOf s.tx.auth with
    | single c => simp
    | multi c => simp only []; split <;> simp

theorem transfer_build_panic_iff (b : STXTokenTransfer) :
    (b.transaction : Outcome Unit Transaction) = .panic ↔ b.sponsored = true := by
  unfold STXTokenTransfer.transaction
  simp only []
  rw [C75_single_new_exact]
  simp only [keySigner, Outcome.ok_bind]
  cases b.sponsored <;> simp

theorem call_build_panic_iff (b : STXContractCall) : b.transaction = .panic ↔
    ∃ p, SpellsAddress b.address p ∧ (b.sponsored = true ∨ p.length ≠ 20) := by
  unfold STXContractCall.transaction
  simp only []
  rcases ha : C32.addressFromStr b.address with a | e | _
  · obtain ⟨p, hp, hl⟩ := (C32.fromStr_ok_iff b.address).1 ⟨a, ha⟩
    rw [Outcome.mapErr_ok, Outcome.ok_bind, C75_single_new_exact]
    simp only [keySigner, Outcome.ok_bind]
    cases hs : b.sponsored with
    | true => simpa using ⟨p, hp⟩
    | false =>
      refine iff_of_false (by simp) ?_
      rintro ⟨q, hq, h | h⟩
      · cases h
      · rw [(C32.fromStr_panic_iff b.address).2 ⟨q, hq, h⟩] at ha; cases ha
  · refine iff_of_false (by simp) ?_
    rintro ⟨p, hp, _⟩
    by_cases hl : p.length = 20
    · obtain ⟨a, h⟩ := (C32.fromStr_ok_iff b.address).2 ⟨p, hp, hl⟩
      rw [ha] at h; cases h
    · rw [(C32.fromStr_panic_iff b.address).2 ⟨p, hp, hl⟩] at ha; cases ha
  · obtain ⟨p, hp, hl⟩ := (C32.fromStr_panic_iff b.address).1 ha
    exact iff_of_true rfl ⟨p, hp, .inr hl⟩

omit [Secp] in
theorem asset_panic (a : AssetInfo) : a.encode ≠ .panic := by
  by_cases h : EncodableAsset a
  · rw [asset_encode_ok a h]; simp
  · obtain ⟨e, he, _⟩ := asset_encode_err a h
    rw [he]; simp

end

end Stacks.Tx

namespace Stacks.Rpc
open Stacks.Tx
open Stacks.Clarity (CV)

theorem ofExcept_panic {ε ε' α : Type} (f : ε → ε') (x : Except ε α) : ofExcept f x ≠ .panic := by
  cases x <;> simp [ofExcept]

variable [Http]

theorem intoString_panic (b : Http.Body) : intoString b ≠ .panic := ofExcept_panic _ _

theorem get_panic {α : Type} (f : J → Option α) (r : Reply) :
    (ofExcept Error.ureq (ureqResult r) >>= fun body => intoJson f body) ≠ .panic := by
  cases ureqResult r with
  | error e => simp [ofExcept]
  | ok b => exact intoJson_no_panic f b

variable [Hashes]

theorem hexAll_panic (args : List CV) : hexAll args ≠ .panic := by
  induction args with
  | nil => simp [hexAll]
  | cons a as ih =>
    unfold hexAll CV.hex
    cases h : a.encode with
    | panic => exact absurd h (Clarity.encode_not_panic a)
    | err e => simp
    | ok b =>
      simp only [Outcome.ok_bind, Outcome.pure_def, Outcome.mapErr_ok]
      cases h : hexAll as with
      | panic => exact absurd h ih
      | ok _ => simp
      | err _ => simp

variable [Secp]

theorem estimateFee_panic (r : StacksRPC) (server : Request → Reply) (t : Transaction) :
    (r.estimateFee server t).result ≠ .panic := by
  unfold StacksRPC.estimateFee
  split
  · simp
  · rename_i h
    unfold feeRequest at h
    rcases hp : t.payload.encode with b | e | _
    · rcases he : t.encode with c | e | _
      · rw [hp, he] at h; simp at h
      · rw [hp, he] at h; simp at h
      · exact absurd he (transaction_encode_no_panic t)
    · rw [hp] at h; simp at h
    · exact absurd hp (payload_encode_ne_panic _)
  · simp only []
    split
    · exact fun h => intoJson_no_panic FeeOk.fromJson _ ((ok_panic_iff _ _).1 h)
    · exact fun h => intoString_panic _ ((ok_panic_iff _ _).1 h)
    · simp

theorem broadcast_panic (r : StacksRPC) (server : Request → Reply) (t : Transaction) :
    (r.broadcast server t).result ≠ .panic := by
  unfold StacksRPC.broadcast
  split
  · simp
  · rename_i h
    exact absurd ((mapErr_panic_iff _ _).1 h) (transaction_encode_no_panic t)
  · simp only []
    split
    · exact fun h => intoString_panic _ ((ok_panic_iff _ _).1 h)
    · exact fun h => intoJson_no_panic BroadcastErr.fromJson _ ((ok_panic_iff _ _).1 h)
    · simp

omit [Secp] in
theorem readOnly_panic (r : StacksRPC) (server : Request → Reply) (a c f : Str) (args : List CV) (sender : Str) :
    (r.readOnly server a c f args sender).result ≠ .panic := by
  unfold StacksRPC.readOnly
  split
  · simp
  · rename_i h; exact absurd h (hexAll_panic args)
  · exact get_panic _ _

end Stacks.Rpc

namespace Stacks.Wallet
open Stacks.Rpc (ofExcept_panic)

variable [Secp] [Bip]

theorem derive_panic (i : UInt32) (x : Bip.XPrv) : StacksAccount.derive i x ≠ .panic :=
  fun h => ofExcept_panic Error.bip32 (Bip.deriveChild x i) ((ok_panic_iff _ _).1 h)

theorem getAccount_panic (w : StacksWallet) (i : UInt32) : (w.getAccount i).1 ≠ .panic := by
  unfold StacksWallet.getAccount
  split
  · simp
  · have := derive_panic i w.ext
    cases h : StacksAccount.derive i w.ext with
    | ok a => simp
    | err e => simp
    | panic => exact absurd h this

theorem fromSecretKey_panic (s : Str) : StacksWallet.fromSecretKey s ≠ .panic := by
  unfold StacksWallet.fromSecretKey
  cases Bip.parseMnemonic s with
  | error e => simp [ofExcept]
  | ok m =>
    simp only [ofExcept, Outcome.ok_bind]
    cases Bip.parsePath stxDerivationPath with
    | error e => simp
    | ok p =>
      simp only [Outcome.ok_bind]
      cases Bip.deriveFromPath (Bip.toSeed m []) p <;> simp

theorem getAddress_panic [Hashes] (a : StacksAccount) (v : C32.Version) : a.getAddress v ≠ .panic := by
  unfold StacksAccount.getAddress
  simp only []
  intro h
  exact C32.address_panic _ _ ((mapErr_panic_iff _ _).1 h)

end Stacks.Wallet

namespace Stacks
open Stacks.Spec Stacks.Clarity

theorem checksum_panic (h : Arr 32) : (HashValue.checksum h : Outcome Unit (Arr 4)) ≠ .panic := by
  unfold HashValue.checksum slice copyFromSlice
  rw [if_pos ⟨by omega, by rw [h.2]; omega⟩, Outcome.ok_bind, dif_pos (by simp [h.2])]
  simp

theorem hexPrefixed_panic [Hashes] (v : CV) : v.hexPrefixed ≠ .panic := by
  unfold CV.hexPrefixed CV.hex
  cases h : v.encode with
  | panic => exact absurd h (encode_not_panic v)
  | ok b => simp
  | err e => simp

theorem cast_panic (k : Kind) (v : CV) : v.cast k ≠ .panic := by
  rcases C32_cast_cases k v with ⟨_, _, h, _⟩ | ⟨_, h⟩ <;> (rw [h]; nofun)

theorem decodeAs_iff [Secp] [Hashes] [Bip] [Rpc.Http] (k : Kind) (b : Bytes) :
    decodeKind k b = .panic ↔ PanicsOn (.decodeAs k b) := by
  constructor
  · intro h
    cases hi : identifierOf k with
    | none =>
      cases k <;> try cases hi
      · exact .name ((Tx.lps_panic_iff b).1 ((ok_panic_iff _ _).1 h))
      · exact .arguments ((Tx.fnArgs_panic_iff b).1 ((ok_panic_iff _ _).1 h))
    | some i =>
      rcases b with _ | ⟨t, r⟩
      · exact .noValue hi
      · by_cases hk : k = .strUtf8
        · subst hk
          cases hi
          have h' : strUtf8Decode (t :: r) = .panic := (ok_panic_iff _ _).1 h
          rw [strUtf8_any] at h'
          exact .utf8 ((kind_own (k := .strUtf8) r rfl).1 ((ok_panic_iff _ _).2 h'))
        · by_cases ht : t = i
          · subst ht; exact .typed hi ((kind_own r hi).1 h)
          · exact absurd h (kind_other r hi ht hk)
  · intro h
    cases h with
    | noValue hi => exact kind_nil hi
    | typed hi hc => exact (kind_own _ hi).2 hc
    | utf8 hc =>
      refine (ok_panic_iff _ _).2 ?_
      rw [strUtf8_any]
      exact (ok_panic_iff _ _).1 ((kind_own (k := .strUtf8) _ rfl).2 hc)
    | name hc => exact (ok_panic_iff _ _).2 ((Tx.lps_panic_iff b).2 hc)
    | arguments hc => exact (ok_panic_iff _ _).2 ((Tx.fnArgs_panic_iff b).2 hc)

end Stacks

import Verif.Proofs.FailuresTx
import Verif.Props.Rpc

/-! # When the client and the wallet report errors -/

namespace Stacks.Rpc
open Stacks.Spec Stacks.Tx
open Stacks.Clarity (CV)

section
variable [Http]

theorem intoString_err_iff (b : Http.Body) (e : Error) :
    intoString b = .err e ↔ ∃ x, Http.intoString b = .error x ∧ e = .io x := ofExcept_err_iff _ _ _

theorem intoJson_err_iff {α : Type} (f : J → Option α) (P : J → α → Prop) (hf : ∀ j a, f j = some a ↔ P j a)
    (b : Http.Body) (e : Error) : intoJson f b = .err e ↔ ∃ x, Unreadable P b x ∧ e = .io x := by
  unfold intoJson Unreadable
  cases hp : Http.parseJson b with
  | error x =>
    constructor
    · intro h; cases h; exact ⟨x, .inl rfl, rfl⟩
    · rintro ⟨y, h | ⟨j, h, _⟩, rfl⟩
      · cases h; rfl
      · cases h
  | ok j =>
    simp only []
    cases ha : f j with
    | some a =>
      refine iff_of_false (by simp [Outcome.ofOption]) ?_
      rintro ⟨y, h | ⟨j', h, hn, _⟩, _⟩
      · cases h
      · cases h; exact hn a ((hf _ _).1 ha)
    | none =>
      constructor
      · intro h; cases h
        exact ⟨_, .inr ⟨j, rfl, (fun a h => by rw [← hf, ha] at h; cases h), rfl⟩, rfl⟩
      · rintro ⟨y, h | ⟨j', h, _, rfl⟩, rfl⟩
        · cases h
        · rfl

theorem question_err_iff {α : Type} (f : J → Option α) (P : J → α → Prop) (hf : ∀ j a, f j = some a ↔ P j a)
    (reply : Reply) (e : Error) :
    (ofExcept Error.ureq (ureqResult reply) >>= fun body => intoJson f body) = .err e ↔ AnswerFails P reply e := by
  cases reply with
  | transport x =>
    constructor
    · intro h; cases h; exact .transport
    · intro h; cases h; rfl
  | response code body =>
    by_cases hc : code < 400
    · have h' : ureqResult (.response code body) = .ok body := if_neg (by omega)
      rw [h', show ofExcept Error.ureq (.ok body : Except UreqError Http.Body) = .ok body from rfl, Outcome.ok_bind,
        intoJson_err_iff f P hf]
      constructor
      · rintro ⟨x, h, rfl⟩; exact .body hc h
      · intro h
        cases h with
        | status h => omega
        | body _ h => exact ⟨_, h, rfl⟩
    · have h' : ureqResult (.response code body) = .error (.status code body) := if_pos (by omega)
      rw [h']
      constructor
      · intro h; cases h; exact .status (by omega)
      · intro h
        cases h with
        | status h => rfl
        | body h _ => omega

section
variable [Hashes]

theorem hexAll_err_iff (args : List CV) (e : Error) : hexAll args = .err e ↔
    ∃ pre v post x, args = pre ++ v :: post ∧ (∀ p ∈ pre, Spec.Encodable p) ∧ EncodeFails v x ∧ e = .clarity x := by
  induction args with
  | nil => simp [hexAll]
  | cons a as ih =>
    unfold hexAll
    rcases ha : a.hex with h | x | _
    · rw [Outcome.mapErr_ok, Outcome.ok_bind]
      have hen : Spec.Encodable a := by
        by_contra hn
        obtain ⟨x, hx⟩ := encodeFails_exists a hn
        rw [← Clarity.hex_err_iff, ha] at hx; cases hx
      refine (ok_err_iff _ _ _).trans (ih.trans ?_)
      constructor
      · rintro ⟨pre, v, post, x, rfl, hp, hv, rfl⟩
        exact ⟨a :: pre, v, post, x, rfl, List.forall_mem_cons.2 ⟨hen, hp⟩, hv, rfl⟩
      · rintro ⟨pre, v, post, x, he, hp, hv, rfl⟩
        rcases pre with _ | ⟨q, pre⟩
        · obtain ⟨rfl, _⟩ := List.cons.inj he
          rw [← Clarity.hex_err_iff, ha] at hv; cases hv
        · obtain ⟨rfl, rfl⟩ := List.cons.inj he
          exact ⟨pre, v, post, x, rfl, fun p h => hp p (List.mem_cons_of_mem _ h), hv, rfl⟩
    · have hx := (Clarity.hex_err_iff a x).1 ha
      constructor
      · intro h; cases h
        exact ⟨[], a, as, x, rfl, by simp, hx, rfl⟩
      · rintro ⟨pre, v, post, y, he, hp, hv, rfl⟩
        rcases pre with _ | ⟨q, pre⟩
        · obtain ⟨rfl, _⟩ := List.cons.inj he
          rw [← Clarity.hex_err_iff, ha] at hv; cases hv; rfl
        · obtain ⟨rfl, _⟩ := List.cons.inj he
          have := Clarity.encode_ok a (hp a List.mem_cons_self)
          rw [(Clarity.C70_encode_error_exact a x).2 hx] at this; cases this
    · exact absurd ((ok_panic_iff _ _).1 ha) (Clarity.encode_not_panic a)

theorem readOnly_err_iff (r : StacksRPC) (server : Request → Reply) (a c f : Str) (args : List CV) (sender : Str)
    (e : Error) : (r.readOnly server a c f args sender).result = .err e ↔
    (∃ pre v post x, args = pre ++ v :: post ∧ (∀ p ∈ pre, Spec.Encodable p) ∧ EncodeFails v x ∧ e = .clarity x) ∨
    ((∀ p ∈ args, Spec.Encodable p) ∧ AnswerFails IsReadOnly (server (readOnlyRequest r.url a c f sender
        (args.map fun p => hexText (sip005 p)))) e) := by
  simp only [← Hex.bytesToHex_eq]
  by_cases hb : ∀ p ∈ args, Spec.Encodable p
  · have hr : (r.readOnly server a c f args sender).result =
        (ofExcept Error.ureq (ureqResult (server (readOnlyRequest r.url a c f sender
          (args.map fun p => Hex.bytesToHex (sip005 p))))) >>= fun body =>
          intoJson ReadOnlyResponse.fromJson body) := by
      unfold StacksRPC.readOnly
      rw [hexAll_ok args hb]; rfl
    have hn : ¬ ∃ pre v post x, args = pre ++ v :: post ∧ (∀ p ∈ pre, Spec.Encodable p) ∧ EncodeFails v x ∧
        e = .clarity x := by
      rw [← hexAll_err_iff, hexAll_ok args hb]; simp
    rw [hr, question_err_iff _ IsReadOnly (fun j x => by rw [readOnly_iff]; cases x <;> rfl)]
    exact ⟨fun h => .inr ⟨hb, h⟩, fun h => h.elim (fun h => absurd h hn) (fun h => h.2)⟩
  · rw [← hexAll_err_iff]
    have : (r.readOnly server a c f args sender).result = .err e ↔ hexAll args = .err e := by
      unfold StacksRPC.readOnly
      obtain ⟨x, hx⟩ := hexAll_err args hb
      rw [hx]; simp
    rw [this]
    exact ⟨.inl, fun h => h.elim id (fun h => absurd h.1 hb)⟩

variable [Secp]

theorem fee_err_iff (r : StacksRPC) (server : Request → Reply) (t : Transaction) (e : Error) :
    (r.estimateFee server t).result = .err e ↔
    (∃ x, PayloadFails t.payload x ∧ e = .clarity x) ∨
    (EncodablePayload t.payload ∧ ∃ x, TransactionFails t x ∧ e = .clarity x) ∨
    (SmallAuth t.auth ∧ EncodableBody t ∧ FeeAnswerFails (server (feeQuestion r.url
      (hexText (Spec.payloadBytes t.payload)) (transactionBytes t).length)) e) := by
  rw [← Hex.bytesToHex_eq]
  rcases hp : t.payload.encode with p | x | _
  · obtain ⟨hpe, rfl⟩ := (payload_encode_iff _ _).1 hp
    have hpn : ∀ x, ¬ PayloadFails t.payload x := fun x h => by
      rw [← C72_payload_error_exact, hp] at h; cases h
    rcases ht : t.encode with b | x | _
    · obtain ⟨⟨hs, hb⟩, rfl⟩ := (transaction_encode_iff _ _).1 ht
      have htn : ∀ x, ¬ TransactionFails t x := fun x h => by
        rw [← C72_transaction_error_exact, ht] at h; cases h
      have hr : (r.estimateFee server t).result =
          match ureqResult (server (feeQuestion r.url (Hex.bytesToHex (Spec.payloadBytes t.payload))
            (transactionBytes t).length)) with
          | .ok res => intoJson FeeOk.fromJson res >>= fun f => .ok (.ok f)
          | .error (.status _ res) => intoString res >>= fun s => .ok (.err s)
          | .error err => .err (.ureq err) := by
        unfold StacksRPC.estimateFee feeRequest
        rw [hp, ht]; rfl
      rw [hr]
      generalize server _ = reply
      have key : (match ureqResult reply with
          | .ok res => intoJson FeeOk.fromJson res >>= fun f => .ok (.ok f)
          | .error (.status _ res) => intoString res >>= fun s => .ok (.err s)
          | .error err => .err (.ureq err) : Outcome Error EstimateFeeResponse) = .err e ↔ FeeAnswerFails reply e := by
        cases reply with
        | transport x =>
          constructor
          · intro h; cases h; exact .transport
          · intro h; cases h; rfl
        | response code body =>
          by_cases hc : code < 400
          · rw [show ureqResult (.response code body) = .ok body from if_neg (by omega)]
            simp only []
            rw [ok_err_iff, intoJson_err_iff _ _ feeOk_iff]
            constructor
            · rintro ⟨x, h, rfl⟩; exact .body hc h
            · intro h
              cases h with
              | text h _ => omega
              | body _ h => exact ⟨_, h, rfl⟩
          · rw [show ureqResult (.response code body) = .error (.status code body) from if_pos (by omega)]
            simp only []
            rw [ok_err_iff, intoString_err_iff]
            constructor
            · rintro ⟨x, h, rfl⟩; exact .text (by omega) h
            · intro h
              cases h with
              | text _ h => exact ⟨_, h, rfl⟩
              | body h _ => omega
      rw [key]
      constructor
      · exact fun h => .inr (.inr ⟨hs, hb, h⟩)
      · rintro (⟨x, h, _⟩ | ⟨_, x, h, _⟩ | ⟨_, _, h⟩)
        · exact absurd h (hpn x)
        · exact absurd h (htn x)
        · exact h
    · have hr : (r.estimateFee server t).result = .err (.clarity x) := by
        unfold StacksRPC.estimateFee feeRequest
        rw [hp, ht]; rfl
      have hx := (C72_transaction_error_exact t x).1 ht
      rw [hr]
      constructor
      · intro h; cases h; exact .inr (.inl ⟨hpe, x, hx, rfl⟩)
      · rintro (⟨y, h, _⟩ | ⟨_, y, h, rfl⟩ | ⟨h, h', _⟩)
        · exact absurd h (hpn y)
        · rw [← C72_transaction_error_exact, ht] at h; cases h; rfl
        · rw [(transaction_encode_iff t _).2 ⟨⟨h, h'⟩, rfl⟩] at ht; cases ht
    · exact absurd ht (transaction_encode_no_panic t)
  · have hr : (r.estimateFee server t).result = .err (.clarity x) := by
      unfold StacksRPC.estimateFee feeRequest
      rw [hp]; rfl
    have hx := (C72_payload_error_exact _ x).1 hp
    have hne : ¬ EncodablePayload t.payload := fun h => by
      rw [(payload_encode_iff _ _).2 ⟨h, rfl⟩] at hp; cases hp
    rw [hr]
    constructor
    · intro h; cases h; exact .inl ⟨x, hx, rfl⟩
    · rintro (⟨y, h, rfl⟩ | ⟨h, _⟩ | ⟨_, h, _⟩)
      · rw [← C72_payload_error_exact, hp] at h; cases h; rfl
      · exact absurd h hne
      · exact absurd h.2.2 hne
  · exact absurd hp (payload_encode_ne_panic _)

theorem broadcast_err_iff (r : StacksRPC) (server : Request → Reply) (t : Transaction) (e : Error) :
    (r.broadcast server t).result = .err e ↔
    (∃ x, TransactionFails t x ∧ e = .clarity x) ∨
    (SmallAuth t.auth ∧ EncodableBody t ∧
      BroadcastAnswerFails (server (broadcastRequest r.url (transactionBytes t))) e) := by
  rcases ht : t.encode with b | x | _
  · obtain ⟨⟨hs, hb⟩, rfl⟩ := (transaction_encode_iff _ _).1 ht
    have htn : ∀ x, ¬ TransactionFails t x := fun x h => by
      rw [← C72_transaction_error_exact, ht] at h; cases h
    have hr : (r.broadcast server t).result =
        match ureqResult (server (broadcastRequest r.url (transactionBytes t))) with
        | .ok res => intoString res >>= fun s => .ok (.ok s)
        | .error (.status _ res) => intoJson BroadcastErr.fromJson res >>= fun e => .ok (.err e)
        | .error err => .err (.ureq err) := by
      unfold StacksRPC.broadcast
      rw [ht]; rfl
    rw [hr]
    generalize server _ = reply
    have key : (match ureqResult reply with
        | .ok res => intoString res >>= fun s => .ok (.ok s)
        | .error (.status _ res) => intoJson BroadcastErr.fromJson res >>= fun e => .ok (.err e)
        | .error err => .err (.ureq err) : Outcome Error BroadcastResponse) = .err e ↔ BroadcastAnswerFails reply e := by
      cases reply with
      | transport x =>
        constructor
        · intro h; cases h; exact .transport
        · intro h; cases h; rfl
      | response code body =>
        by_cases hc : code < 400
        · rw [show ureqResult (.response code body) = .ok body from if_neg (by omega)]
          simp only []
          rw [ok_err_iff, intoString_err_iff]
          constructor
          · rintro ⟨x, h, rfl⟩; exact .text hc h
          · intro h
            cases h with
            | text _ h => exact ⟨_, h, rfl⟩
            | body h _ => omega
        · rw [show ureqResult (.response code body) = .error (.status code body) from if_pos (by omega)]
          simp only []
          rw [ok_err_iff, intoJson_err_iff _ _ broadcastErr_iff]
          constructor
          · rintro ⟨x, h, rfl⟩; exact .body (by omega) h
          · intro h
            cases h with
            | text h _ => omega
            | body _ h => exact ⟨_, h, rfl⟩
    rw [key]
    constructor
    · exact fun h => .inr ⟨hs, hb, h⟩
    · rintro (⟨x, h, _⟩ | ⟨_, _, h⟩)
      · exact absurd h (htn x)
      · exact h
  · have hr : (r.broadcast server t).result = .err (.clarity x) := by
      unfold StacksRPC.broadcast
      rw [ht]; rfl
    have hx := (C72_transaction_error_exact t x).1 ht
    rw [hr]
    constructor
    · intro h; cases h; exact .inl ⟨x, hx, rfl⟩
    · rintro (⟨y, h, rfl⟩ | ⟨h, h', _⟩)
      · rw [← C72_transaction_error_exact, ht] at h; cases h; rfl
      · rw [(transaction_encode_iff t _).2 ⟨⟨h, h'⟩, rfl⟩] at ht; cases ht
  · exact absurd ht (transaction_encode_no_panic t)

end
end

end Stacks.Rpc

namespace Stacks.Wallet
open Stacks.Spec

variable [Secp] [Bip]

theorem fromSecretKey_err_iff (s : Str) (e : Error) : StacksWallet.fromSecretKey s = .err e ↔
    (∃ x, Bip.parseMnemonic s = .error x ∧ e = .bip39 x) ∨
    (∃ m x, Bip.parseMnemonic s = .ok m ∧ Bip.parsePath "m/44'/5757'/0'/0".toList = .error x ∧ e = .bip32 x) ∨
    (∃ m p x, Bip.parseMnemonic s = .ok m ∧ Bip.parsePath "m/44'/5757'/0'/0".toList = .ok p ∧
      Bip.deriveFromPath (Bip.toSeed m []) p = .error x ∧ e = .bip32 x) := by
  unfold StacksWallet.fromSecretKey
  rw [show stxDerivationPath = "m/44'/5757'/0'/0".toList from rfl]
  cases Bip.parseMnemonic s with
  | error x => simp [ofExcept, eq_comm]
  | ok m =>
    simp only [ofExcept, Outcome.ok_bind]
    cases Bip.parsePath "m/44'/5757'/0'/0".toList with
    | error x => simp [eq_comm]
    | ok p =>
      simp only [Outcome.ok_bind]
      cases hd : Bip.deriveFromPath (Bip.toSeed m []) p with
      | error x => simp [hd, eq_comm]
      | ok x => simp [hd]

theorem find_none_iff (m : StacksAccounts) (i : UInt32) : m.find i = none ↔ ∀ a, (i, a) ∉ m := by
  unfold StacksAccounts.find
  induction m with
  | nil => simp
  | cons p m ih =>
    obtain ⟨j, b⟩ := p
    rw [List.lookup_cons]
    by_cases h : i = j
    · subst h
      simp only [beq_self_eq_true]
      exact iff_of_false (by simp) (fun h => h b List.mem_cons_self)
    · have : (i == j) = false := by simpa using h
      rw [this]
      simp only [ih, List.mem_cons, Prod.mk.injEq, h, false_and, false_or]

theorem getAccount_err_iff (w : StacksWallet) (i : UInt32) (e : Error) : (w.getAccount i).1 = .err e ↔
    (∀ a, (i, a) ∉ w.accounts) ∧ ∃ x, Bip.deriveChild w.ext i = .error x ∧ e = .bip32 x := by
  rw [← find_none_iff]
  unfold StacksWallet.getAccount
  cases w.accounts.find i with
  | some a => simp
  | none =>
    unfold StacksAccount.derive
    cases Bip.deriveChild w.ext i with
    | error x => simp [ofExcept, eq_comm]
    | ok x => simp [ofExcept]

theorem getAddress_no_err [Hashes] (a : StacksAccount) (v : C32.Version) (e : Error) : a.getAddress v ≠ .err e := by
  unfold StacksAccount.getAddress
  simp only []
  intro h
  obtain ⟨x, hx, _⟩ := (mapErr_err_iff _ _ _).1 h
  rw [C32.c32Address_err_iff] at hx
  cases v <;> simp [C32.Version.toU8, KnownVersion] at hx

end Stacks.Wallet

namespace Stacks
open Stacks.Spec Stacks.Clarity

theorem decodeAs_err_iff [Secp] [Hashes] [Bip] [Rpc.Http] (k : Kind) (b : Bytes) (e : Clarity.Error) :
    decodeKind k b = .err e ↔ FailsWith (.decodeAs k b) (.clarity e) := by
  constructor
  · intro h
    cases hi : identifierOf k with
    | none =>
      cases k <;> try cases hi
      · obtain ⟨n, r, rfl, h1, h2, rfl⟩ := (lps_err_iff b e).1 ((ok_err_iff _ _ _).1 h)
        exact .name h1 h2
      · exact .arguments ((Tx.C73_arguments_error_exact b e).1 ((ok_err_iff _ _ _).1 h))
    | some i =>
      rcases b with _ | ⟨t, r⟩
      · rw [kind_nil hi] at h; cases h
      · by_cases hk : k = .strUtf8
        · subst hk
          cases hi
          have h' : strUtf8Decode (t :: r) = .err e := (ok_err_iff _ _ _).1 h
          rw [strUtf8_any] at h'
          exact .anyType ((kind_own_err (k := .strUtf8) r rfl e).1 ((ok_err_iff _ _ _).2 h'))
        · by_cases ht : t = i
          · subst ht; exact .typed hi ((kind_own_err r hi e).1 h)
          · rw [kind_other_err r hi ht hk] at h
            cases h; exact .otherType hi ht hk
  · intro h
    cases h with
    | typed hi hc => exact (kind_own_err _ hi e).2 hc
    | otherType hi ht hk => exact kind_other_err _ hi ht hk
    | anyType hc =>
      refine (ok_err_iff _ _ _).2 ?_
      rw [strUtf8_any]
      exact (ok_err_iff _ _ _).1 ((kind_own_err (k := .strUtf8) _ rfl e).2 hc)
    | name h1 h2 => exact (ok_err_iff _ _ _).2 ((lps_err_iff _ _).2 ⟨_, _, rfl, h1, h2, rfl⟩)
    | arguments hc => exact (ok_err_iff _ _ _).2 ((Tx.C73_arguments_error_exact b e).2 hc)

end Stacks

/-! ## Errors that are never reported -/

namespace Stacks.Spec
open Stacks.Tx

section
variable [Hashes]

theorem c32Check_reported {s : Str} {e : C32.Error} (h : C32CheckFails s e) : ReportedC32 e := by
  cases h <;> exact ⟨nofun, nofun⟩

theorem address_reported {s : Str} {e : C32.Error} (h : AddressFails s e) : ReportedC32 e := by
  cases h with
  | shape _ => exact ⟨nofun, nofun⟩
  | check _ h => exact c32Check_reported h

theorem addressDecode_reported {s : Str} {e : C32.Error} (h : C32.c32AddressDecode s = .err e) :
    ReportedClarity (.c32 e) := by
  have := address_reported ((C32.address_err_iff s e).1 h)
  exact ⟨nofun, fun h => this.1 (by cases h; rfl), fun h => this.2 (by cases h; rfl)⟩

theorem encode_reported {v : Clarity.CV} {e : Clarity.Error} (h : EncodeFails v e) : ReportedClarity e := by
  induction h with
  | principalStd h => exact addressDecode_reported ((C32.address_err_iff _ _).2 h)
  | principalCon h => exact addressDecode_reported ((C32.address_err_iff _ _).2 h)
  | ok _ ih => exact ih
  | err _ ih => exact ih
  | some _ ih => exact ih
  | list _ _ _ ih => exact ih
  | fnArgs _ _ _ ih => exact ih
  | tuple _ _ _ _ ih => exact ih
  | _ => exact ⟨nofun, nofun, nofun⟩

theorem decode_reported {b : Bytes} {e : Clarity.Error} (h : DecodeFails b e) : ReportedClarity e := by
  induction h with
  | ok _ ih => exact ih
  | err _ ih => exact ih
  | some _ ih => exact ih
  | list _ _ _ _ ih => exact ih
  | listElement _ _ _ _ h => exact encode_reported h
  | tuple _ _ _ _ _ ih => exact ih
  | tupleElement _ _ _ _ _ h => exact encode_reported h
  | _ => exact ⟨nofun, nofun, nofun⟩

theorem arguments_reported {b : Bytes} {e : Clarity.Error} (h : ArgumentsFail b e) : ReportedClarity e := by
  cases h with
  | argument _ _ _ h => exact decode_reported h
  | again _ _ _ _ h => exact encode_reported h

omit [Hashes] in
theorem name_reported {b : Bytes} {e : Clarity.Error} (h : NameFails b e) : ReportedClarity e := by
  cases h <;> exact ⟨nofun, nofun, nofun⟩

theorem payloadDecode_reported {b : Bytes} {e : Clarity.Error} (h : PayloadDecodeFails b e) : ReportedClarity e := by
  cases h with
  | type _ _ => exact ⟨nofun, nofun, nofun⟩
  | recipient h => exact decode_reported h
  | recipientAgain _ h => exact encode_reported h
  | memo _ _ _ _ => exact ⟨nofun, nofun, nofun⟩
  | contract _ h => exact name_reported h
  | function _ _ h => exact name_reported h
  | arguments _ _ _ h => exact arguments_reported h

theorem asset_reported {a : AssetInfo} {e : Clarity.Error} (h : AssetFails a e) : ReportedClarity e := by
  cases h with
  | address h => exact addressDecode_reported ((C32.address_err_iff _ _).2 h)
  | _ => exact ⟨nofun, nofun, nofun⟩

theorem condition_reported {c : Condition} {e : Clarity.Error} (h : ConditionFails c e) : ReportedClarity e := by
  cases h with
  | notPrincipal _ => exact ⟨nofun, nofun, nofun⟩
  | principal _ h => exact encode_reported h
  | fungible _ _ h => exact asset_reported h
  | nonFungible _ _ h => exact asset_reported h
  | token _ _ _ h => exact encode_reported h

theorem conditions_reported {cs : List Condition} {e : Clarity.Error} (h : ConditionsFail cs e) :
    ReportedClarity e := by
  cases h with
  | size _ => exact ⟨nofun, nofun, nofun⟩
  | first _ _ h => exact condition_reported h

theorem payload_reported {p : Payload} {e : Clarity.Error} (h : PayloadFails p e) : ReportedClarity e := by
  cases h with
  | recipient _ h => exact encode_reported h
  | arguments _ _ h => exact encode_reported h
  | _ => exact ⟨nofun, nofun, nofun⟩

variable [Secp]

theorem transaction_reported {t : Transaction} {e : Clarity.Error} (h : TransactionFails t e) : ReportedClarity e := by
  cases h with
  | auth _ => exact ⟨nofun, nofun, nofun⟩
  | conditions _ h => exact conditions_reported h
  | payload _ _ _ h => exact payload_reported h

theorem body_reported {t : Transaction} {e : Clarity.Error} (h : BodyFails t e) : ReportedClarity e := by
  cases h with
  | conditions h => exact conditions_reported h
  | payload _ _ h => exact payload_reported h

theorem spending_reported {h : Arr 32} {typ : UInt8} {c : Spending} {e : TxError}
    (hv : SpendingVerdict h typ c (.err e)) : ReportedTx e := by
  cases hv with
  | single h => cases h <;> trivial
  | multi h => cases h <;> trivial

theorem auth_reported {h : Arr 32} {a : Auth} {e : TxError} (hv : AuthVerdict h a (.err e)) : ReportedTx e := by
  cases hv with
  | originFails h => exact spending_reported h
  | sponsorFails _ h => exact spending_reported h

variable [Rpc.Http]

omit [Hashes] [Secp] in
theorem answer_reported {α : Type} {P : Rpc.J → α → Prop} {r : Rpc.Reply} {e : Rpc.Error}
    (h : AnswerFails P r e) : ReportedRpc e := by cases h <;> trivial

omit [Hashes] [Secp] in
theorem feeAnswer_reported {r : Rpc.Reply} {e : Rpc.Error} (h : FeeAnswerFails r e) : ReportedRpc e := by
  cases h <;> trivial

omit [Hashes] [Secp] in
theorem broadcastAnswer_reported {r : Rpc.Reply} {e : Rpc.Error} (h : BroadcastAnswerFails r e) : ReportedRpc e := by
  cases h <;> trivial

end

end Stacks.Spec

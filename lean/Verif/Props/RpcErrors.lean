import Verif.Props.Rpc

/-! # C63, C64 and C68: the errors of the RPC client

With these the results of `Props/Rpc` are complete: every result a call can have is listed with the
replies that cause it. -/

namespace Stacks.Rpc
open Stacks.Spec Stacks.Tx
open Stacks.Clarity (CV)

section
variable [Http]

theorem intoJson_io {α : Type} (f : J → Option α) (P : J → α → Prop) (hf : ∀ j a, f j = some a ↔ P j a)
    (b : Http.Body) (x : Http.IoErr) : intoJson f b = .err (.io x) ↔ Unreadable P b x := by
  unfold intoJson Unreadable
  cases Http.parseJson b with
  | error e => simp
  | ok j =>
    cases h : f j with
    | none =>
      have hn : ∀ a, ¬ P j a := fun a ha => by rw [(hf j a).2 ha] at h; cases h
      simp only [Outcome.ofOption, h, Outcome.err.injEq, Error.io.injEq, reduceCtorEq, Except.ok.injEq, false_or]
      exact ⟨fun e => ⟨j, rfl, hn, e.symm⟩, fun ⟨_, _, _, e⟩ => e.symm⟩
    | some a =>
      simp only [Outcome.ofOption, h, reduceCtorEq, Except.ok.injEq, false_or, false_iff]
      rintro ⟨_, rfl, hn, _⟩
      exact hn a ((hf _ a).1 h)

theorem intoJson_no_clarity {α : Type} (f : J → Option α) (b : Http.Body) (e : Clarity.Error) :
    intoJson f b ≠ .err (.clarity e) := by
  unfold intoJson
  cases Http.parseJson b with
  | error e => simp
  | ok j => cases h : f j <;> simp [Outcome.ofOption, h]

theorem question_io {α : Type} (f : J → Option α) (P : J → α → Prop) (hf : ∀ j a, f j = some a ↔ P j a)
    (reply : Reply) :
    (∀ x, (ofExcept Error.ureq (ureqResult reply) >>= fun body => intoJson f body) = .err (.io x) ↔
      ∃ code body, reply = .response code body ∧ code < 400 ∧ Unreadable P body x) ∧
    (∀ e, (ofExcept Error.ureq (ureqResult reply) >>= fun body => intoJson f body) ≠ .err (.clarity e)) := by
  cases reply with
  | transport e => exact ⟨fun x => by simp [ureqResult, ofExcept], fun e h => by cases h⟩
  | response code body =>
    by_cases hc : code < 400
    · have : ureqResult (.response code body) = .ok body := if_neg (by omega)
      rw [this]
      refine ⟨fun x => ?_, intoJson_no_clarity f body⟩
      show intoJson f body = .err (.io x) ↔ _
      rw [intoJson_io f P hf]
      constructor
      · intro h; exact ⟨code, body, rfl, hc, h⟩
      · rintro ⟨_, _, h, _, h1⟩; cases h; exact h1
    · have : ureqResult (.response code body) = .error (.status code body) := if_pos (by omega)
      rw [this]
      refine ⟨fun x => ?_, fun e h => by cases h⟩
      constructor
      · intro h; cases h
      · rintro ⟨_, _, h, h1, _⟩; cases h; omega

/-- **C68** `info` fails to read a reply exactly when its status is below 400 and its body is not JSON
or lacks one of the twelve fields; nothing else causes an error of this kind, and encoding is not
involved. -/
theorem C68_info_unreadable (r : StacksRPC) (server : Request → Reply) :
    (∀ x, (r.info server).result = .err (.io x) ↔ ∃ code body, server (infoRequest r.url) = .response code body ∧
      code < 400 ∧ Unreadable IsNodeInfo body x) ∧
    (∀ e, (r.info server).result ≠ .err (.clarity e)) :=
  question_io NodeInfoResponse.fromJson _ nodeInfo_iff (server (infoRequest r.url))

/-- **C68** The same for `address`. -/
theorem C68_address_unreadable (r : StacksRPC) (server : Request → Reply) (a : Str) :
    (∀ x, (r.address server a).result = .err (.io x) ↔
      ∃ code body, server (accountRequest r.url a) = .response code body ∧ code < 400 ∧
        Unreadable IsAddressInfo body x) ∧
    (∀ e, (r.address server a).result ≠ .err (.clarity e)) :=
  question_io AddressInfoResponse.fromJson _ addressInfo_iff (server (accountRequest r.url a))

variable [Hashes]

/-- **C63** The same for `read_only`, when the arguments can be encoded. -/
theorem C63_read_only_unreadable (r : StacksRPC) (server : Request → Reply)
    (address contract function sender : Str) (args : List CV) (h : ∀ a ∈ args, Encodable a) (reply : Reply)
    (hs : server (readOnlyRequest r.url address contract function sender
      (args.map fun a => Hex.bytesToHex (sip005 a))) = reply) :
    (∀ x, (r.readOnly server address contract function args sender).result = .err (.io x) ↔
      ∃ code body, reply = .response code body ∧ code < 400 ∧ Unreadable IsReadOnly body x) ∧
    (∀ e, (r.readOnly server address contract function args sender).result ≠ .err (.clarity e)) := by
  have hr : (r.readOnly server address contract function args sender).result =
      (ofExcept Error.ureq (ureqResult reply) >>= fun body => intoJson ReadOnlyResponse.fromJson body) := by
    unfold StacksRPC.readOnly
    rw [hexAll_ok args h, ← hs]; rfl
  rw [hr]
  exact question_io ReadOnlyResponse.fromJson IsReadOnly
    (fun j a => by rw [readOnly_iff]; cases a <;> rfl) reply

/-- **C64** When some argument of `read_only` cannot be encoded, the error returned is that of the first
such argument. -/
theorem C64_first_bad_argument (r : StacksRPC) (server : Request → Reply)
    (address contract function sender : Str) (pre : List CV) (a : CV) (post : List CV) (e : Clarity.Error)
    (h : ∀ b ∈ pre, Encodable b) (ha : a.encode = .err e) :
    (r.readOnly server address contract function (pre ++ a :: post) sender).sent = [] ∧
    (r.readOnly server address contract function (pre ++ a :: post) sender).result = .err (.clarity e) := by
  have : hexAll (pre ++ a :: post) = .err (.clarity e) := by
    induction pre with
    | nil => rw [List.nil_append]; unfold hexAll CV.hex; rw [ha]; rfl
    | cons b pre ih =>
      rw [List.cons_append]
      unfold hexAll CV.hex
      rw [Clarity.encode_ok b (h b List.mem_cons_self), ih fun c hc => h c (List.mem_cons_of_mem _ hc)]
      rfl
  unfold StacksRPC.readOnly
  rw [this]; exact ⟨rfl, rfl⟩

variable [Secp]

/-- **C63** `broadcast` fails to read a reply exactly when the body is not text, below status 400, or
is not the JSON of a refusal, from 400 on. -/
theorem C63_broadcast_unreadable (r : StacksRPC) (server : Request → Reply) (t : Transaction) (bs : Bytes)
    (h : t.encode = .ok bs) :
    (∀ x, (r.broadcast server t).result = .err (.io x) ↔
      ∃ code body, server (broadcastRequest r.url bs) = .response code body ∧
        (code < 400 ∧ Http.intoString body = .error x ∨ 400 ≤ code ∧ Unreadable IsBroadcastErr body x)) ∧
    (∀ e, (r.broadcast server t).result ≠ .err (.clarity e)) := by
  have hr : (r.broadcast server t).result =
      match ureqResult (server (broadcastRequest r.url bs)) with
      | .ok res => intoString res >>= fun s => pure (.ok s)
      | .error (.status _ res) => intoJson BroadcastErr.fromJson res >>= fun e => pure (.err e)
      | .error err => .err (.ureq err) := by
    unfold StacksRPC.broadcast
    rw [h]; rfl
  rw [hr]
  cases hs : server (broadcastRequest r.url bs) with
  | transport e => exact ⟨fun x => by simp [ureqResult], fun e h => by cases h⟩
  | response code body =>
    by_cases hc : code < 400
    · have : ureqResult (.response code body) = .ok body := if_neg (by omega)
      simp only [this, intoString]
      have hx : ∀ x, (∃ code' body', Reply.response code body = Reply.response code' body' ∧
          (code' < 400 ∧ Http.intoString body' = .error x ∨ 400 ≤ code' ∧ Unreadable IsBroadcastErr body' x)) ↔
          Http.intoString body = .error x := by
        intro x
        constructor
        · rintro ⟨_, _, h, ⟨_, h1⟩ | ⟨h1, _⟩⟩
          · cases h; exact h1
          · cases h; omega
        · intro h; exact ⟨code, body, rfl, .inl ⟨hc, h⟩⟩
      simp only [hx]
      cases Http.intoString body with
      | ok s => exact ⟨fun x => ⟨fun h => (by cases h), fun h => by cases h⟩, fun e h => by cases h⟩
      | error y => exact ⟨fun x => ⟨fun h => by cases h; rfl, fun h => by cases h; rfl⟩, fun e h => by cases h⟩
    · have : ureqResult (.response code body) = .error (.status code body) := if_pos (by omega)
      simp only [this]
      have hx : ∀ x, (∃ code' body', Reply.response code body = Reply.response code' body' ∧
          (code' < 400 ∧ Http.intoString body' = .error x ∨ 400 ≤ code' ∧ Unreadable IsBroadcastErr body' x)) ↔
          intoJson BroadcastErr.fromJson body = .err (.io x) := by
        intro x
        rw [intoJson_io _ _ broadcastErr_iff]
        constructor
        · rintro ⟨_, _, h, ⟨h1, _⟩ | ⟨_, h1⟩⟩
          · cases h; omega
          · cases h; exact h1
        · intro h; exact ⟨code, body, rfl, .inr ⟨by omega, h⟩⟩
      simp only [hx]
      have hn := intoJson_no_clarity BroadcastErr.fromJson body
      revert hn
      cases intoJson BroadcastErr.fromJson body with
      | ok s => exact fun _ => ⟨fun x => ⟨fun h => (by cases h), fun h => by cases h⟩, fun e h => by cases h⟩
      | err y =>
        exact fun hn => ⟨fun x => ⟨fun h => by cases h; rfl, fun h => by cases h; rfl⟩,
          fun e h => by cases h; exact hn e rfl⟩
      | panic => exact fun _ => ⟨fun x => ⟨fun h => (by cases h), fun h => by cases h⟩, fun e h => by cases h⟩

/-- **C63** `estimate_fee` fails to read a reply exactly when the body is not the JSON of estimates,
below status 400, or is not text, from 400 on. -/
theorem C63_estimate_fee_unreadable (r : StacksRPC) (server : Request → Reply) (t : Transaction) (bs p : Bytes)
    (h : t.encode = .ok bs) (hp : t.payload.encode = .ok p) :
    (∀ x, (r.estimateFee server t).result = .err (.io x) ↔
      ∃ code body, server (feeQuestion r.url (Hex.bytesToHex p) bs.length) = .response code body ∧
        (code < 400 ∧ Unreadable IsFeeOk body x ∨ 400 ≤ code ∧ Http.intoString body = .error x)) ∧
    (∀ e, (r.estimateFee server t).result ≠ .err (.clarity e)) := by
  have hr : (r.estimateFee server t).result =
      match ureqResult (server (feeQuestion r.url (Hex.bytesToHex p) bs.length)) with
      | .ok res => intoJson FeeOk.fromJson res >>= fun f => pure (.ok f)
      | .error (.status _ res) => intoString res >>= fun s => pure (.err s)
      | .error err => .err (.ureq err) := by
    unfold StacksRPC.estimateFee feeRequest
    rw [hp, h]; rfl
  rw [hr]
  cases hs : server (feeQuestion r.url (Hex.bytesToHex p) bs.length) with
  | transport e => exact ⟨fun x => by simp [ureqResult], fun e h => by cases h⟩
  | response code body =>
    by_cases hc : code < 400
    · have : ureqResult (.response code body) = .ok body := if_neg (by omega)
      simp only [this]
      have hx : ∀ x, (∃ code' body', Reply.response code body = Reply.response code' body' ∧
          (code' < 400 ∧ Unreadable IsFeeOk body' x ∨ 400 ≤ code' ∧ Http.intoString body' = .error x)) ↔
          intoJson FeeOk.fromJson body = .err (.io x) := by
        intro x
        rw [intoJson_io _ _ feeOk_iff]
        constructor
        · rintro ⟨_, _, h, ⟨_, h1⟩ | ⟨h1, _⟩⟩
          · cases h; exact h1
          · cases h; omega
        · intro h; exact ⟨code, body, rfl, .inl ⟨hc, h⟩⟩
      simp only [hx]
      have hn := intoJson_no_clarity FeeOk.fromJson body
      revert hn
      cases intoJson FeeOk.fromJson body with
      | ok s => exact fun _ => ⟨fun x => ⟨fun h => (by cases h), fun h => by cases h⟩, fun e h => by cases h⟩
      | err y =>
        exact fun hn => ⟨fun x => ⟨fun h => by cases h; rfl, fun h => by cases h; rfl⟩,
          fun e h => by cases h; exact hn e rfl⟩
      | panic => exact fun _ => ⟨fun x => ⟨fun h => (by cases h), fun h => by cases h⟩, fun e h => by cases h⟩
    · have : ureqResult (.response code body) = .error (.status code body) := if_pos (by omega)
      simp only [this, intoString]
      have hx : ∀ x, (∃ code' body', Reply.response code body = Reply.response code' body' ∧
          (code' < 400 ∧ Unreadable IsFeeOk body' x ∨ 400 ≤ code' ∧ Http.intoString body' = .error x)) ↔
          Http.intoString body = .error x := by
        intro x
        constructor
        · rintro ⟨_, _, h, ⟨h1, _⟩ | ⟨_, h1⟩⟩
          · cases h; omega
          · cases h; exact h1
        · intro h; exact ⟨code, body, rfl, .inr ⟨by omega, h⟩⟩
      simp only [hx]
      cases Http.intoString body with
      | ok s => exact ⟨fun x => ⟨fun h => (by cases h), fun h => by cases h⟩, fun e h => by cases h⟩
      | error y => exact ⟨fun x => ⟨fun h => by cases h; rfl, fun h => by cases h; rfl⟩, fun e h => by cases h⟩

/-- **C62** When `estimate_fee` sends nothing, its error is that of encoding the payload, or else that
of encoding the transaction. -/
theorem C62_estimate_fee_error (r : StacksRPC) (server : Request → Reply) (t : Transaction) :
    (∀ e, t.payload.encode = .err e →
      (r.estimateFee server t).sent = [] ∧ (r.estimateFee server t).result = .err (.clarity e)) ∧
    (∀ p e, t.payload.encode = .ok p → t.encode = .err e →
      (r.estimateFee server t).sent = [] ∧ (r.estimateFee server t).result = .err (.clarity e)) := by
  unfold StacksRPC.estimateFee feeRequest
  refine ⟨fun e h => ?_, fun p e hp h => ?_⟩
  · rw [h]; exact ⟨rfl, rfl⟩
  · rw [hp, h]; exact ⟨rfl, rfl⟩

end

/-! ## The hypotheses are satisfiable -/

section
attribute [local instance] Concrete.realHashes Concrete.toySecp toyHttp
local instance rpcErrorsLawful : Secp.Lawful := Concrete.toyLawful

/-- A server with one answer. -/
def always (reply : Reply) (_ : Request) : Reply := reply

-- C68: a reply that is not JSON, and one without the fields
example : (StacksRPC.info ⟨[]⟩ (always (.response 200 ([], .null)))).result = .err (.io ()) := rfl
example : (StacksRPC.address ⟨[]⟩ (always (.response 200 ("x".toList, .obj []))) []).result = .err (.io ()) := by
  rfl
-- C63: a status of 400 with a body that does not say why
example : ∃ bs, exTx.encode = .ok bs ∧
    (StacksRPC.broadcast ⟨[]⟩ (always (.response 400 ("x".toList, .null))) exTx).result = .err (.io ()) := by
  obtain ⟨parse, hp⟩ := (parser_exists : ∃ parse : Arr 33 → Option Secp.PK, _)
  obtain ⟨bs, h, _⟩ := C43_reader_recovers parse hp exTx exTx_wf []
  refine ⟨bs, h, ((C63_broadcast_unreadable _ _ exTx bs h).1 _).2
    ⟨400, _, rfl, .inr ⟨Nat.le_refl _, .inr ⟨_, rfl, ?_, rfl⟩⟩⟩⟩
  rintro a (⟨_, h, _⟩ | h) <;> cases h
-- C64: the second argument is a string that is not ASCII
example : (∀ b ∈ [CV.tru], Encodable b) ∧ ∃ e, (CV.strAscii ['é']).encode = .err e :=
  ⟨fun b hb => by rw [List.mem_singleton.1 hb]; trivial, _, rfl⟩
-- C62: a payload that cannot be encoded
example : ∃ e, exLongMemo.payload.encode = .err e := by
  cases he : exLongMemo.payload.encode with
  | err e => exact ⟨e, rfl⟩
  | panic => exact absurd he (payload_encode_ne_panic _)
  | ok bs => exact absurd ((payload_encode_iff _ _).1 he).1.2 (by decide +kernel)

end

end Stacks.Rpc

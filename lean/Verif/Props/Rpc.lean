import Verif.Proofs.Rpc
import Verif.Props.Hex
import Verif.Props.Clarity
import Verif.Props.Signing

/-! # Properties C62 - C64 and C68: the RPC client -/

namespace Stacks.Rpc
open Stacks.Spec Stacks.Tx
open Stacks.Clarity (CV)

section
variable [Http] [Secp] [Hashes]

/-! ## C62 -/

/-- **C62** `broadcast` sends exactly one request: the encoded transaction, to
`{url}/v2/transactions`, whatever the server does. When encoding fails nothing is sent and the
error is returned. -/
theorem C62_broadcast (r : StacksRPC) (server : Request → Reply) (t : Transaction) :
    (∀ bs, t.encode = .ok bs → (r.broadcast server t).sent = [broadcastRequest r.url bs]) ∧
    (∀ e, t.encode = .err e →
      (r.broadcast server t).sent = [] ∧ (r.broadcast server t).result = .err (.clarity e)) := by
  unfold StacksRPC.broadcast
  refine ⟨fun bs h => ?_, fun e h => ?_⟩
  · rw [h]; rfl
  · rw [h]; exact ⟨rfl, rfl⟩

omit [Http] in
theorem readBack_verifies (t : Transaction) (h : WellFormedTransaction t) (n : Arr 32) :
    Transaction.verifyOrigin { t with payload := readBack t.payload } = .ok n ↔ t.verifyOrigin = .ok n := by
  have hb := (wf_encodable_tx t h).2
  have hp : payloadBytes (readBack t.payload) = payloadBytes t.payload ∧ EncodablePayload (readBack t.payload) := by
    have he := hb.2.2
    revert he
    cases t.payload with
    | tokenTransfer p =>
      intro he
      refine ⟨?_, he.1, ?_⟩
      · show tokenTransferBytes _ = tokenTransferBytes _
        unfold tokenTransferBytes
        simp only [memoField_padded p.memo he.2]
      · show (paddedMemo p.memo).bytes.length ≤ 34
        rw [paddedMemo_bytes, memoField_length _ he.2]
    | contractCall p => exact fun he => ⟨rfl, he⟩
  have hs : signingPreimage { t with payload := readBack t.payload } = signingPreimage t := by
    unfold signingPreimage transactionBytes
    simp only [hp.1]
  rw [verifyOrigin_iff, verifyOrigin_iff, hs]
  exact ⟨fun ⟨_, h⟩ => ⟨hb, h⟩, fun ⟨_, h⟩ => ⟨⟨hb.1, hb.2.1, hp.2⟩, h⟩⟩

/-- **C62** What arrives is the transaction: a node that reads the posted bytes by the wire format
recovers its parts, and verifies the origin's signatures exactly when the client does. -/
theorem C62_broadcast_arrives (r : StacksRPC) (server : Request → Reply) (t : Transaction)
    (h : WellFormedTransaction t) (parse : Arr 33 → Option Secp.PK) (hp : ∀ k, parse (Secp.serialize k) = some k) :
    ∃ bs t', (r.broadcast server t).sent = [broadcastRequest r.url bs] ∧
      (readTransaction parse).run bs = some (t', []) ∧ t' = { t with payload := readBack t.payload } ∧
      ∀ n, t'.verifyOrigin = .ok n ↔ t.verifyOrigin = .ok n := by
  obtain ⟨bs, h1, h2⟩ := C43_reader_recovers parse hp t h []
  rw [List.append_nil] at h2
  exact ⟨bs, _, (C62_broadcast r server t).1 bs h1, h2, rfl, readBack_verifies t h⟩

/-- **C62** `estimate_fee` sends exactly one request: the hex of the payload's encoding, which is
the end of the encoded transaction, and the length of that. When encoding fails nothing is sent. -/
theorem C62_estimate_fee (r : StacksRPC) (server : Request → Reply) (t : Transaction) :
    (∀ bs, t.encode = .ok bs → ∃ hex p, t.payload.encode = .ok p ∧ p <:+ bs ∧ Hex.hexToBytes hex = .ok p ∧
      hex = Hex.bytesToHex p ∧ (r.estimateFee server t).sent = [feeQuestion r.url hex bs.length]) ∧
    ((∀ bs, t.encode ≠ .ok bs) →
      (r.estimateFee server t).sent = [] ∧ ∃ e, (r.estimateFee server t).result = .err (.clarity e)) := by
  refine ⟨fun bs h => ?_, fun h => ?_⟩
  · obtain ⟨⟨_, _, _, hp⟩, e⟩ := (transaction_encode_iff t bs).1 h
    have hpe := (payload_encode_iff t.payload _).2 ⟨hp, rfl⟩
    refine ⟨_, _, hpe, ?_, (Hex.C01_hex_roundtrip _).1, rfl, ?_⟩
    · rw [e]; exact List.suffix_append _ _
    · unfold StacksRPC.estimateFee feeRequest
      rw [hpe, h]; rfl
  · have hn := transaction_encode_no_panic t
    have hpn := payload_encode_ne_panic t.payload
    have hf : ∃ e, feeRequest t = .err (.clarity e) := by
      unfold feeRequest
      cases hp : t.payload.encode with
      | panic => exact absurd hp hpn
      | err e => exact ⟨e, rfl⟩
      | ok p =>
        cases ht : t.encode with
        | panic => exact absurd ht hn
        | err e => exact ⟨e, rfl⟩
        | ok bs => exact absurd ht (h bs)
    obtain ⟨e, hf⟩ := hf
    unfold StacksRPC.estimateFee
    rw [hf]; exact ⟨rfl, e, rfl⟩

/-- **C62** What is sent does not depend on the server, and no call sends more than one request. -/
theorem C62_sends_once (r : StacksRPC) (s s' : Request → Reply) (t : Transaction) :
    (r.broadcast s t).sent = (r.broadcast s' t).sent ∧ (r.broadcast s t).sent.length ≤ 1 ∧
    (r.estimateFee s t).sent = (r.estimateFee s' t).sent ∧ (r.estimateFee s t).sent.length ≤ 1 := by
  unfold StacksRPC.broadcast StacksRPC.estimateFee
  cases t.encode.mapErr Error.clarity <;> cases feeRequest t <;> simp

/-! ## C63 -/

/-- **C63** The result of `broadcast` is decided by the reply: below status 400 the body as text;
from 400 on the refusal it spells out in JSON; without a response the transport error. -/
theorem C63_broadcast (r : StacksRPC) (server : Request → Reply) (t : Transaction) (bs : Bytes)
    (h : t.encode = .ok bs) :
    (∀ s, (r.broadcast server t).result = .ok (.ok s) ↔
      ∃ code body, server (broadcastRequest r.url bs) = .response code body ∧ code < 400 ∧
        Http.intoString body = .ok s) ∧
    (∀ e, (r.broadcast server t).result = .ok (.err e) ↔
      ∃ code body j, server (broadcastRequest r.url bs) = .response code body ∧ 400 ≤ code ∧
        Http.parseJson body = .ok j ∧ IsBroadcastErr j e) ∧
    (∀ x, (r.broadcast server t).result = .err (.ureq x) ↔
      ∃ e, server (broadcastRequest r.url bs) = .transport e ∧ x = .transport e) ∧
    (r.broadcast server t).result ≠ .panic := by
  have hr : (r.broadcast server t).result =
      match ureqResult (server (broadcastRequest r.url bs)) with
      | .ok res => intoString res >>= fun s => pure (.ok s)
      | .error (.status _ res) => intoJson BroadcastErr.fromJson res >>= fun e => pure (.err e)
      | .error err => .err (.ureq err) := by
    unfold StacksRPC.broadcast
    rw [h]; rfl
  rw [hr]
  cases hs : server (broadcastRequest r.url bs) with
  | transport e =>
    refine ⟨fun s => ?_, fun e => ?_, fun x => ?_, ?_⟩ <;> simp [ureqResult]
    exact eq_comm
  | response code body =>
    by_cases hc : code < 400
    · have : ureqResult (.response code body) = .ok body := if_neg (by omega)
      simp only [this]
      refine ⟨fun s => ?_, fun e => ?_, fun x => ?_, ?_⟩
      · simp only [Outcome.bind_eq_ok, Outcome.pure_def, Outcome.ok.injEq, BroadcastResponse.ok.injEq, intoString,
          ofExcept_ok]
        constructor
        · rintro ⟨s', h1, rfl⟩; exact ⟨code, body, rfl, hc, h1⟩
        · rintro ⟨_, _, h1, _, h2⟩; cases h1; exact ⟨s, h2, rfl⟩
      · simp only [Outcome.bind_eq_ok, Outcome.pure_def, Outcome.ok.injEq, reduceCtorEq, and_false, exists_false,
          false_iff]
        rintro ⟨_, _, _, h1, h2, _⟩; cases h1; omega
      · simp only [reduceCtorEq, false_and, exists_false, iff_false]
        unfold intoString
        cases Http.intoString body <;> intro hh <;> cases hh
      · unfold intoString
        cases Http.intoString body <;> intro hh <;> cases hh
    · have : ureqResult (.response code body) = .error (.status code body) := if_pos (by omega)
      simp only [this]
      refine ⟨fun s => ?_, fun e => ?_, fun x => ?_, ?_⟩
      · simp only [Outcome.bind_eq_ok, Outcome.pure_def, Outcome.ok.injEq, reduceCtorEq, and_false, exists_false,
          false_iff]
        rintro ⟨_, _, h1, h2, _⟩; cases h1; omega
      · simp only [Outcome.bind_eq_ok, Outcome.pure_def, Outcome.ok.injEq, BroadcastResponse.err.injEq,
          intoJson_iff, broadcastErr_iff]
        constructor
        · rintro ⟨e', ⟨j, h1, h2⟩, rfl⟩; exact ⟨code, body, j, rfl, by omega, h1, h2⟩
        · rintro ⟨_, _, j, h1, _, h2, h3⟩; cases h1; exact ⟨e, ⟨j, h2, h3⟩, rfl⟩
      · simp only [reduceCtorEq, false_and, exists_false, iff_false]
        cases hj : intoJson BroadcastErr.fromJson body with
        | ok a => intro hh; cases hh
        | err a =>
          intro hh; cases hh
          exact absurd hj (intoJson_no_ureq _ _ _)
        | panic => exact absurd hj (intoJson_no_panic _ _)
      · cases hj : intoJson BroadcastErr.fromJson body with
        | ok a => intro hh; cases hh
        | err a => intro hh; cases hh
        | panic => exact absurd hj (intoJson_no_panic _ _)

/-- **C63** The result of `estimate_fee`: below status 400 the estimates spelled out in JSON; from
400 on the body as text; without a response the transport error. -/
theorem C63_estimate_fee (r : StacksRPC) (server : Request → Reply) (t : Transaction) (bs p : Bytes)
    (h : t.encode = .ok bs) (hp : t.payload.encode = .ok p) :
    (∀ f, (r.estimateFee server t).result = .ok (.ok f) ↔
      ∃ code body j, server (feeQuestion r.url (Hex.bytesToHex p) bs.length) = .response code body ∧ code < 400 ∧
        Http.parseJson body = .ok j ∧ IsFeeOk j f) ∧
    (∀ s, (r.estimateFee server t).result = .ok (.err s) ↔
      ∃ code body, server (feeQuestion r.url (Hex.bytesToHex p) bs.length) = .response code body ∧ 400 ≤ code ∧
        Http.intoString body = .ok s) ∧
    (∀ x, (r.estimateFee server t).result = .err (.ureq x) ↔
      ∃ e, server (feeQuestion r.url (Hex.bytesToHex p) bs.length) = .transport e ∧ x = .transport e) ∧
    (r.estimateFee server t).result ≠ .panic := by
  have hr : (r.estimateFee server t).result =
      match ureqResult (server (feeQuestion r.url (Hex.bytesToHex p) bs.length)) with
      | .ok res => intoJson FeeOk.fromJson res >>= fun f => pure (.ok f)
      | .error (.status _ res) => intoString res >>= fun s => pure (.err s)
      | .error err => .err (.ureq err) := by
    unfold StacksRPC.estimateFee feeRequest
    rw [hp, h]; rfl
  rw [hr]
  cases hs : server (feeQuestion r.url (Hex.bytesToHex p) bs.length) with
  | transport e =>
    refine ⟨fun s => ?_, fun e => ?_, fun x => ?_, ?_⟩ <;> simp [ureqResult]
    exact eq_comm
  | response code body =>
    by_cases hc : code < 400
    · have : ureqResult (.response code body) = .ok body := if_neg (by omega)
      simp only [this]
      refine ⟨fun f => ?_, fun s => ?_, fun x => ?_, ?_⟩
      · simp only [Outcome.bind_eq_ok, Outcome.pure_def, Outcome.ok.injEq, EstimateFeeResponse.ok.injEq,
          intoJson_iff, feeOk_iff]
        constructor
        · rintro ⟨e', ⟨j, h1, h2⟩, rfl⟩; exact ⟨code, body, j, rfl, by omega, h1, h2⟩
        · rintro ⟨_, _, j, h1, _, h2, h3⟩; cases h1; exact ⟨f, ⟨j, h2, h3⟩, rfl⟩
      · simp only [Outcome.bind_eq_ok, Outcome.pure_def, Outcome.ok.injEq, reduceCtorEq, and_false, exists_false,
          false_iff]
        rintro ⟨_, _, h1, h2, _⟩; cases h1; omega
      · simp only [reduceCtorEq, false_and, exists_false, iff_false]
        cases hj : intoJson FeeOk.fromJson body with
        | ok a => intro hh; cases hh
        | err a =>
          intro hh; cases hh
          exact absurd hj (intoJson_no_ureq _ _ _)
        | panic => exact absurd hj (intoJson_no_panic _ _)
      · cases hj : intoJson FeeOk.fromJson body with
        | ok a => intro hh; cases hh
        | err a => intro hh; cases hh
        | panic => exact absurd hj (intoJson_no_panic _ _)
    · have : ureqResult (.response code body) = .error (.status code body) := if_pos (by omega)
      simp only [this]
      refine ⟨fun f => ?_, fun s => ?_, fun x => ?_, ?_⟩
      · simp only [Outcome.bind_eq_ok, Outcome.pure_def, Outcome.ok.injEq, reduceCtorEq, and_false, exists_false,
          false_iff]
        rintro ⟨_, _, _, h1, h2, _⟩; cases h1; omega
      · simp only [Outcome.bind_eq_ok, Outcome.pure_def, Outcome.ok.injEq, EstimateFeeResponse.err.injEq, intoString,
          ofExcept_ok]
        constructor
        · rintro ⟨s', h1, rfl⟩; exact ⟨code, body, rfl, by omega, h1⟩
        · rintro ⟨_, _, h1, _, h2⟩; cases h1; exact ⟨s, h2, rfl⟩
      · simp only [reduceCtorEq, false_and, exists_false, iff_false]
        unfold intoString
        cases Http.intoString body <;> intro hh <;> cases hh
      · unfold intoString
        cases Http.intoString body <;> intro hh <;> cases hh

omit [Secp] [Hashes] in
/-- Calls that turn every status from 400 on into an error. -/
theorem question_iff {α : Type} (f : J → Option α) (P : J → α → Prop) (hf : ∀ j a, f j = some a ↔ P j a)
    (reply : Reply) :
    (∀ a, (ofExcept Error.ureq (ureqResult reply) >>= fun body => intoJson f body) = .ok a ↔
      ∃ code body j, reply = .response code body ∧ code < 400 ∧ Http.parseJson body = .ok j ∧ P j a) ∧
    (∀ x, (ofExcept Error.ureq (ureqResult reply) >>= fun body => intoJson f body) = .err (.ureq x) ↔
      (∃ code body, reply = .response code body ∧ 400 ≤ code ∧ x = .status code body) ∨
      (∃ e, reply = .transport e ∧ x = .transport e)) ∧
    (ofExcept Error.ureq (ureqResult reply) >>= fun body => intoJson f body) ≠ .panic := by
  cases reply with
  | transport e =>
    refine ⟨fun a => ?_, fun x => ?_, ?_⟩ <;> simp [ureqResult, ofExcept]
    exact eq_comm
  | response code body =>
    by_cases hc : code < 400
    · have : ureqResult (.response code body) = .ok body := if_neg (by omega)
      rw [this]
      refine ⟨fun a => ?_, fun x => ?_, intoJson_no_panic f body⟩
      · show intoJson f body = .ok a ↔ _
        rw [intoJson_iff]
        simp only [hf]
        constructor
        · rintro ⟨j, h1, h2⟩; exact ⟨code, body, j, rfl, hc, h1, h2⟩
        · rintro ⟨_, _, j, h, _, h1, h2⟩; cases h; exact ⟨j, h1, h2⟩
      · constructor
        · intro h; exact absurd h (intoJson_no_ureq f body x)
        · rintro (⟨_, _, h, h1, _⟩ | ⟨_, h, _⟩)
          · cases h; omega
          · cases h
    · have : ureqResult (.response code body) = .error (.status code body) := if_pos (by omega)
      rw [this]
      refine ⟨fun a => ?_, fun x => ?_, ?_⟩
      · constructor
        · intro h; cases h
        · rintro ⟨_, _, _, h, h1, _⟩; cases h; omega
      · constructor
        · intro h; cases h; exact .inl ⟨code, body, rfl, by omega, rfl⟩
        · rintro (⟨_, _, h, _, rfl⟩ | ⟨_, h, _⟩)
          · cases h; rfl
          · cases h
      · intro h; cases h

omit [Http] [Secp] [Hashes] in
/-- **C63** How a broadcast response is shown. -/
theorem C63_display (r : BroadcastResponse) :
    (∀ s, r = .ok s → r.display = s) ∧
    (∀ error reason txid, r = .err ⟨error, reason, txid⟩ →
      r.display = "message: ".toList ++ error ++ ", reason: ".toList ++ reason) :=
  ⟨fun s h => by rw [h]; rfl, fun a b c h => by rw [h]; rfl⟩

/-! ## C64 -/

omit [Secp] in
theorem hexAll_ok (args : List CV) (h : ∀ a ∈ args, Encodable a) :
    hexAll args = .ok (args.map fun a => Hex.bytesToHex (sip005 a)) := by
  induction args with
  | nil => rfl
  | cons a as ih =>
    unfold hexAll CV.hex
    rw [Clarity.encode_ok a (h a List.mem_cons_self), ih fun b hb => h b (List.mem_cons_of_mem _ hb)]
    rfl

omit [Secp] in
theorem hexAll_err (args : List CV) (h : ¬ ∀ a ∈ args, Encodable a) : ∃ e, hexAll args = .err (.clarity e) := by
  induction args with
  | nil => exact absurd (by simp) h
  | cons a as ih =>
    unfold hexAll CV.hex
    by_cases ha : Encodable a
    · rw [Clarity.encode_ok a ha]
      obtain ⟨e, he⟩ := ih fun hh => h (by
        intro b hb
        rcases List.mem_cons.1 hb with rfl | hb
        · exact ha
        · exact hh b hb)
      exact ⟨e, by rw [he]; rfl⟩
    · obtain ⟨e, he⟩ := Clarity.encode_err a ha
      exact ⟨e, by rw [he]; rfl⟩

omit [Secp] in
/-- **C64** `read_only` posts, to a URL made of the address and the two names, the sender and the
hex of the encoding of each argument, in order. If some argument has no encoding, nothing is
sent. -/
theorem C64_read_only_request (r : StacksRPC) (server : Request → Reply) (address contract function sender : Str)
    (args : List CV) :
    ((∀ a ∈ args, Encodable a) →
      (r.readOnly server address contract function args sender).sent =
        [readOnlyRequest r.url address contract function sender (args.map fun a => Hex.bytesToHex (sip005 a))]) ∧
    ((¬ ∀ a ∈ args, Encodable a) →
      (r.readOnly server address contract function args sender).sent = [] ∧
      ∃ e, (r.readOnly server address contract function args sender).result = .err (.clarity e)) := by
  unfold StacksRPC.readOnly
  refine ⟨fun h => ?_, fun h => ?_⟩
  · rw [hexAll_ok args h]; rfl
  · obtain ⟨e, he⟩ := hexAll_err args h
    rw [he]; exact ⟨rfl, e, rfl⟩

omit [Secp] in
/-- **C64** The strings sent decode, from hex and as Clarity values, to the arguments. -/
theorem C64_arguments_arrive (r : StacksRPC) (server : Request → Reply) (address contract function sender : Str)
    (args : List CV) (h : ∀ a ∈ args, WellFormed a) :
    ∃ hs, (r.readOnly server address contract function args sender).sent =
        [readOnlyRequest r.url address contract function sender hs] ∧
      List.Forall₂ (fun a s => ∃ bs, Hex.hexToBytes s = .ok bs ∧ Clarity.decode bs = .ok a) args hs := by
  refine ⟨_, (C64_read_only_request r server address contract function sender args).1
    (fun a ha => Clarity.wf_encodable a (h a ha)), ?_⟩
  induction args with
  | nil => exact .nil
  | cons a as ih =>
    refine .cons ⟨sip005 a, (Hex.C01_hex_roundtrip _).1, ?_⟩ (ih fun b hb => h b (List.mem_cons_of_mem _ hb))
    obtain ⟨bs, h1, h2⟩ := Clarity.C21_clarity_roundtrip a (h a List.mem_cons_self) []
    rw [List.append_nil] at h2
    rw [← (Clarity.encode_eq_ok.1 h1).2]; exact h2

omit [Http] [Secp] [Hashes] in
theorem split_slash {a b c d : Str} (ha : '/' ∉ a) (hb : '/' ∉ b) (h : a ++ '/' :: c = b ++ '/' :: d) :
    a = b ∧ c = d := by
  induction a generalizing b with
  | nil =>
    cases b with
    | nil => exact ⟨rfl, by simpa using h⟩
    | cons x b => simp only [List.nil_append, List.cons_append, List.cons.injEq] at h; exact absurd h.1 (fun e => hb (by simp [← e]))
  | cons x a ih =>
    cases b with
    | nil => simp only [List.nil_append, List.cons_append, List.cons.injEq] at h; exact absurd h.1 (fun e => ha (by simp [e]))
    | cons y b =>
      simp only [List.cons_append, List.cons.injEq] at h
      obtain ⟨h1, h2⟩ := ih (fun hh => ha (List.mem_cons_of_mem _ hh)) (fun hh => hb (List.mem_cons_of_mem _ hh)) h.2
      exact ⟨by rw [h.1, h1], h2⟩

omit [Secp] [Hashes] in
/-- **C64** The URL determines address, contract and function, when address and contract have no
`/` in them. -/
theorem C64_url_determines (url address contract function address' contract' function' sender sender' : Str)
    (hs hs' : List Str) (h1 : '/' ∉ address) (h2 : '/' ∉ address') (h3 : '/' ∉ contract) (h4 : '/' ∉ contract')
    (h : (readOnlyRequest url address contract function sender hs).url =
      (readOnlyRequest url address' contract' function' sender' hs').url) :
    address = address' ∧ contract = contract' ∧ function = function' := by
  simp only [readOnlyRequest, List.append_assoc] at h
  have h := List.append_cancel_left (List.append_cancel_left h)
  obtain ⟨e1, h⟩ := split_slash h1 h2 h
  obtain ⟨e2, h⟩ := split_slash h3 h4 h
  exact ⟨e1, e2, h⟩

omit [Secp] in
/-- **C63** The result of `read_only`: a status of 400 or more is an error, like a failed
transport; otherwise the JSON value is a result if it has the fields of one, and else a failure
if it has the fields of that. -/
theorem C63_read_only (r : StacksRPC) (server : Request → Reply) (address contract function sender : Str)
    (args : List CV) (h : ∀ a ∈ args, Encodable a) (reply : Reply)
    (hs : server (readOnlyRequest r.url address contract function sender
      (args.map fun a => Hex.bytesToHex (sip005 a))) = reply) :
    (∀ x, (r.readOnly server address contract function args sender).result = .ok (.ok x) ↔
      ∃ code body j, reply = .response code body ∧ code < 400 ∧ Http.parseJson body = .ok j ∧ IsReadOnlyOk j x) ∧
    (∀ x, (r.readOnly server address contract function args sender).result = .ok (.err x) ↔
      ∃ code body j, reply = .response code body ∧ code < 400 ∧ Http.parseJson body = .ok j ∧
        (∀ y, ¬ IsReadOnlyOk j y) ∧ IsReadOnlyErr j x) ∧
    (∀ x, (r.readOnly server address contract function args sender).result = .err (.ureq x) ↔
      (∃ code body, reply = .response code body ∧ 400 ≤ code ∧ x = .status code body) ∨
      (∃ e, reply = .transport e ∧ x = .transport e)) ∧
    (r.readOnly server address contract function args sender).result ≠ .panic := by
  have hr : (r.readOnly server address contract function args sender).result =
      (ofExcept Error.ureq (ureqResult reply) >>= fun body => intoJson ReadOnlyResponse.fromJson body) := by
    unfold StacksRPC.readOnly
    rw [hexAll_ok args h, ← hs]; rfl
  rw [hr]
  obtain ⟨q1, q2, q3⟩ := question_iff ReadOnlyResponse.fromJson _ readOnly_iff reply
  exact ⟨fun x => q1 (.ok x), fun x => q1 (.err x), q2, q3⟩

/-! ## C68 -/

omit [Secp] [Hashes] in
/-- **C68** `info` asks once for `{url}/v2/info`, and answers with what the reply says. -/
theorem C68_info (r : StacksRPC) (server : Request → Reply) :
    (r.info server).sent = [infoRequest r.url] ∧
    (∀ a, (r.info server).result = .ok a ↔ ∃ code body j, server (infoRequest r.url) = .response code body ∧
      code < 400 ∧ Http.parseJson body = .ok j ∧ IsNodeInfo j a) ∧
    (∀ x, (r.info server).result = .err (.ureq x) ↔
      (∃ code body, server (infoRequest r.url) = .response code body ∧ 400 ≤ code ∧ x = .status code body) ∨
      (∃ e, server (infoRequest r.url) = .transport e ∧ x = .transport e)) ∧
    (r.info server).result ≠ .panic :=
  ⟨rfl, question_iff NodeInfoResponse.fromJson _ nodeInfo_iff (server (infoRequest r.url))⟩

omit [Secp] [Hashes] in
/-- **C68** `address` asks once for `{url}/v2/accounts/{address}`, and answers with what the reply
says. -/
theorem C68_address (r : StacksRPC) (server : Request → Reply) (a : Str) :
    (r.address server a).sent = [accountRequest r.url a] ∧
    (∀ i, (r.address server a).result = .ok i ↔ ∃ code body j, server (accountRequest r.url a) = .response code body ∧
      code < 400 ∧ Http.parseJson body = .ok j ∧ IsAddressInfo j i) ∧
    (∀ x, (r.address server a).result = .err (.ureq x) ↔
      (∃ code body, server (accountRequest r.url a) = .response code body ∧ 400 ≤ code ∧ x = .status code body) ∨
      (∃ e, server (accountRequest r.url a) = .transport e ∧ x = .transport e)) ∧
    (r.address server a).result ≠ .panic :=
  ⟨rfl, question_iff AddressInfoResponse.fromJson _ addressInfo_iff (server (accountRequest r.url a))⟩

end

/-! ## The hypotheses are satisfiable -/

section
attribute [local instance] Concrete.realHashes Concrete.toySecp
local instance : Secp.Lawful := Concrete.toyLawful

/-- Bodies that are text and JSON at once; reading the empty text fails. -/
@[reducible] def toyHttp : Http where
  Body := Str × Json Nat
  IoErr := Unit
  Transport := Unit
  F64 := Nat
  intoString b := if b.1 = [] then .error () else .ok b.1
  parseJson b := if b.1 = [] then .error () else .ok b.2
  dataErr := ()
  f64OfNat n := n
  f64OfInt _ := 0

attribute [local instance] toyHttp

/-- A node that refuses transactions and answers questions. -/
def toyNode (r : Request) : Reply :=
  match r.body with
  | .bytes _ => .response 400 ("x".toList, .obj [("error".toList, .str "E".toList), ("extra".toList, .null),
      ("txid".toList, .str "T".toList), ("reason".toList, .str "R".toList)])
  | .json _ => .response 200 ("x".toList, .obj [("okay".toList, .bool true), ("result".toList, .str "0x03".toList)])
  | .empty => .transport ()

/-- C62 and C63: a refused broadcast. -/
example : ∃ bs, exTx.encode = .ok bs ∧ (StacksRPC.broadcast ⟨"http://n".toList⟩ toyNode exTx).sent =
      [broadcastRequest "http://n".toList bs] ∧
    (StacksRPC.broadcast ⟨"http://n".toList⟩ toyNode exTx).result =
      .ok (.err ⟨"E".toList, "R".toList, "T".toList⟩) := by
  obtain ⟨parse, hp⟩ := (parser_exists : ∃ parse : Arr 33 → Option Secp.PK, _)
  obtain ⟨bs, h, _⟩ := C43_reader_recovers parse hp exTx exTx_wf []
  refine ⟨bs, h, (C62_broadcast _ _ _).1 bs h, ((C63_broadcast _ toyNode exTx bs h).2.1 _).2 ?_⟩
  refine ⟨400, _, _, rfl, Nat.le_refl _, rfl, .inl ⟨_, rfl, ?_⟩⟩
  intro f hf
  simp only [List.mem_cons, List.not_mem_nil, or_false] at hf
  rcases hf with rfl | rfl | rfl <;> rfl

/-- C62: the node verifies what the client does. -/
example : ∃ parse : Arr 33 → Option Secp.PK, ∀ k, parse (Secp.serialize k) = some k := parser_exists

/-- C62: a transaction without an encoding, for its long memo. -/
def exLongMemo : Transaction :=
  { exTx with payload := .tokenTransfer ⟨.uint 1, 1, List.replicate 35 'x'⟩ }

example : ∃ e, exLongMemo.encode = .err e := by
  cases he : exLongMemo.encode with
  | err e => exact ⟨e, rfl⟩
  | panic => exact absurd he (transaction_encode_no_panic _)
  | ok bs =>
    obtain ⟨⟨_, _, _, _, h1⟩, _⟩ := (C43_transaction_layout exLongMemo bs).1 he
    exact absurd h1 (by decide +kernel)

/-- C63 and C64: a read-only call with two arguments. -/
example : (∀ a ∈ [CV.uint 5, CV.tru], WellFormed a) ∧
    (StacksRPC.readOnly ⟨"http://n".toList⟩ toyNode "SP".toList "c".toList "f".toList [.uint 5, .tru] "SP".toList).result =
      .ok (.ok ⟨true, "0x03".toList⟩) := by
  have hw : ∀ a ∈ [CV.uint 5, CV.tru], WellFormed a := by
    intro a ha
    simp only [List.mem_cons, List.not_mem_nil, or_false] at ha
    rcases ha with rfl | rfl
    · trivial
    · trivial
  refine ⟨hw, ((C63_read_only _ toyNode _ _ _ _ _ (fun a ha => Clarity.wf_encodable a (hw a ha)) _ rfl).1 _).2
    ⟨200, _, _, rfl, by decide, rfl, .inl ⟨_, rfl, ?_⟩⟩⟩
  intro f hf
  simp only [List.mem_cons, List.not_mem_nil, or_false] at hf
  rcases hf with rfl | rfl <;> rfl

/-- C63: a reply that says it failed is taken for a result when it has a field `result`. -/
example : ReadOnlyResponse.fromJson (.obj [("okay".toList, .bool false), ("cause".toList, .str "bad".toList),
    ("result".toList, .str [])]) = some (.ok ⟨false, []⟩) := by rfl

/-- C64: with a `/` in the contract's name different calls have the same URL. -/
example : (readOnlyRequest [] "a".toList "b/c".toList "d".toList [] []).url =
    (readOnlyRequest [] "a".toList "b".toList "c/d".toList [] []).url := by decide

/-- C68: no response. -/
example : (StacksRPC.info ⟨"http://n".toList⟩ toyNode).result = .err (.ureq (.transport ())) := rfl

end

end Stacks.Rpc

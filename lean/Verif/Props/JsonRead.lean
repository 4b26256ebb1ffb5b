import Verif.Proofs.JsonRead
import Verif.Proofs.JsonBody
import Verif.Props.RpcJson
import Verif.Props.RpcErrors
import Verif.Proofs.Literal

/-! # Property C105: replies and saved responses as JSON text -/

namespace Stacks.Rpc
open Spec
open Stacks.Clarity (CV decimal_toDigits signedDecimal_iff showInt)
open Stacks.Tx (Transaction)

section
variable {F : Type} {float : Str → Option F} {fl : F → Str}

/-- **C105** Which texts are read as JSON, and as which value: those of the grammar of JSON whose numbers can
be read and in which at most 127 arrays and objects are inside each other. -/
theorem C105_reader (t : Str) (j : Json F) :
    Read.document float t = some j ↔ ∃ v, Document v t ∧ Reads float 127 v j :=
  Read.document_iff float t j

/-- **C105** The same for bytes: they must be UTF-8. -/
theorem C105_reader_bytes (bs : Bytes) (j : Json F) :
    Read.body float bs = some j ↔ ∃ t v, bs = Str.bytes t ∧ Document v t ∧ Reads float 127 v j := by
  unfold Read.body
  rw [Option.bind_eq_some_iff]
  constructor
  · rintro ⟨t, h1, h2⟩
    obtain ⟨v, h3, h4⟩ := (C105_reader t j).1 h2
    exact ⟨t, v, (fromUtf8_eq_some.1 h1).symm, h3, h4⟩
  · rintro ⟨t, v, rfl, h3, h4⟩
    exact ⟨t, fromUtf8_bytes t, (C105_reader t j).2 ⟨v, h3, h4⟩⟩

theorem reads_items {d : Nat} {xs : List (Json F)}
    (h : ∀ x ∈ xs, ∃ v, Reads float d v x ∧ JsonText v (x.text fl)) (hne : xs ≠ []) :
    ∃ vs, ReadsAll float d vs xs ∧ ItemsText vs (Json.itemsText fl xs) := by
  induction xs with
  | nil => exact absurd rfl hne
  | cons x xs ih =>
    obtain ⟨v, h1, h2⟩ := h x (by simp)
    cases xs with
    | nil =>
      rw [Json.itemsText]
      have := ItemsText.one ws_nil h2 ws_nil
      exact ⟨[v], .cons h1 .nil, by simpa using this⟩
    | cons y ys =>
      rw [Json.itemsText]
      obtain ⟨vs, h3, h4⟩ := ih (fun x hx => h x (by simp [hx])) (by simp)
      have := ItemsText.more ws_nil h2 ws_nil h4
      exact ⟨v :: vs, .cons h1 h3, by simpa using this⟩

theorem reads_members {d : Nat} {es : List (Str × Json F)}
    (h : ∀ e ∈ es, ∃ v, Reads float d v e.2 ∧ JsonText v (e.2.text fl)) (hne : es ≠ []) :
    ∃ fs, ReadsMembers float d fs es ∧ MembersText fs (Json.membersText fl es) := by
  induction es with
  | nil => exact absurd rfl hne
  | cons e es ih =>
    obtain ⟨k, x⟩ := e
    obtain ⟨v, h1, h2⟩ := h (k, x) (by simp)
    cases es with
    | nil =>
      rw [Json.membersText]
      have := MembersText.one ws_nil (stringText_ok k) ws_nil ws_nil h2 ws_nil
      exact ⟨[(k, v)], .cons h1 .nil, by simpa using this⟩
    | cons e es =>
      rw [Json.membersText]
      obtain ⟨vs, h3, h4⟩ := ih (fun x hx => h x (by simp [hx])) (by simp)
      have := MembersText.more ws_nil (stringText_ok k) ws_nil ws_nil h2 ws_nil h4
      exact ⟨(k, v) :: vs, .cons h1 h3, by simpa using this⟩

/-- The text that is written for a value is one that is read as it. -/
theorem reads_text {d : Nat} {j : Json F} (h : FitsText float fl d j) :
    ∃ v, Reads float d v j ∧ JsonText v (j.text fl) := by
  induction h with
  | null => exact ⟨_, .null, .null⟩
  | bool b => cases b <;> exact ⟨_, .bool _, by constructor⟩
  | @num d n hn =>
    rw [Json.text]
    exact ⟨_, .number (.nat (decimal_toDigits n) hn), .number (number_of_decimal (decimal_toDigits n))⟩
  | @neg d i h1 h2 =>
    rw [Json.text, if_pos h1]
    have hd : SignedDecimal ('-' :: Nat.toDigits 10 i.natAbs) i := signedDecimal_iff.2 (by rw [showInt, if_pos h1])
    have hr := ReadNumber.neg (float := float) (decimal_toDigits i.natAbs) (by omega) (by clear * - h1 h2; omega)
    rw [show -((i.natAbs : Nat) : Int) = i by omega] at hr
    exact ⟨_, .number hr, .number (number_of_signed hd)⟩
  | @float d f hf =>
    rw [Json.text]
    refine ⟨_, .number hf, .number ?_⟩
    generalize fl f = s at hf
    cases hf with
    | float h _ _ _ => exact h
  | str s =>
    rw [Json.text]
    exact ⟨_, .string s, .string (stringText_ok s)⟩
  | @arr d xs _ ih =>
    rw [Json.text]
    by_cases hx : xs = []
    · subst hx
      rw [Json.itemsText]
      exact ⟨_, .array .nil, .noItems ws_nil⟩
    · obtain ⟨vs, h1, h2⟩ := reads_items ih hx
      exact ⟨_, .array h1, .array h2⟩
  | @obj d es _ ih =>
    rw [Json.text]
    by_cases hx : es = []
    · subst hx
      rw [Json.membersText]
      exact ⟨_, .object .nil, .noMembers ws_nil⟩
    · obtain ⟨vs, h1, h2⟩ := reads_members ih hx
      exact ⟨_, .object h1, .object h2⟩

/-- **C105** What is written is read as it was. -/
theorem C105_text_roundtrip {j : Json F} (h : FitsText float fl 127 j) :
    Read.document float (j.text fl) = some j ∧ Read.body float (Str.bytes (j.text fl)) = some j := by
  obtain ⟨v, h1, h2⟩ := reads_text h
  have hd : Document v (j.text fl) := ⟨[], _, [], ws_nil, h2, ws_nil, by simp⟩
  exact ⟨(C105_reader _ _).2 ⟨v, hd, h1⟩, (C105_reader_bytes _ _).2 ⟨_, v, rfl, hd, h1⟩⟩

end

/-! ## Saved responses -/

section
variable [Http] (float : Str → Option Http.F64) (fl : Http.F64 → Str)

/-- **C105** Node information saved as JSON text and read from it. -/
theorem C105_saved_node_info (r : NodeInfoResponse) :
    (Read.document float (r.toJson.text fl)).bind NodeInfoResponse.fromJson = some r := by
  rw [(C105_text_roundtrip (j := r.toJson) ?_).1]
  · exact C91_node_info r
  · refine .obj fun e he => ?_
    simp only [List.mem_cons, List.not_mem_nil, or_false] at he
    rcases he with rfl | rfl | rfl | rfl | rfl | rfl | rfl | rfl | rfl | rfl | rfl | rfl <;>
      first | exact .str _ | exact .num (UInt64.toNat_lt _) | exact .num (Nat.lt_trans (UInt32.toNat_lt _) (by decide))

/-- **C105** Account information saved as JSON text and read from it. -/
theorem C105_saved_address_info (r : AddressInfoResponse) :
    (Read.document float (r.toJson.text fl)).bind AddressInfoResponse.fromJson = some r := by
  rw [(C105_text_roundtrip (j := r.toJson) ?_).1]
  · exact C91_address_info r
  · refine .obj fun e he => ?_
    simp only [List.mem_cons, List.not_mem_nil, or_false] at he
    rcases he with rfl | rfl | rfl | rfl | rfl | rfl <;> first | exact .str _ | exact .num (UInt64.toNat_lt _)

/-- **C105** The answer to a broadcast saved as JSON text and read from it. -/
theorem C105_saved_broadcast (r : BroadcastResponse) :
    (Read.document float (r.toJson.text fl)).bind BroadcastResponse.fromJson = some r := by
  rw [(C105_text_roundtrip (j := r.toJson) ?_).1]
  · exact C91_broadcast r
  · cases r with
    | ok s => exact .str _
    | err e =>
      refine .obj fun e he => ?_
      simp only [List.mem_cons, List.not_mem_nil, or_false] at he
      rcases he with rfl | rfl | rfl <;> exact .str _

/-- **C105** The answer to a read-only call saved as JSON text and read from it. -/
theorem C105_saved_read_only (r : ReadOnlyResponse) :
    (Read.document float (r.toJson.text fl)).bind ReadOnlyResponse.fromJson = some r := by
  rw [(C105_text_roundtrip (j := r.toJson) ?_).1]
  · exact C91_read_only r
  · cases r <;>
    · refine .obj fun e he => ?_
      simp only [List.mem_cons, List.not_mem_nil, or_false] at he
      rcases he with rfl | rfl
      · exact .bool _
      · exact .str _

/-- **C105** Fee estimates saved as JSON text and read from it, if the texts of the finite rates are read as
those rates: they come back if all rates are finite, and cannot be read otherwise. -/
theorem C105_saved_estimate_fee [F64Finite] (r : EstimateFeeResponse)
    (hf : ∀ f, F64Finite.finite f = true → ReadNumber float (fl f) (.float f)) :
    (FiniteRates r → (Read.document float (r.toJson.text fl)).bind EstimateFeeResponse.fromJson = some r) ∧
    (¬ FiniteRates r → (Read.document float (r.toJson.text fl)).bind EstimateFeeResponse.fromJson = none) := by
  rw [(C105_text_roundtrip (j := r.toJson) ?_).1]
  · exact C91_estimate_fee r
  · cases r with
    | err s => exact .str _
    | ok r =>
      refine .obj fun e he => ?_
      simp only [List.mem_cons, List.not_mem_nil, or_false] at he
      subst he
      refine .arr fun x hx => ?_
      obtain ⟨e, -, rfl⟩ := List.mem_map.1 hx
      refine .obj fun y hy => ?_
      simp only [List.mem_cons, List.not_mem_nil, or_false] at hy
      rcases hy with rfl | rfl
      · exact .num (UInt64.toNat_lt _)
      · show FitsText float fl _ (f64ToJson e.fee_rate)
        unfold f64ToJson
        split
        · exact .float (hf _ (by assumption))
        · exact .null

end

/-! ## Replies -/

section
variable [Http] (bytes : Http.Body → Bytes) (float : Str → Option Http.F64)

/-- What the library says it got out of a reply: if the reply is in the described form, exactly that, and a
data error if it is in no such form. -/
def Says {α : Type} (P : α → Prop) (result : Outcome Error α) : Prop :=
  (∀ a, result = .ok a ↔ P a) ∧ ((∀ a, ¬ P a) → result = .err (.io Http.dataErr))

variable (hp : ∀ body j, Read.body float (bytes body) = some j → Http.parseJson body = .ok j)
include hp

theorem parse_reply {reply : Reply} {code : Nat} {j : J} (h : RepliesJson bytes float reply code j) :
    ∃ body, reply = .response code body ∧ Http.parseJson body = .ok j := by
  obtain ⟨body, t, v, h1, h2, h3, h4⟩ := h
  exact ⟨body, h1, hp body j ((C105_reader_bytes _ _).2 ⟨t, v, h2, h3, h4⟩)⟩

/-- **C105** A node that answers a question for its state in JSON: what `info` returns is what the text says. -/
theorem C105_info (r : StacksRPC) (server : Request → Reply) (code : Nat) (j : J)
    (h : RepliesJson bytes float (server (infoRequest r.url)) code j) (hc : code < 400) :
    Says (IsNodeInfo j) (r.info server).result := by
  obtain ⟨body, h1, h2⟩ := parse_reply bytes float hp h
  constructor
  · intro a
    rw [(C68_info r server).2.1 a]
    constructor
    · rintro ⟨c, b, j', e1, -, e2, e3⟩
      rw [h1] at e1; cases e1
      rw [h2] at e2; cases e2
      exact e3
    · exact fun ha => ⟨code, body, j, h1, hc, h2, ha⟩
  · exact fun hn => ((C68_info_unreadable r server).1 _).2 ⟨code, body, h1, hc, .inr ⟨j, h2, hn, rfl⟩⟩

/-- **C105** The same for `address`. -/
theorem C105_address (r : StacksRPC) (server : Request → Reply) (a : Str) (code : Nat) (j : J)
    (h : RepliesJson bytes float (server (accountRequest r.url a)) code j) (hc : code < 400) :
    Says (IsAddressInfo j) (r.address server a).result := by
  obtain ⟨body, h1, h2⟩ := parse_reply bytes float hp h
  constructor
  · intro i
    rw [(C68_address r server a).2.1 i]
    constructor
    · rintro ⟨c, b, j', e1, -, e2, e3⟩
      rw [h1] at e1; cases e1
      rw [h2] at e2; cases e2
      exact e3
    · exact fun ha => ⟨code, body, j, h1, hc, h2, ha⟩
  · exact fun hn => ((C68_address_unreadable r server a).1 _).2 ⟨code, body, h1, hc, .inr ⟨j, h2, hn, rfl⟩⟩

variable [Hashes]

/-- **C105** The same for `read_only`. -/
theorem C105_read_only (r : StacksRPC) (server : Request → Reply) (address contract function sender : Str)
    (args : List CV) (ha : ∀ a ∈ args, Encodable a) (code : Nat) (j : J)
    (h : RepliesJson bytes float (server (readOnlyRequest r.url address contract function sender
      (args.map fun a => Hex.bytesToHex (sip005 a)))) code j) (hc : code < 400) :
    Says (IsReadOnly j) (r.readOnly server address contract function args sender).result := by
  obtain ⟨body, h1, h2⟩ := parse_reply bytes float hp h
  have q := C63_read_only r server address contract function sender args ha _ rfl
  constructor
  · intro x
    cases x with
    | ok x =>
      rw [q.1 x]
      constructor
      · rintro ⟨c, b, j', e1, -, e2, e3⟩
        rw [h1] at e1; cases e1
        rw [h2] at e2; cases e2
        exact e3
      · exact fun hx => ⟨code, body, j, h1, hc, h2, hx⟩
    | err x =>
      rw [q.2.1 x]
      constructor
      · rintro ⟨c, b, j', e1, -, e2, e3⟩
        rw [h1] at e1; cases e1
        rw [h2] at e2; cases e2
        exact e3
      · exact fun hx => ⟨code, body, j, h1, hc, h2, hx⟩
  · exact fun hn => ((C63_read_only_unreadable r server address contract function sender args ha _ rfl).1 _).2
      ⟨code, body, h1, hc, .inr ⟨j, h2, hn, rfl⟩⟩

variable [Secp]

/-- **C105** The same for `estimate_fee`: the answer is the list of estimates. -/
theorem C105_estimate_fee (r : StacksRPC) (server : Request → Reply) (t : Transaction) (bs p : Bytes)
    (ht : t.encode = .ok bs) (hpay : t.payload.encode = .ok p) (code : Nat) (j : J)
    (h : RepliesJson bytes float (server (feeQuestion r.url (Hex.bytesToHex p) bs.length)) code j) (hc : code < 400) :
    Says (fun x => ∃ f, x = .ok f ∧ IsFeeOk j f) (r.estimateFee server t).result := by
  obtain ⟨body, h1, h2⟩ := parse_reply bytes float hp h
  have q := C63_estimate_fee r server t bs p ht hpay
  constructor
  · intro x
    cases x with
    | ok x =>
      rw [q.1 x]
      constructor
      · rintro ⟨c, b, j', e1, -, e2, e3⟩
        rw [h1] at e1; cases e1
        rw [h2] at e2; cases e2
        exact ⟨_, rfl, e3⟩
      · rintro ⟨f, e, hx⟩
        cases e
        exact ⟨code, body, j, h1, hc, h2, hx⟩
    | err x =>
      rw [q.2.1 x]
      constructor
      · rintro ⟨c, b, e1, e2, -⟩
        rw [h1] at e1; cases e1
        omega
      · rintro ⟨_, e, -⟩
        cases e
  · exact fun hn => ((C63_estimate_fee_unreadable r server t bs p ht hpay).1 _).2
      ⟨code, body, h1, .inl ⟨hc, .inr ⟨j, h2, fun f hf => hn (.ok f) ⟨f, rfl, hf⟩, rfl⟩⟩⟩

/-- **C105** The same for a refused broadcast: the answer is the refusal. -/
theorem C105_broadcast (r : StacksRPC) (server : Request → Reply) (t : Transaction) (bs : Bytes)
    (ht : t.encode = .ok bs) (code : Nat) (j : J)
    (h : RepliesJson bytes float (server (broadcastRequest r.url bs)) code j) (hc : 400 ≤ code) :
    Says (fun x => ∃ e, x = .err e ∧ IsBroadcastErr j e) (r.broadcast server t).result := by
  obtain ⟨body, h1, h2⟩ := parse_reply bytes float hp h
  have q := C63_broadcast r server t bs ht
  constructor
  · intro x
    cases x with
    | err x =>
      rw [q.2.1 x]
      constructor
      · rintro ⟨c, b, j', e1, -, e2, e3⟩
        rw [h1] at e1; cases e1
        rw [h2] at e2; cases e2
        exact ⟨_, rfl, e3⟩
      · rintro ⟨f, e, hx⟩
        cases e
        exact ⟨code, body, j, h1, hc, h2, hx⟩
    | ok x =>
      rw [q.1 x]
      constructor
      · rintro ⟨c, b, e1, e2, -⟩
        rw [h1] at e1; cases e1
        omega
      · rintro ⟨_, e, -⟩
        cases e
  · exact fun hn => ((C63_broadcast_unreadable r server t bs ht).1 _).2
      ⟨code, body, h1, .inr ⟨hc, .inr ⟨j, h2, fun f hf => hn (.err f) ⟨f, rfl, hf⟩, rfl⟩⟩⟩

end

section

deriving instance DecidableEq for AddressInfoResponse

/-- Floats as their text. -/
local instance textHttp : Http where
  Body := Bytes
  IoErr := Unit
  Transport := Unit
  F64 := Str
  intoString b := match fromUtf8 b with
    | some s => .ok s
    | none => .error ()
  parseJson b := match Read.body (F := Str) some b with
    | some j => .ok j
    | none => .error ()
  dataErr := ()
  f64OfNat n := Nat.toDigits 10 n
  f64OfInt i := if i < 0 then '-' :: Nat.toDigits 10 i.natAbs else Nat.toDigits 10 i.natAbs

/-- C105: the hypothesis about reading bodies is met. -/
example : ∀ (body : Http.Body) (j : J), Read.body (F := Str) some body = some j → Http.parseJson body = .ok j := by
  intro body j h
  show (match Read.body (F := Str) some body with | some j => Except.ok j | none => .error ()) = _
  rw [h]

/-- The account of a reply with white space, escapes, a member that is not used and another order. -/
def accountText : Str :=
  " {\"nonce\" : 18446744073709551615,\n \"balance\":\"0x\\u0030A\\n\", \"extra\": [1, {\"a\": -2.5e3}],
    \"locked\":\"\\ud83d\\ude00\",\"unlock_height\":0,\"nonce_proof\":\"\",\"balance_proof\":\"\\/\"}\r\n".toList

/-- C105: what that reply is read as. -/
example : (Read.body (F := Str) some (Str.bytes accountText)).bind AddressInfoResponse.fromJson =
    some ⟨"0x0A\n".toList, "😀".toList, 0, 18446744073709551615, "/".toList, []⟩ := by decide +kernel

/-- C105: and what a call that gets it returns. -/
example : (match (StacksRPC.address ⟨"http://n".toList⟩ (fun _ => .response 200 (Str.bytes accountText))
      "SP1".toList).result with
    | .ok a => a == ⟨"0x0A\n".toList, "😀".toList, 0, 18446744073709551615, "/".toList, []⟩
    | _ => false) = true := by decide +kernel

/-- C105: there is such a reply. -/
example : ∃ j, RepliesJson (fun b => b) some (.response 200 (Str.bytes accountText)) 200 j := by
  have h : (Read.body (F := Str) some (Str.bytes accountText)).isSome = true := by decide +kernel
  obtain ⟨j, hj⟩ := Option.isSome_iff_exists.1 h
  obtain ⟨t, v, e, h1, h2⟩ := (C105_reader_bytes _ _).1 hj
  exact ⟨j, _, t, v, rfl, e, h1, h2⟩

/-- C105: numbers one too large, with a fraction or with an exponent are not integers; leading zeros, missing
digits, commas at the end, text after the value, quotation marks that are missing and single surrogates are
not JSON. -/
example : (["18446744073709551616", "1.0", "1e0"].all fun s =>
      match Read.document (F := Str) some s.toList with | some (.float f) => f == s.toList | _ => false) = true ∧
    (match Read.document (F := Str) some "-9223372036854775808".toList with
      | some (.neg i) => i == -9223372036854775808 | _ => false) = true ∧
    (["01", "1.", "[1,]", "{} x", "{a:1}", "\"\\ud83d\""].all fun s =>
      (Read.document (F := Str) some s.toList).isNone) = true := by decide +kernel

/-- C105: 127 arrays inside each other can be read, 128 cannot. -/
example : (Read.document (F := Str) some (List.replicate 127 '[' ++ List.replicate 127 ']')).isSome = true ∧
    (Read.document (F := Str) some (List.replicate 128 '[' ++ List.replicate 128 ']')).isNone = true := by decide +kernel

/-- C105: texts of floats that are read as those floats. -/
example : ReadNumber (F := Str) some "0.5".toList (.float "0.5".toList) := by
  refine .float ?_ ?_ ?_ rfl
  · exact NumberText.mk (m := []) (i := ['0']) (f := ['.', '5']) (e := []) (.inl rfl)
      ⟨by decide, by decide⟩ (fun _ => rfl) (.inr ⟨['5'], ⟨by decide, by decide⟩, rfl⟩) (.inl rfl)
  · intro n h
    exact absurd (h.2.1 '.' (by decide)) (by decide)
  · intro t n h
    cases h

end

end Stacks.Rpc

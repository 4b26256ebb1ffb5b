import Verif.Props.Rpc
import Verif.Proofs.JsonBody

/-! # Property C94: the text of request bodies -/

namespace Stacks.Rpc
open Stacks.Spec Stacks.Tx
open Stacks.Clarity (CV)

/-- **C94** The text written for a value is a JSON document, and a reader that follows the grammar
can read it in one way only: as the value meant. -/
theorem C94_one_reading {F : Type} (IsFloat : F → Str → Prop) (fl : F → Str)
    (hf : ∀ f, IsFloat f (fl f) ∧ NumberText (fl f)) (j : Json F) :
    ∃ v, Meant IsFloat j v ∧ ∀ w, Document w (j.text fl) ↔ w = v := by
  obtain ⟨v, h1, h2⟩ := document_text hf j
  exact ⟨v, h1, fun w => ⟨fun hw => document_unique hw h2, fun hw => hw ▸ h2⟩⟩

/-- **C94** No text is a document for two values. -/
theorem C94_unambiguous (v w : JsonVal) (t : Str) (h : Document v t) (h' : Document w t) : v = w :=
  document_unique h h'

section
variable [Http] [Secp] [Hashes]

omit [Secp] in
/-- **C94** The body of a read-only call, in whatever order its members are written, has one reading:
an object with the sender, character for character, and the arguments, and nothing else. -/
theorem C94_read_only (fl : Http.F64 → Str) (r : StacksRPC) (server : Request → Reply)
    (address contract function sender : Str) (args : List CV) (h : ∀ a ∈ args, Spec.Encodable a) :
    ∃ req es, (r.readOnly server address contract function args sender).sent = [req] ∧ req.body = .json (.obj es) ∧
      ∀ es', es'.Perm es → ∃ fs, fs.Perm [("sender".toList, JsonVal.string sender),
          ("arguments".toList, .array (args.map fun a => .string (Hex.bytesToHex (sip005 a))))] ∧
        ∀ w, Document w ((Json.obj es').text fl) ↔ w = .object fs := by
  refine ⟨_, _, (C64_read_only_request r server address contract function sender args).1 h, rfl, fun es' hp => ?_⟩
  obtain ⟨fs, gs, h1, h2, h3⟩ := object_plain (fl := fl) hp (fun fl' e he => by
    simp only [List.mem_cons, List.not_mem_nil, or_false] at he
    rcases he with rfl | rfl
    · simp only [Json.text]
    · simp only [Json.text]; rw [itemsText_str fl'])
  refine ⟨fs, ?_, h3⟩
  cases h2 with
  | cons a1 a2 =>
  cases a2 with
  | cons b1 b2 =>
  cases b2
  cases a1
  cases b1 with
  | arr b1 =>
    rw [meantAll_str b1, List.map_map] at h1
    exact h1

/-- **C94** The body of a fee question, in whatever order its members are written, has one reading:
an object with the hexadecimal payload and the length of the transaction, and nothing else. -/
theorem C94_estimate_fee (fl : Http.F64 → Str) (r : StacksRPC) (server : Request → Reply) (t : Transaction)
    (bs p : Bytes) (h : t.encode = .ok bs) (hp : t.payload.encode = .ok p) :
    ∃ req es, (r.estimateFee server t).sent = [req] ∧ req.body = .json (.obj es) ∧
      ∀ es', es'.Perm es → ∃ fs len, Decimal len bs.length ∧
        fs.Perm [("transaction_payload".toList, JsonVal.string (Hex.bytesToHex p)),
          ("estimated_len".toList, .number len)] ∧
        ∀ w, Document w ((Json.obj es').text fl) ↔ w = .object fs := by
  obtain ⟨hex, q, e1, -, -, e2, e3⟩ := (C62_estimate_fee r server t).1 bs h
  rw [hp] at e1
  cases e1
  subst e2
  refine ⟨_, _, e3, rfl, fun es' hp => ?_⟩
  obtain ⟨fs, gs, h1, h2, h3⟩ := object_plain (fl := fl) hp (fun fl' e he => by
    simp only [List.mem_cons, List.not_mem_nil, or_false] at he
    rcases he with rfl | rfl <;> simp only [Json.text])
  cases h2 with
  | cons a1 a2 =>
  cases a2 with
  | cons b1 b2 =>
  cases b2
  cases a1
  cases b1 with
  | num b1 => exact ⟨fs, _, b1, h1, h3⟩

omit [Secp] in
/-- **C94** If the bodies of two read-only calls have the same text, whatever the order of members in
each, the calls have the same sender and the same arguments. In particular no sender, whatever
quotation marks or control characters it has, changes what the node sees of the arguments. -/
theorem C94_same_text (fl : Http.F64 → Str) (r r' : StacksRPC) (server server' : Request → Reply)
    (a a' c c' f f' sender sender' : Str) (args args' : List CV)
    (h : ∀ v ∈ args, WellFormed v) (h' : ∀ v ∈ args', WellFormed v) (req req' : Request)
    (hr : req ∈ (r.readOnly server a c f args sender).sent)
    (hr' : req' ∈ (r'.readOnly server' a' c' f' args' sender').sent) (es es' ds ds' : List (Str × J))
    (he : req.body = .json (.obj es)) (he' : req'.body = .json (.obj es')) (hd : ds.Perm es) (hd' : ds'.Perm es')
    (ht : (Json.obj ds).text fl = (Json.obj ds').text fl) : sender = sender' ∧ args = args' := by
  obtain ⟨q, es1, h1, h2, h3⟩ := C94_read_only fl r server a c f sender args (fun v hv => Clarity.C22_wellFormed_encodable v (h v hv))
  obtain ⟨q', es1', h1', h2', h3'⟩ :=
    C94_read_only fl r' server' a' c' f' sender' args' (fun v hv => Clarity.C22_wellFormed_encodable v (h' v hv))
  rw [h1, List.mem_singleton] at hr
  rw [h1', List.mem_singleton] at hr'
  subst hr hr'
  rw [he] at h2; rw [he'] at h2'
  cases h2; cases h2'
  obtain ⟨fs, p1, p2⟩ := h3 ds hd
  obtain ⟨fs', p1', p2'⟩ := h3' ds' hd'
  have e := (p2' (.object fs)).1 (ht ▸ (p2 (.object fs)).2 rfl)
  injection e with e
  subst e
  have p := p1.symm.trans p1'
  have hs := p.subset (a := ("sender".toList, JsonVal.string sender)) (by simp)
  have ha := p.subset (a := ("arguments".toList, _)) (List.mem_cons_of_mem _ (List.mem_singleton.2 rfl))
  simp only [List.mem_cons, List.not_mem_nil, or_false, Prod.mk.injEq] at hs ha
  have ne : "sender".toList ≠ "arguments".toList := by decide
  have s1 : sender = sender' := by
    rcases hs with ⟨-, hs⟩ | ⟨hs, -⟩
    · injection hs
    · exact absurd hs ne
  refine ⟨s1, ?_⟩
  have a1 : args.map (fun v => JsonVal.string (Hex.bytesToHex (sip005 v))) =
      args'.map (fun v => JsonVal.string (Hex.bytesToHex (sip005 v))) := by
    rcases ha with ⟨ha, -⟩ | ⟨-, ha⟩
    · exact absurd ha.symm ne
    · injection ha
  clear * - h h' a1
  induction args generalizing args' with
  | nil => cases args' with
    | nil => rfl
    | cons _ _ => cases a1
  | cons x xs ih => cases args' with
    | nil => cases a1
    | cons y ys =>
      simp only [List.map_cons, List.cons.injEq, JsonVal.string.injEq] at a1
      rw [ih ys (fun v hv => h v (by simp [hv])) (fun v hv => h' v (by simp [hv])) a1.2]
      have := Clarity.hex_inj a1.1
      obtain ⟨bs, e1, e2⟩ := Clarity.C21_clarity_roundtrip x (h x (by simp)) []
      obtain ⟨bs', e1', e2'⟩ := Clarity.C21_clarity_roundtrip y (h' y (by simp)) []
      rw [Clarity.C22_encode_format x bs e1, this, ← Clarity.C22_encode_format y bs' e1', e2'] at e2
      cases e2
      rfl

end

section
attribute [local instance] Concrete.realHashes Concrete.toySecp toyHttp

/-- C94: how a sender with a quotation mark, a backslash, a line break, another control character, a
character of two bytes and one outside the first plane is written. -/
example : stringText ['a', '"', '\\', '\n', '\x01', 'é', '😀'] = "\"a\\\"\\\\\\n\\u0001é😀\"".toList := by
  decide +kernel

/-- C94: the body of a read-only call whose sender tries to add arguments of its own. -/
example : ((Json.obj [("sender".toList, .str "x\",\"arguments\":[\"".toList),
      ("arguments".toList, .arr [.str "03".toList])] : J).text fun _ => []) =
    "{\"sender\":\"x\\\",\\\"arguments\\\":[\\\"\",\"arguments\":[\"03\"]}".toList := by
  decide +kernel

/-- C94: a fee question is sent for a transaction that can be encoded. -/
example : (match exTx.encode, exTx.payload.encode with | .ok bs, .ok p => decide (p.length < bs.length) | _, _ => false) =
    true := by decide +kernel

/-- C94: arguments of a read-only call. -/
example : ∀ a ∈ [CV.tru, CV.list [.uint 5, .optSome .fls]], WellFormed a := by
  intro a ha
  simp only [List.mem_cons, List.not_mem_nil, or_false] at ha
  rcases ha with rfl | rfl <;> simp [WellFormed, WellFormedAll]

/-- C94: the grammar has more than one text for a value: with white space and other escapes. -/
example : Document (.string ['A']) " \"\\u0041\"\n".toList := by
  have h : Hex4 'A'.toNat ['0', '0', '4', '1'] :=
    .mk (i := 0) (j := 0) (k := 4) (l := 1) (by decide) (by decide) (by decide) (by decide)
  have hs : StringText ['A'] "\"\\u0041\"".toList := .mk (.cons (.unit h) .nil)
  exact ⟨[' '], _, ['\n'], by unfold Ws; decide, .string hs, by unfold Ws; decide, rfl⟩

end

end Stacks.Rpc

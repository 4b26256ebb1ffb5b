import Verif.Proofs.Open
import Verif.Props.Signing

/-! # Property C114: values, post-conditions and payloads of any implementation -/

namespace Stacks.Open
open Stacks.Spec Stacks.Clarity Stacks.Tx

section
variable [Hashes]

/-! ## Values -/

/-- **C114** The bytes of a value are those of its parts in order, each as its own implementation writes it,
with the type numbers, sizes and names of the containers between them; and the outcome of the first part
that fails is the outcome of the whole. -/
theorem C114_pieces (o : Obj) : o.encode = inOrder (pieces o) := encode_pieces o

/-- **C114** The same for payloads. -/
theorem C114_payload_pieces (p : OPayload) : p.encode = inOrder (payloadPieces p) := by
  cases p with
  | tokenTransfer address amount memo =>
    rw [payloadPieces, List.append_assoc, inOrder_append, inOrder_append, ← encode_pieces, inOrder_single]
    rw [OPayload.encode]
    by_cases h : memo.bytes.length ≤ 34
    · rw [if_neg (by show ¬ memo.bytes.length > 34; omega), if_pos h]
      rw [memo_write _ h]
      cases address.encode with
      | ok b => simp [inOrder, payloadTokenTransfer, be64]
      | err e => rfl
      | panic => rfl
    · rw [if_pos (by show memo.bytes.length > 34; omega), if_neg h]; rfl
  | contractCall address contract name args =>
    rw [payloadPieces, inOrder_append, ← encode_pieces, OPayload.encode]
    rw [inOrder_cons, inOrder_cons, inOrder_single]
    rw [← namePiece_eq, ← namePiece_eq]
    show (lpsEncode contract >>= fun _ => _) = _
    cases lpsEncode contract with
    | ok a =>
      show (lpsEncode name >>= fun _ => _) = _
      cases lpsEncode name with
      | ok b =>
        cases (Obj.fnArgs args).encode with
        | ok c => simp [payloadContractCall]
        | err e => rfl
        | panic => rfl
      | err e => rfl
      | panic => rfl
    | err e => rfl
    | panic => rfl
  | foreign encode => rw [payloadPieces, inOrder_single]; rfl

/-- **C114** Containers that hold the crate's values behave as the crate's containers of those values:
same bytes, same texts. -/
theorem C114_crate_containers (v : CV) (vs : List CV) (es : List (Str × CV)) :
    (∀ p ∈ [(Obj.respOk (.crate v), CV.respOk v), (.respErr (.crate v), .respErr v),
        (.optSome (.crate v), .optSome v), (.list (vs.map .crate), .list vs),
        (.tuple (es.map fun e => (e.1, .crate e.2)), .tuple es), (.fnArgs (vs.map .crate), .fnArgs vs)],
      p.1.encode = p.2.encode ∧ p.1.display = p.2.display ∧ p.1.debug = p.2.debug) := by
  simp only [List.mem_cons, List.not_mem_nil, or_false]
  rintro p (rfl | rfl | rfl | rfl | rfl | rfl)
  · exact ⟨by rw [Obj.encode, CV.encode, Obj.encode], rfl, rfl⟩
  · exact ⟨by rw [Obj.encode, CV.encode, Obj.encode], rfl, rfl⟩
  · exact ⟨by rw [Obj.encode, CV.encode, Obj.encode], rfl, rfl⟩
  · refine ⟨by rw [Obj.encode, CV.encode, encodeAll_crate, List.length_map], ?_, ?_⟩
    · show "(list ".toList ++ Obj.displayAll _ ++ _ = "(list ".toList ++ CV.displayAll vs ++ _
      rw [displayAll_crate]
    · show "ListCV(".toList ++ Obj.debugAll _ ++ _ = "ListCV(".toList ++ CV.debugAll vs ++ _
      rw [debugAll_crate]
  · refine ⟨by rw [Obj.encode, CV.encode, encodeEntries_crate, List.length_map], ?_, ?_⟩
    · show "(tuple ".toList ++ Obj.displayEntries _ ++ _ = "(tuple ".toList ++ CV.displayEntries es ++ _
      rw [displayEntries_crate]
    · show "TupleCV(".toList ++ Obj.debugEntries _ ++ _ = "TupleCV(".toList ++ CV.debugEntries es ++ _
      rw [debugEntries_crate]
  · refine ⟨by rw [Obj.encode, CV.encode, encodeAll_crate, List.length_map], ?_, ?_⟩
    · show "(fn-args ".toList ++ Obj.displayAll _ ++ _ = "(fn-args ".toList ++ CV.displayAll vs ++ _
      rw [displayAll_crate]
    · show "FnArguments(".toList ++ Obj.debugAll _ ++ _ = "FnArguments(".toList ++ CV.debugAll vs ++ _
      rw [debugAll_crate]

omit [Hashes] in
/-- **C114** The texts of containers: the texts of the parts as their own implementations show them, between the
words and separators of the container. -/
theorem C114_texts (o : Obj) (os : List Obj) (es : List (Str × Obj)) :
    (Obj.respOk o).display = "(ok ".toList ++ o.display ++ [')'] ∧
    (Obj.respErr o).display = "(err ".toList ++ o.display ++ [')'] ∧
    (Obj.optSome o).display = "(some ".toList ++ o.display ++ [')'] ∧
    (Obj.list os).display = "(list ".toList ++ [' '].intercalate (os.map Obj.display) ++ [')'] ∧
    (Obj.fnArgs os).display = "(fn-args ".toList ++ [' '].intercalate (os.map Obj.display) ++ [')'] ∧
    (Obj.tuple es).display = "(tuple ".toList ++
      [' '].intercalate (es.map fun e => "(".toList ++ e.1 ++ " ".toList ++ e.2.display ++ ")".toList) ++ [')'] ∧
    (Obj.respOk o).debug = "OkCV(".toList ++ o.debug ++ [')'] ∧
    (Obj.respErr o).debug = "ErrCV(".toList ++ o.debug ++ [')'] ∧
    (Obj.optSome o).debug = "SomeCV(".toList ++ o.display ++ [')'] ∧
    (Obj.list os).debug = "ListCV(".toList ++ ", ".toList.intercalate (os.map Obj.debug) ++ [')'] ∧
    (Obj.fnArgs os).debug = "FnArguments(".toList ++ ", ".toList.intercalate (os.map Obj.debug) ++ [')'] ∧
    (Obj.tuple es).debug = "TupleCV(".toList ++
      ", ".toList.intercalate (es.map fun e => e.1 ++ ": ".toList ++ e.2.debug) ++ [')'] := by
  have h1 : ∀ os : List Obj, Obj.displayAll os = [' '].intercalate (os.map Obj.display) := by
    intro os
    induction os with
    | nil => rfl
    | cons o os ih =>
      rw [odisplayAll_cons, ih]
      cases os with
      | nil => simp [List.intercalate]
      | cons o' os => simp [List.intercalate]
  have h2 : ∀ os : List Obj, Obj.debugAll os = ", ".toList.intercalate (os.map Obj.debug) := by
    intro os
    induction os with
    | nil => rfl
    | cons o os ih =>
      rw [odebugAll_cons, ih]
      cases os with
      | nil => simp [List.intercalate]
      | cons o' os => simp [List.intercalate]
  have h3 : ∀ es : List (Str × Obj), Obj.displayEntries es =
      [' '].intercalate (es.map fun e => "(".toList ++ e.1 ++ " ".toList ++ e.2.display ++ ")".toList) := by
    intro es
    induction es with
    | nil => rfl
    | cons e es ih =>
      rw [odisplayEntries_cons, ih]
      cases es with
      | nil => simp [List.intercalate]
      | cons e' es => simp [List.intercalate]
  have h4 : ∀ es : List (Str × Obj), Obj.debugEntries es =
      ", ".toList.intercalate (es.map fun e => e.1 ++ ": ".toList ++ e.2.debug) := by
    intro es
    induction es with
    | nil => rfl
    | cons e es ih =>
      rw [odebugEntries_cons, ih]
      cases es with
      | nil => simp [List.intercalate]
      | cons e' es => simp [List.intercalate]
  refine ⟨rfl, rfl, rfl, ?_, ?_, ?_, rfl, rfl, rfl, ?_, ?_, ?_⟩
  · rw [← h1]; rfl
  · rw [← h1]; rfl
  · rw [← h3]; rfl
  · rw [← h2]; rfl
  · rw [← h2]; rfl
  · rw [← h4]; rfl

/-- **C114** A value with parts of other implementations that write what values of the crate write is
written as the value with those in their places, and read back as it. -/
theorem C114_stand_in {o : Obj} {v : CV} (h : StandsFor o v) :
    o.encode = v.encode ∧
    (WellFormed v → ∃ bs, o.encode = .ok bs ∧ ∀ rest, decode (bs ++ rest) = .ok v) := by
  refine ⟨standsFor_encode h, fun hw => ?_⟩
  obtain ⟨bs, h1, _⟩ := C21_clarity_roundtrip v hw []
  refine ⟨bs, (standsFor_encode h).trans h1, fun rest => ?_⟩
  obtain ⟨bs', h1', h2⟩ := C21_clarity_roundtrip v hw rest
  rw [h1] at h1'
  cases h1'
  exact h2

omit [Hashes] in
/-- **C114** Equality of values is by text: containers of values with the same texts are equal, whatever
those values are and write. -/
theorem C114_equality_by_text (os os' : List Obj) (es es' : List (Str × Obj)) (o o' : Obj) :
    (o.display = o'.display → (Obj.optSome o).eq (.optSome o') = true ∧ (Obj.respOk o).eq (.respOk o') = true ∧
      (Obj.respErr o).eq (.respErr o') = true) ∧
    (os.map Obj.display = os'.map Obj.display → (Obj.list os).eq (.list os') = true ∧
      (Obj.fnArgs os).eq (.fnArgs os') = true) ∧
    (es.map (fun e => (e.1, e.2.display)) = es'.map (fun e => (e.1, e.2.display)) →
      (Obj.tuple es).eq (.tuple es') = true) := by
  refine ⟨fun h => ?_, fun h => ?_, fun h => ?_⟩
  · refine ⟨beq_iff_eq.2 ?_, beq_iff_eq.2 ?_, beq_iff_eq.2 ?_⟩
    · show "(some ".toList ++ o.display ++ _ = "(some ".toList ++ o'.display ++ _; rw [h]
    · show "(ok ".toList ++ o.display ++ _ = "(ok ".toList ++ o'.display ++ _; rw [h]
    · show "(err ".toList ++ o.display ++ _ = "(err ".toList ++ o'.display ++ _; rw [h]
  · refine ⟨beq_iff_eq.2 ?_, beq_iff_eq.2 ?_⟩
    · show "(list ".toList ++ Obj.displayAll os ++ _ = "(list ".toList ++ Obj.displayAll os' ++ _
      rw [displayAll_congr _ _ h]
    · show "(fn-args ".toList ++ Obj.displayAll os ++ _ = "(fn-args ".toList ++ Obj.displayAll os' ++ _
      rw [displayAll_congr _ _ h]
  · refine beq_iff_eq.2 ?_
    show "(tuple ".toList ++ Obj.displayEntries es ++ _ = "(tuple ".toList ++ Obj.displayEntries es' ++ _
    rw [displayEntries_congr _ _ h]

/-- **C114** Post-conditions are a Clarity value too, but write no identifier: in an optional, fewer than
2^24 of them that write at least 17 bytes are read back, without an error, as an optional integer made of
the first bytes; no post-conditions at all make the reader panic. -/
theorem C114_post_conditions_misread (cs : List OCond) (bs : Bytes) (hn : cs.length < 2 ^ 24)
    (he : (Obj.postConditions cs).encode = .ok bs) (hl : 17 ≤ bs.length) :
    (Obj.optSome (.postConditions cs)).encode = .ok (0x0a :: bs) ∧
    (∃ x, decode (0x0a :: bs) = .ok (.optSome (.int x)) ∧ beBytes 16 x.toNat = (bs.take 17).tail) ∧
    (Obj.optSome (.postConditions [])).encode = .ok [0x0a, 0, 0, 0, 0] ∧
    decode [0x0a, 0, 0, 0, 0] = .panic := by
  refine ⟨?_, ?_, ?_, ?_⟩
  · rw [Obj.encode, he]; rfl
  · have h1 : opostConditionsEncode cs = .ok bs := by rw [← he, Obj.postConditions, Obj.encode]
    obtain ⟨_, r, _, hb⟩ := (opostConditions_iff cs bs).1 h1
    have h0 : ∃ t, bs = 0 :: t := by
      have e4 : ∃ u, beBytes 4 cs.length = (0 : UInt8) :: u := by
        have h2 : cs.length / 16777216 = 0 := by omega
        exact ⟨_, by rw [beBytes, show (256 : Nat) ^ 3 = 16777216 from rfl, h2]; rfl⟩
      obtain ⟨u, e4⟩ := e4
      exact ⟨u ++ r, by rw [hb, e4]; rfl⟩
    obtain ⟨t, rfl⟩ := h0
    rw [List.length_cons] at hl
    have hlen : (t.take 16).length = 16 := by rw [List.length_take]; omega
    have hval : beVal (t.take 16) < 2 ^ 128 := by
      have := beVal_lt (t.take 16)
      rw [hlen] at this
      exact lt_of_lt_of_eq this (by norm_num)
    refine ⟨BitVec.ofNat 128 (beVal (t.take 16)), ?_, ?_⟩
    · refine (decode_ok_iff _ _).2 ⟨trivial, t.drop 16, ?_⟩
      show _ = 0x0a :: (0x00 :: beBytes 16 _) ++ _
      rw [toInt_emod, BitVec.toNat_ofNat, Nat.mod_eq_of_lt hval, beBytes_beVal' hlen]
      simp
    · rw [BitVec.toNat_ofNat, Nat.mod_eq_of_lt hval, beBytes_beVal' hlen]; rfl
  · rfl
  · rfl

/-! ## Post-conditions -/

/-- **C114** A post-condition on a value that shows no principal fails with `BadDowncast`. On one that shows a
principal it is the post-condition on that principal: what the value itself writes plays no part. -/
theorem C114_shown_principal (address : Obj) (amount : UInt64) (code : ConditionCode) (info : AssetInfo) (asset : CV) :
    (shownPrincipal address = none →
      (OCond.stx address amount code).encode = .err .badDowncast ∧
      (OCond.fungible address amount code info).encode = .err .badDowncast ∧
      (OCond.nonFungible address (.crate asset) code info).encode = .err .badDowncast) ∧
    (∀ v, shownPrincipal address = some v →
      (OCond.stx address amount code).encode = (Condition.stx v amount code).encode ∧
      (OCond.fungible address amount code info).encode = (Condition.fungible v amount code info).encode ∧
      (OCond.nonFungible address (.crate asset) code info).encode = (Condition.nonFungible v asset code info).encode) := by
  have key : (shownPrincipal address = none → oprincipalBytes address = .err .badDowncast) ∧
      (∀ v, shownPrincipal address = some v → oprincipalBytes address = principalBytes v) := by
    cases address with
    | crate v =>
      cases v <;> refine ⟨fun h => ?_, fun w h => ?_⟩ <;> first | cases h; rfl | rfl | cases h
    | foreign e d g a =>
      cases a with
      | none => exact ⟨fun _ => rfl, fun w h => by cases h⟩
      | some v =>
        cases v <;> refine ⟨fun h => ?_, fun w h => ?_⟩ <;> first | cases h; rfl | rfl | cases h
    | _ => exact ⟨fun _ => rfl, fun w h => by cases h⟩
  refine ⟨fun h => ?_, fun v h => ?_⟩
  · have := key.1 h
    refine ⟨?_, ?_, ?_⟩ <;> (rw [OCond.encode, this]; rfl)
  · have := key.2 v h
    refine ⟨?_, ?_, ?_⟩ <;> (rw [OCond.encode, Condition.encode, this])
    rw [Obj.encode]

/-- **C114** The crate's own conditions are written and shown as ever, alone and in a set; and the set as a value
writes and shows the same. -/
theorem C114_crate_conditions (c : Condition) (cs : List Condition) :
    (ofCondition c).encode = c.encode ∧ (ofCondition c).debug = c.debug ∧
    (Obj.postConditions (cs.map ofCondition)).encode = postConditionsEncode cs ∧
    (Obj.postConditions (cs.map ofCondition)).display = postConditionsDisplay cs ∧
    (Obj.postConditions (cs.map ofCondition)).debug = postConditionsDisplay cs ∧
    ∀ ds, (Obj.postConditions (cs.map ofCondition)).eq (.postConditions (List.map ofCondition ds)) = postConditionsEq cs ds := by
  have hd : ∀ c : Condition, (ofCondition c).debug = c.debug := fun c => by cases c <;> rfl
  have hs : ∀ cs : List Condition, opostConditionsDisplay (cs.map ofCondition) = postConditionsDisplay cs := by
    intro cs
    show "[".toList ++ oconditionsDebugAll _ ++ _ = "[".toList ++ conditionsDebugAll cs ++ _
    congr 2
    induction cs with
    | nil => rfl
    | cons c cs ih => rw [List.map_cons, oconditionsDebugAll, conditionsDebugAll, hd, ih, List.isEmpty_map]
  refine ⟨ofCondition_encode c, hd c, ?_, hs cs, hs cs, fun ds => ?_⟩
  · rw [Obj.postConditions, Obj.encode, opostConditions_of]
  · show (opostConditionsDisplay _ == opostConditionsDisplay _) = (postConditionsDisplay cs == postConditionsDisplay ds)
    rw [hs, hs]

end

/-! ## Transactions -/

section
variable [Hashes] [Secp]

/-- **C114** A transaction with parts of any implementation is encoded exactly when its parts are; the bytes are
those of the header, the authorization, and what the post-conditions and the payload write. -/
theorem C114_transaction_bytes (t : OTransaction) (bs : Bytes) :
    t.encode = .ok bs ↔ SmallAuth t.auth ∧ ∃ conditions payload, Body t conditions payload ∧
      bs = openBytes t conditions payload := oencode_iff t bs

/-- **C114** Parts that write what the crate's would make no difference: to the encoding, to verification, to
making a signer, to any call on it, or to `sign`. -/
theorem C114_transaction_stand_in :
    (∀ o t, Matches o t → o.encode = t.encode ∧ o.initialHash = t.initialHash ∧ o.verifyOrigin = t.verifyOrigin ∧
      Alike SignerMatches (OSigner.new o) (Signer.new t) ∧
      (∀ c, Alike SignerMatches (OSigner.newSponsor o c) (Signer.newSponsor t c)) ∧
      (∀ k, Alike Matches (o.sign k) (t.sign k)) ∧
      (∀ fee, Matches (o.setFee fee) (t.setFee fee)) ∧ (∀ nonce, Matches (o.setNonce nonce) (t.setNonce nonce))) ∧
    (∀ o s op, SignerMatches o s → Alike SignerMatches (openCall op o) (op.call s)) :=
  ⟨fun _ _ h => ⟨matches_encode h, matches_initialHash h, matches_verify h, matches_new h, matches_newSponsor h,
    matches_sign h, fun fee => matches_auth h (congrArg (Auth.setFee · fee) h.auth),
    fun nonce => matches_auth h (congrArg (Auth.setNonce · nonce) h.auth)⟩, fun _ _ op h => matches_call h op⟩

/-- **C114** In particular the crate's own transactions. -/
theorem C114_crate_transactions (t : Transaction) : Matches (ofTransaction t) t := matches_of t

/-- **C114** Signing with parts of any implementation: a single-signature transaction created for the public key
`P`, whose parts have encodings, can be signed with every secret key `k`. If `k` belongs to `P` the origin then
verifies and yields the signer's hash; if the hashes of the keys differ it fails with `BadSigner`. -/
theorem C114_sign_then_verify [Secp.Lawful] (t : OTransaction) (P : Secp.PK) (fee nonce : UInt64) (mode : C32.Mode)
    (c : SingleSig) (k : Secp.SK) (hnew : (SingleSig.new P fee nonce mode : Outcome TxError SingleSig) = .ok c)
    (hc : t.auth.origin = .single c) {conditions payload : Bytes} (hb : Body t conditions payload) :
    ∃ s, (OSigner.new t >>= fun s => s.signOrigin k) = .ok s ∧ t.sign k = .ok s.tx ∧
      s.tx.postConditions = t.postConditions ∧ s.tx.payload = t.payload ∧
      (∃ sig, s.tx.auth = t.auth.setOrigin (.single { c with signature := sig })) ∧
      (Secp.pub k = P → s.tx.verifyOrigin = .ok s.hash) ∧
      (keySigner mode (Secp.pub k) ≠ keySigner mode P →
        ∃ want got, keySigner mode P = some want ∧ keySigner mode (Secp.pub k) = some got ∧
          s.tx.verifyOrigin = .err (.badSigner (Hex.bytesToHex want.1) (Hex.bytesToHex got.1))) := by
  obtain ⟨hm, hfee, hnon, hsig, hns⟩ := (single_new_iff P fee nonce mode c).1 hnew
  have hmode : c.mode = .p2pkh ∨ c.mode = .p2wpkh := by
    rw [hm]; cases mode <;> first | exact .inl rfl | exact .inr rfl | cases hsig
  have hfit : ModeFits t.auth.origin := by rw [hc]; exact hmode
  have hcnt : signatureCount t.auth.origin < requiredCount t.auth.origin := by
    rw [hc]; show (if c.signature = noSignature then 0 else 1) < 1; rw [if_pos hns]; exact Nat.one_pos
  have hs0 := (onew_iff t _).2 ⟨conditions, payload, hb, rfl⟩
  generalize hx : Hashes.sha512_256 (openPreimage t conditions payload) = x at hs0
  have hs1 := (signOrigin_iff ⟨stub t, x, false, true, true⟩ _ k).2 ⟨by simp, fun _ => hcnt, hfit, rfl⟩
  obtain ⟨s, h1, h2⟩ := alike_ok (lock (.signOrigin k) ⟨t, x, false, true, true⟩ ⟨stub t, x, false, true, true⟩
    ⟨rfl, rfl, rfl, rfl, rfl⟩) hs1
  have h1' : OSigner.signOrigin ⟨t, x, false, true, true⟩ k = .ok s := h1
  have ha : s.tx.auth = t.auth.setOrigin (.single { c with
      signature := signatureBytes (presignDigest x 4 c.fee c.nonce) k }) := by
    rw [h2.same.auth]
    show t.auth.setOrigin (withSignature t.auth.origin (signatureBytes (presignDigest x 4 t.auth.origin.fee
      t.auth.origin.nonce) k)) = _
    rw [hc]; rfl
  have hh : s.hash = postsignDigest (presignDigest x 4 c.fee c.nonce)
      (signatureBytes (presignDigest x 4 c.fee c.nonce) k) := by
    rw [h2.same.hash]
    show postsignDigest (presignDigest x 4 t.auth.origin.fee t.auth.origin.nonce)
      (signatureBytes (presignDigest x 4 t.auth.origin.fee t.auth.origin.nonce) k) = _
    rw [hc]; rfl
  have hbs : Body s.tx conditions payload := by rw [h2.left]; exact body_auth hb _
  have hpre : openPreimage s.tx conditions payload = openPreimage t conditions payload := by
    unfold openPreimage
    rw [h2.left]
    simp only []
    rw [ha, cleared_setOrigin _ _ (by rw [hc]; rfl)]
  have hgot : ∃ got, keySigner mode (Secp.pub k) = some got := by
    cases mode <;> first | exact ⟨_, rfl⟩ | cases hsig
  obtain ⟨got, hgot⟩ := hgot
  have hv : s.tx.verifyOrigin = if got = c.signer then .ok s.hash
      else .err (.badSigner (Hex.bytesToHex c.signer.1) (Hex.bytesToHex got.1)) := by
    rw [overifyOrigin_eq _ hbs, hpre, hx, ha, origin_setOrigin]
    show SingleSig.verify { c with signature := _ } _ 4 = _
    rw [single_verify_recovered _ _ 4 (Secp.pub k) got (recovers_signature _ _) (by rw [← hm] at hgot; exact hgot), hh]
  refine ⟨s, by rw [hs0]; exact h1', by unfold OTransaction.sign; rw [hs0, Outcome.ok_bind, h1']; rfl,
    by rw [h2.left], by rw [h2.left], ⟨_, ha⟩, ?_, ?_⟩
  · rintro rfl
    rw [hv, if_pos (Option.some.inj (hgot.symm.trans hsig))]
  · intro hne
    refine ⟨c.signer, got, hsig, hgot, ?_⟩
    rw [hv, if_neg (fun he => hne (by rw [hgot, hsig, he]))]

/-- **C114** Several signatures: walking the participants, exactly `m` of them signing (or any number from `m` to
255 with the check switched off), yields a transaction whose origin verifies. -/
theorem C114_multisig_flow [Secp.Lawful] (t : OTransaction) (ps : List Participant) (fee nonce : UInt64) (m : UInt8)
    (mode : C32.Mode) (c : MultiSig) (oversign : Bool)
    (hnew : (MultiSig.new (ps.map Participant.key) fee nonce m mode : Outcome TxError MultiSig) = .ok c)
    (hc : t.auth.origin = .multi c) {conditions payload : Bytes} (hb : Body t conditions payload)
    (hm : m.toNat ≤ ps.countP Participant.isSigner) (hmax : ps.countP Participant.isSigner < 256)
    (hover : oversign = true → ps.countP Participant.isSigner = m.toNat) :
    ∃ s, (OSigner.new t >>= fun s => openWalk { s with verifyOversign := oversign } ps) = .ok s ∧
      s.tx.verifyOrigin = .ok s.hash ∧ s.tx.postConditions = t.postConditions ∧ s.tx.payload = t.payload ∧
      ((fieldsOf s.tx.auth.origin).map isSignature = ps.map Participant.isSigner) := by
  obtain ⟨⟨h175, hlen⟩, hsig, hce⟩ := (multi_new_iff _ fee nonce m mode c).1 hnew
  have hfields : c.fields = [] := by rw [hce]
  have hreq : c.required = m := by rw [hce]
  have hmo : c.mode = mode := by rw [hce]
  have hmode : c.mode = .p2sh ∨ c.mode = .p2wsh := by
    rw [hmo]; cases mode <;> first | exact .inl rfl | exact .inr rfl | cases hsig
  have hs0 := (onew_iff t _).2 ⟨conditions, payload, hb, rfl⟩
  generalize hx : Hashes.sha512_256 (openPreimage t conditions payload) = x at hs0
  obtain ⟨s', gs, h1, h2, h3, h4, _⟩ := walk_ok ps ⟨stub t, x, false, oversign, true⟩ c hc hmode (by simp)
    (fun he => by rw [hfields, hreq, List.countP_nil]; have := hover he; omega)
  obtain ⟨s, hw, hst⟩ := alike_ok (lock_walk ps ⟨t, x, false, oversign, true⟩ ⟨stub t, x, false, oversign, true⟩
    ⟨rfl, rfl, rfl, rfl, rfl⟩) h1
  have ha : s.tx.auth = t.auth.setOrigin (.multi { c with fields := c.fields ++ gs }) := by
    rw [hst.same.auth, h2]; rfl
  have hbs : Body s.tx conditions payload := by rw [hst.left]; exact body_auth hb _
  have hpre : openPreimage s.tx conditions payload = openPreimage t conditions payload := by
    unfold openPreimage
    rw [hst.left]
    simp only []
    rw [ha, cleared_setOrigin _ _ (by rw [hc]; rfl)]
  refine ⟨s, by rw [hs0]; exact hw, ?_, by rw [hst.left], by rw [hst.left], ?_⟩
  · rw [overifyOrigin_eq _ hbs, hpre, hx, ha, origin_setOrigin, hst.same.hash]
    show MultiSig.verify _ _ 4 = _
    rw [multi_verify_iff]
    simp only [hfields, List.nil_append]
    have hcount : gs.countP isSignature = ps.countP Participant.isSigner := by
      have e1 : (gs.map isSignature).countP id = gs.countP isSignature := by rw [List.countP_map]; rfl
      have e2 : (ps.map Participant.isSigner).countP id = ps.countP Participant.isSigner := by
        rw [List.countP_map]; rfl
      rw [← e1, ← e2, h4]
    exact ⟨_, h3, by rw [hcount, hreq]; exact hm, by rw [hcount]; exact hmax,
      ⟨by rw [hreq]; exact h175, hlen⟩, by rw [hreq, hmo]; exact hsig⟩
  · rw [ha, origin_setOrigin]
    show (c.fields ++ gs).map _ = _
    rw [hfields, List.nil_append]; exact h4

omit [Hashes] in
/-- **C114** The bytes signed fix the version, the chain, the authorization without its signatures, the modes, and
what the post-conditions and the payload write one after the other. -/
theorem C114_preimage_determines (t t' : OTransaction) (cb pb cb' pb' : Bytes) (h : WellFormedAuth t.auth)
    (h' : WellFormedAuth t'.auth) (he : openPreimage t cb pb = openPreimage t' cb' pb') :
    t.version = t'.version ∧ t.chainId = t'.chainId ∧ clearedAuth t.auth = clearedAuth t'.auth ∧
    t.anchorMode = t'.anchorMode ∧ t.postConditionMode = t'.postConditionMode ∧ cb ++ pb = cb' ++ pb' := by
  unfold openPreimage openBytes at he
  simp only [List.append_assoc, List.cons_append, List.nil_append, List.cons.injEq] at he
  obtain ⟨h1, he⟩ := he
  obtain ⟨h2, he⟩ := List.append_inj he (by simp)
  have r : ∀ (a : Auth) (rest : Bytes), WellFormedAuth a →
      (readAuth (fun _ => none)).run (authBytes (clearedAuth a) ++ rest) = some (clearedAuth a, rest) :=
    fun a rest hw => reads_auth (clearedAuth a) (by rw [cleared_fields]; intro f hf; cases hf) (cleared_wf a hw) rest
  have h3 := r t.auth (anchorNumber t.anchorMode :: postModeNumber t.postConditionMode :: (cb ++ pb)) h
  rw [he, r t'.auth _ h'] at h3
  obtain ⟨h4, h5⟩ := Prod.mk.inj (Option.some.inj h3)
  simp only [List.cons.injEq] at h5
  obtain ⟨h6, h7, h8⟩ := h5
  refine ⟨?_, ?_, h4.symm, ?_, ?_, h8.symm⟩
  · revert h1; cases t.version <;> cases t'.version <;> decide
  · revert h2; cases t.chainId <;> cases t'.chainId <;> decide
  · revert h6; cases t.anchorMode <;> cases t'.anchorMode <;> decide
  · revert h7; cases t.postConditionMode <;> cases t'.postConditionMode <;> decide

/-- **C114** If the origins of two transactions with the same signer hash verify with the same signature, the
bytes signed agree, fee and nonce included, or a collision or two digests for one signature are in hand. -/
theorem C114_single_binding (t t' : OTransaction) (c c' : SingleSig) (n n' : Arr 32)
    (hc : t.auth.origin = .single c) (hc' : t'.auth.origin = .single c')
    (hsig : c.signature = c'.signature) (hsigner : c.signer = c'.signer)
    (hv : t.verifyOrigin = .ok n) (hv' : t'.verifyOrigin = .ok n') :
    ∃ cb pb cb' pb', Body t cb pb ∧ Body t' cb' pb' ∧
    ((openPreimage t cb pb = openPreimage t' cb' pb' ∧ c.fee = c'.fee ∧ c.nonce = c'.nonce) ∨
    (openPreimage t cb pb ≠ openPreimage t' cb' pb' ∧
      Hashes.sha512_256 (openPreimage t cb pb) = Hashes.sha512_256 (openPreimage t' cb' pb')) ∨
    (∃ x x', x = presignInput (Hashes.sha512_256 (openPreimage t cb pb)) 4 c.fee c.nonce ∧
      x' = presignInput (Hashes.sha512_256 (openPreimage t' cb' pb')) 4 c'.fee c'.nonce ∧ x ≠ x' ∧
      Hashes.sha512_256 x = Hashes.sha512_256 x') ∨
    (∃ m m' k k', m = presignDigest (Hashes.sha512_256 (openPreimage t cb pb)) 4 c.fee c.nonce ∧
      m' = presignDigest (Hashes.sha512_256 (openPreimage t' cb' pb')) 4 c'.fee c'.nonce ∧ m ≠ m' ∧
      RecoversKey m c.signature k ∧ RecoversKey m' c.signature k' ∧
      keySigner c.mode k = some c.signer ∧ keySigner c'.mode k' = some c.signer)) := by
  obtain ⟨cb, pb, hb, hv⟩ := (overifyOrigin_iff t n).1 hv
  obtain ⟨cb', pb', hb', hv'⟩ := (overifyOrigin_iff t' n').1 hv'
  refine ⟨cb, pb, cb', pb', hb, hb', ?_⟩
  rw [hc] at hv; rw [hc'] at hv'
  obtain ⟨k, r1, s1, _⟩ := (single_verify_iff c _ 4 n).1 hv
  obtain ⟨k', r2, s2, _⟩ := (single_verify_iff c' _ 4 n').1 hv'
  rw [← hsig] at r2; rw [← hsigner] at s2
  generalize openPreimage t cb pb = p at *
  generalize openPreimage t' cb' pb' = p' at *
  by_cases hd : presignDigest (Hashes.sha512_256 p) 4 c.fee c.nonce = presignDigest (Hashes.sha512_256 p') 4 c'.fee c'.nonce
  · by_cases hi : presignInput (Hashes.sha512_256 p) 4 c.fee c.nonce = presignInput (Hashes.sha512_256 p') 4 c'.fee c'.nonce
    · obtain ⟨h1, _, h3, h4⟩ := presignInput_inj hi
      by_cases hp : p = p'
      · exact .inl ⟨hp, h3, h4⟩
      · exact .inr (.inl ⟨hp, h1⟩)
    · exact .inr (.inr (.inl ⟨_, _, rfl, rfl, hi, hd⟩))
  · exact .inr (.inr (.inr ⟨_, _, k, k', rfl, rfl, hd, r1, r2, s1, s2⟩))

end

/-! ## The hypotheses are satisfiable

With the real hash functions and the toy signature scheme. -/

section
attribute [local instance] Concrete.realHashes Concrete.toySecp
local instance : Secp.Lawful := Concrete.toyLawful

/-- A number of another implementation: it writes what the crate's `u7` does. -/
def exSeven : Obj := .foreign (.ok (0x01 :: beBytes 16 7)) "seven".toList "Seven".toList none

/-- A value that cannot be written. -/
def exBroken : Obj := .foreign (.err (.unexpectedType 0x20)) [] [] none

/-- C114: what fails first is what is reported. -/
example : (Obj.list [exSeven, .optSome exBroken, .foreign .panic [] [] none]).encode =
    .err (.unexpectedType 0x20) := by rw [C114_pieces]; rfl
example : (Obj.tuple [("a".toList, exSeven)]).encode =
    .ok ([0x0c, 0, 0, 0, 1, 1, 0x61, 0x01] ++ beBytes 16 7) := by rw [C114_pieces]; decide +kernel

/-- C114: a value that stands for `(some (list u7 true))`. -/
theorem exStandsFor : StandsFor (.optSome (.list [exSeven, .crate .tru])) (.optSome (.list [.uint 7, .tru])) :=
  .optSome (.list (ps := [(exSeven, .uint 7), (.crate .tru, .tru)]) (by
    intro p hp
    rcases List.mem_cons.1 hp with rfl | hp
    · exact .foreign rfl
    · rcases List.mem_cons.1 hp with rfl | hp
      · exact .crate _
      · exact absurd hp List.not_mem_nil))
example : ∃ bs, (Obj.optSome (.list [exSeven, .crate .tru])).encode = .ok bs ∧
    ∀ rest, decode (bs ++ rest) = .ok (.optSome (.list [.uint 7, .tru])) :=
  (C114_stand_in exStandsFor).2 (by simp [WellFormed, WellFormedAll])

/-- C114: equal, although one of them writes `u8`. -/
example : (Obj.list [.foreign (.ok (0x01 :: beBytes 16 8)) "u7".toList [] none]).eq (.list [.crate (.uint 7)]) = true ∧
    (Obj.list [.foreign (.ok (0x01 :: beBytes 16 8)) "u7".toList [] none]).encode ≠ (Obj.list [.crate (.uint 7)]).encode :=
  ⟨((C114_equality_by_text _ _ [] [] exSeven exSeven).2.1 (by decide +kernel)).1, by
    intro h
    simp only [C114_pieces] at h
    revert h
    decide +kernel⟩

/-- C114: the post-conditions of the example, as a value. -/
example : ∃ bs x, (Obj.optSome (.postConditions (exConditions.map ofCondition))).encode = .ok (0x0a :: bs) ∧
    decode (0x0a :: bs) = .ok (.optSome (.int x)) := by
  obtain ⟨bs, hbs⟩ : ∃ bs, opostConditionsEncode (exConditions.map ofCondition) = .ok bs :=
    ⟨_, (opostConditions_of _).trans ((C42_conditions_layout _ _).2 ⟨exTx_wf.2.1,
      fun c hc => wf_encodableCondition c (exConditions_wf c hc), rfl⟩)⟩
  have hl : 17 ≤ bs.length := by
    have h2 := (opostConditions_of _).symm.trans hbs
    obtain ⟨_, _, rfl⟩ := (C42_conditions_layout _ _).1 h2
    decide +kernel
  obtain ⟨h1, ⟨x, h2, _⟩, _⟩ := C114_post_conditions_misread _ bs (by decide) hbs hl
  exact ⟨bs, x, h1, h2⟩

/-- C114: an address that shows one principal and writes another: the post-condition is about the first, the
payment goes to the second. -/
def exTwoFaced : Obj :=
  .foreign (CV.principalStd "ST000000000000000000002AMW42H".toList).encode [] []
    (some (.principalStd "STB44HYPYAT2BB2QE513NSP81HTMYWBJP02HPGK6".toList))
example : (OCond.stx exTwoFaced 5 .eq).encode =
    (Condition.stx (.principalStd "STB44HYPYAT2BB2QE513NSP81HTMYWBJP02HPGK6".toList) 5 .eq).encode :=
  ((C114_shown_principal exTwoFaced 5 .eq ⟨[], [], []⟩ .tru).2 _ rfl).1
example : (OPayload.tokenTransfer exTwoFaced 5 []).encode =
    (Payload.tokenTransfer ⟨.principalStd "ST000000000000000000002AMW42H".toList, 5, []⟩).encode := rfl
example : (OCond.stx exSeven 5 .eq).encode = .err .badDowncast :=
  ((C114_shown_principal exSeven 5 .eq ⟨[], [], []⟩ .tru).1 rfl).1

/-- A payload the crate does not have: the deployment of a contract `c` with the code `1`. -/
def exDeploy : OPayload := .foreign (.ok [0x01, 1, 0x63, 0, 0, 0, 1, 0x31])
def exOpen : OTransaction :=
  ⟨.testnet, .testnet, .standard (.single exSingle), .any, .deny, [.foreign (.ok [0xff]) []], exDeploy⟩
theorem exOpen_body : Body exOpen [0, 0, 0, 1, 0xff] [0x01, 1, 0x63, 0, 0, 0, 1, 0x31] :=
  ⟨⟨by decide, [0xff], rfl, rfl⟩, rfl⟩

/-- C114: it is signed and verified. -/
example : ∃ t', exOpen.sign (exKey 1) = .ok t' ∧ t'.payload = exDeploy ∧ ∃ n, t'.verifyOrigin = .ok n := by
  obtain ⟨s, _, h1, _, h2, _, h3, _⟩ := C114_sign_then_verify exOpen _ 180 5 .p2pkh exSingle (exKey 1) exSingle_new rfl
    exOpen_body
  exact ⟨_, h1, h2, _, h3 rfl⟩
example : ∃ t', exOpen.sign (exKey 2) = .ok t' ∧ ∃ a b, t'.verifyOrigin = .err (.badSigner a b) := by
  obtain ⟨s, _, h1, _, _, _, _, h2⟩ := C114_sign_then_verify exOpen _ 180 5 .p2pkh exSingle (exKey 2) exSingle_new rfl
    exOpen_body
  obtain ⟨_, _, _, _, h⟩ := h2 exKeys_differ
  exact ⟨_, h1, _, _, h⟩
example : ∃ s, (OSigner.new { exOpen with auth := .standard (.multi exTwoOfThree) } >>=
    fun s => openWalk { s with verifyOversign := true } exParts) = .ok s ∧ s.tx.verifyOrigin = .ok s.hash := by
  obtain ⟨s, h1, h2, _⟩ := C114_multisig_flow { exOpen with auth := .standard (.multi exTwoOfThree) } exParts 180 5 2
    .p2sh exTwoOfThree true exTwoOfThree_new rfl exOpen_body (by decide) (by decide) (fun _ => by decide)
  exact ⟨s, h1, h2⟩
example : Matches { ofTransaction exTx with payload := .foreign exTx.payload.encode } exTx :=
  { C114_crate_transactions exTx with payload := rfl }
example : ∃ bs, exOpen.encode = .ok bs := ⟨_, (C114_transaction_bytes _ _).2 ⟨trivial, _, _, exOpen_body, rfl⟩⟩

/-- C114: one signature, two transactions: a standard one that verifies, twice. -/
example : ∃ t c n, OTransaction.auth t = .standard (.single c) ∧ WellFormedAuth t.auth ∧ t.verifyOrigin = .ok n := by
  obtain ⟨s, _, _, _, _, ⟨sig, ha⟩, h3, _⟩ := C114_sign_then_verify exOpen _ 180 5 .p2pkh exSingle (exKey 1)
    exSingle_new rfl exOpen_body
  exact ⟨s.tx, _, s.hash, ha, by rw [ha]; exact .inl rfl, h3 rfl⟩

end

end Stacks.Open

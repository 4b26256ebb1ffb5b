import Verif.Spec.Open
import Verif.Proofs.Flow

/-! # Lemmas about values, post-conditions and payloads of any implementation -/

namespace Stacks.Open
open Stacks.Spec Stacks.Clarity Stacks.Tx

section
variable [Hashes]

omit [Hashes] in
theorem inOrder_cons (p : Outcome Error Bytes) (ps : List (Outcome Error Bytes)) :
    inOrder (p :: ps) = (do let a ← p; let b ← inOrder ps; pure (a ++ b)) := by
  cases p with
  | ok b => rw [inOrder]; cases inOrder ps <;> rfl
  | err e => rfl
  | panic => rfl

omit [Hashes] in
theorem inOrder_append (ps qs : List (Outcome Error Bytes)) :
    inOrder (ps ++ qs) = (do let a ← inOrder ps; let b ← inOrder qs; pure (a ++ b)) := by
  induction ps with
  | nil => rw [List.nil_append]; show _ = (inOrder qs >>= fun b => pure ([] ++ b)); cases inOrder qs <;> rfl
  | cons p ps ih =>
    rw [List.cons_append, inOrder_cons, inOrder_cons, ih]
    cases p with
    | ok b =>
      cases inOrder ps with
      | ok a =>
        cases inOrder qs with
        | ok c => simp
        | err e => rfl
        | panic => rfl
      | err e => rfl
      | panic => rfl
    | err e => rfl
    | panic => rfl

omit [Hashes] in
theorem inOrder_single (p : Outcome Error Bytes) : inOrder [p] = p := by
  cases p <;> simp [inOrder]

omit [Hashes] in
theorem sizePiece_eq (n : Nat) : lenBytes n = sizePiece n := by
  unfold sizePiece
  by_cases h : n < 2 ^ 32
  · rw [if_pos h, lenBytes_ok h]
  · rw [if_neg h, lenBytes_err h]

omit [Hashes] in
theorem namePiece_eq (s : Str) : lpsEncode s = namePiece s := by
  unfold namePiece
  by_cases h : s.bytes.length ≤ 128
  · rw [if_pos h, lpsEncode_ok h]; rfl
  · rw [if_neg h, lpsEncode_err h]

mutual
theorem encode_pieces : (o : Obj) → o.encode = inOrder (pieces o)
  | .crate v => by rw [Obj.encode, pieces, inOrder_single]
  | .respOk o => by rw [Obj.encode, pieces, inOrder_cons, encode_pieces o]; rfl
  | .respErr o => by rw [Obj.encode, pieces, inOrder_cons, encode_pieces o]; rfl
  | .optSome o => by rw [Obj.encode, pieces, inOrder_cons, encode_pieces o]; rfl
  | .list os => by
    rw [Obj.encode, pieces, inOrder_cons, inOrder_cons, encodeAll_pieces os, sizePiece_eq]
    cases sizePiece os.length <;> cases inOrder (piecesAll os) <;> rfl
  | .tuple es => by
    rw [Obj.encode, pieces, inOrder_cons, inOrder_cons, encodeEntries_pieces es, sizePiece_eq]
    cases sizePiece es.length <;> cases inOrder (piecesEntries es) <;> rfl
  | .fnArgs os => by rw [Obj.encode, pieces, inOrder_cons, encodeAll_pieces os, sizePiece_eq]
  | .foreign e _ _ _ => by rw [Obj.encode, pieces, inOrder_single]

theorem encodeAll_pieces : (os : List Obj) → Obj.encodeAll os = inOrder (piecesAll os)
  | [] => by rw [Obj.encodeAll, piecesAll, inOrder]
  | o :: os => by rw [Obj.encodeAll, piecesAll, inOrder_append, encode_pieces o, encodeAll_pieces os]

theorem encodeEntries_pieces : (es : List (Str × Obj)) → Obj.encodeEntries es = inOrder (piecesEntries es)
  | [] => by rw [Obj.encodeEntries, piecesEntries, inOrder]
  | (k, o) :: es => by
    rw [Obj.encodeEntries, piecesEntries, List.cons_append, inOrder_cons, inOrder_append, encode_pieces o,
      encodeEntries_pieces es, namePiece_eq]
    cases namePiece k <;> cases inOrder (pieces o) <;> cases inOrder (piecesEntries es) <;> first | rfl | simp
end

theorem encodeAll_like (ps : List (Obj × CV)) (h : ∀ p ∈ ps, p.1.encode = p.2.encode) :
    Obj.encodeAll (ps.map (·.1)) = CV.encodeAll (ps.map (·.2)) := by
  induction ps with
  | nil => rfl
  | cons p ps ih =>
    rw [List.map_cons, List.map_cons, Obj.encodeAll, CV.encodeAll, h p List.mem_cons_self,
      ih (fun q hq => h q (List.mem_cons_of_mem _ hq))]

theorem encodeEntries_like (ps : List (Str × Obj × CV)) (h : ∀ p ∈ ps, p.2.1.encode = p.2.2.encode) :
    Obj.encodeEntries (ps.map fun p => (p.1, p.2.1)) = CV.encodeEntries (ps.map fun p => (p.1, p.2.2)) := by
  induction ps with
  | nil => rfl
  | cons p ps ih =>
    rw [List.map_cons, List.map_cons, Obj.encodeEntries, CV.encodeEntries, h p List.mem_cons_self,
      ih (fun q hq => h q (List.mem_cons_of_mem _ hq))]

theorem standsFor_encode {o : Obj} {v : CV} (h : StandsFor o v) : o.encode = v.encode := by
  induction h with
  | crate v => rw [Obj.encode]
  | foreign h => rw [Obj.encode, h]
  | respOk _ ih => rw [Obj.encode, CV.encode, ih]
  | respErr _ ih => rw [Obj.encode, CV.encode, ih]
  | optSome _ ih => rw [Obj.encode, CV.encode, ih]
  | list _ ih => rw [Obj.encode, CV.encode, encodeAll_like _ ih, List.length_map, List.length_map]
  | fnArgs _ ih => rw [Obj.encode, CV.encode, encodeAll_like _ ih, List.length_map, List.length_map]
  | tuple _ ih => rw [Obj.encode, CV.encode, encodeEntries_like _ ih, List.length_map, List.length_map]

/-! ## Containers of the crate's values -/

theorem encodeAll_crate (vs : List CV) : Obj.encodeAll (vs.map .crate) = CV.encodeAll vs := by
  induction vs with
  | nil => rfl
  | cons v vs ih => rw [List.map_cons, Obj.encodeAll, CV.encodeAll, ih, Obj.encode]

theorem encodeEntries_crate (es : List (Str × CV)) :
    Obj.encodeEntries (es.map fun e => (e.1, .crate e.2)) = CV.encodeEntries es := by
  induction es with
  | nil => rfl
  | cons e es ih => rw [List.map_cons, Obj.encodeEntries, CV.encodeEntries, ih, Obj.encode]

omit [Hashes] in
theorem odisplay_crate (v : CV) : (Obj.crate v).display = v.display := rfl
omit [Hashes] in
theorem odisplayAll_cons (o : Obj) (os : List Obj) :
    Obj.displayAll (o :: os) = o.display ++ (if os.isEmpty then [] else ' ' :: Obj.displayAll os) := rfl
omit [Hashes] in
theorem odisplayEntries_cons (k : Str) (o : Obj) (es : List (Str × Obj)) :
    Obj.displayEntries ((k, o) :: es) = '(' :: k ++ ' ' :: o.display ++ ")".toList ++
      (if es.isEmpty then [] else ' ' :: Obj.displayEntries es) := rfl
omit [Hashes] in
theorem odebug_crate (v : CV) : (Obj.crate v).debug = v.debug := rfl
omit [Hashes] in
theorem odebugAll_cons (o : Obj) (os : List Obj) :
    Obj.debugAll (o :: os) = o.debug ++ (if os.isEmpty then [] else ", ".toList ++ Obj.debugAll os) := rfl
omit [Hashes] in
theorem odebugEntries_cons (k : Str) (o : Obj) (es : List (Str × Obj)) :
    Obj.debugEntries ((k, o) :: es) = k ++ ": ".toList ++ o.debug ++
      (if es.isEmpty then [] else ", ".toList ++ Obj.debugEntries es) := rfl

omit [Hashes] in
theorem displayAll_crate (vs : List CV) : Obj.displayAll (vs.map .crate) = CV.displayAll vs := by
  induction vs with
  | nil => rfl
  | cons v vs ih => rw [List.map_cons, odisplayAll_cons, CV.displayAll, ih, odisplay_crate, List.isEmpty_map]

omit [Hashes] in
theorem displayEntries_crate (es : List (Str × CV)) :
    Obj.displayEntries (es.map fun e => (e.1, .crate e.2)) = CV.displayEntries es := by
  induction es with
  | nil => rfl
  | cons e es ih => rw [List.map_cons, odisplayEntries_cons, CV.displayEntries, ih, odisplay_crate, List.isEmpty_map]

omit [Hashes] in
theorem debugAll_crate (vs : List CV) : Obj.debugAll (vs.map .crate) = CV.debugAll vs := by
  induction vs with
  | nil => rfl
  | cons v vs ih => rw [List.map_cons, odebugAll_cons, CV.debugAll, ih, odebug_crate, List.isEmpty_map]

omit [Hashes] in
theorem debugEntries_crate (es : List (Str × CV)) :
    Obj.debugEntries (es.map fun e => (e.1, .crate e.2)) = CV.debugEntries es := by
  induction es with
  | nil => rfl
  | cons e es ih => rw [List.map_cons, odebugEntries_cons, CV.debugEntries, ih, odebug_crate, List.isEmpty_map]

omit [Hashes] in
theorem displayAll_congr : ∀ (os os' : List Obj), os.map Obj.display = os'.map Obj.display →
    Obj.displayAll os = Obj.displayAll os'
  | [], [], _ => rfl
  | [], _ :: _, h => by simp at h
  | _ :: _, [], h => by simp at h
  | o :: os, o' :: os', h => by
    rw [List.map_cons, List.map_cons, List.cons.injEq] at h
    rw [odisplayAll_cons, odisplayAll_cons, h.1, displayAll_congr os os' h.2]
    have : os.isEmpty = os'.isEmpty := by
      have hl := congrArg List.length h.2
      rw [List.length_map, List.length_map] at hl
      cases os <;> cases os' <;> simp at hl <;> rfl
    rw [this]

omit [Hashes] in
theorem displayEntries_congr : ∀ (es es' : List (Str × Obj)),
    es.map (fun e => (e.1, e.2.display)) = es'.map (fun e => (e.1, e.2.display)) →
    Obj.displayEntries es = Obj.displayEntries es'
  | [], [], _ => rfl
  | [], _ :: _, h => by simp at h
  | _ :: _, [], h => by simp at h
  | (k, o) :: es, (k', o') :: es', h => by
    rw [List.map_cons, List.map_cons, List.cons.injEq, Prod.mk.injEq] at h
    obtain ⟨⟨h1, h2⟩, h3⟩ := h
    simp only [] at h1 h2
    rw [odisplayEntries_cons, odisplayEntries_cons, h1, h2, displayEntries_congr es es' h3]
    have : es.isEmpty = es'.isEmpty := by
      have hl := congrArg List.length h3
      rw [List.length_map, List.length_map] at hl
      cases es <;> cases es' <;> simp at hl <;> rfl
    rw [this]

/-! ## Conditions and payloads -/

theorem ofCondition_encode (c : Condition) : (ofCondition c).encode = c.encode := by
  cases c <;> rfl

theorem oencodeConditions_inOrder (cs : List OCond) : oencodeConditions cs = inOrder (cs.map OCond.encode) := by
  induction cs with
  | nil => rfl
  | cons c cs ih => rw [oencodeConditions, List.map_cons, inOrder_cons, ih]

theorem oencodeConditions_of (cs : List Condition) :
    oencodeConditions (cs.map ofCondition) = encodeConditions cs := by
  induction cs with
  | nil => rfl
  | cons c cs ih => rw [List.map_cons, oencodeConditions, encodeConditions, ih, ofCondition_encode]

theorem opostConditions_of (cs : List Condition) :
    opostConditionsEncode (cs.map ofCondition) = postConditionsEncode cs := by
  rw [opostConditionsEncode, postConditionsEncode, oencodeConditions_of, List.length_map]

theorem ofPayload_encode (p : Payload) : (ofPayload p).encode = p.encode := by
  cases p with
  | tokenTransfer p => rfl
  | contractCall p =>
    show OPayload.encode (.contractCall _ _ _ _) = p.encode
    rw [OPayload.encode, ContractCall.encode]
    rw [Obj.encode, encodeAll_crate, List.length_map]
    rfl

theorem opostConditions_iff (cs : List OCond) (b : Bytes) :
    opostConditionsEncode cs = .ok b ↔
      cs.length < 2 ^ 32 ∧ ∃ bs, inOrder (cs.map OCond.encode) = .ok bs ∧ b = beBytes 4 cs.length ++ bs := by
  rw [opostConditionsEncode, oencodeConditions_inOrder]
  by_cases h : cs.length < 2 ^ 32
  · rw [lenBytes_ok h]
    simp only [Outcome.ok_bind, Outcome.bind_eq_ok, Outcome.pure_def, Outcome.ok.injEq]
    constructor
    · rintro ⟨bs, h1, rfl⟩; exact ⟨h, bs, h1, rfl⟩
    · rintro ⟨_, bs, h1, rfl⟩; exact ⟨bs, h1, rfl⟩
  · rw [lenBytes_err h]
    constructor
    · intro h'; cases h'
    · intro h'; exact absurd h'.1 h

end

/-! ## Transactions -/

section
variable [Hashes] [Secp]

theorem oencode_iff (t : OTransaction) (bs : Bytes) :
    t.encode = .ok bs ↔ SmallAuth t.auth ∧ ∃ cb pb, Body t cb pb ∧ bs = openBytes t cb pb := by
  unfold OTransaction.encode
  simp only [Outcome.bind_eq_ok, auth_encode_iff, opostConditions_iff, Outcome.pure_def, Outcome.ok.injEq]
  have e : ∀ cb pb, [t.version.toU8] ++ beBytes 4 t.chainId.toU32.toNat ++ authBytes t.auth ++
      [t.anchorMode.toU8] ++ [t.postConditionMode.toU8] ++ cb ++ pb = openBytes t cb pb := by
    intro cb pb
    rw [openBytes, version_eq, chain_eq, anchor_eq, postMode_eq]
    simp
  constructor
  · rintro ⟨_, ⟨h1, rfl⟩, cb, h2, pb, h3, rfl⟩
    exact ⟨h1, cb, pb, ⟨h2, h3⟩, e cb pb⟩
  · rintro ⟨h1, cb, pb, ⟨h2, h3⟩, rfl⟩
    exact ⟨_, ⟨h1, rfl⟩, cb, h2, pb, h3, e cb pb⟩

theorem body_unique {t : OTransaction} {cb pb cb' pb' : Bytes} (h : Body t cb pb) (h' : Body t cb' pb') :
    cb = cb' ∧ pb = pb' := by
  have h1 := (opostConditions_iff t.postConditions cb).2 h.1
  rw [(opostConditions_iff t.postConditions cb').2 h'.1] at h1
  have h2 := h.2
  rw [h'.2] at h2
  exact ⟨(Outcome.ok.inj h1).symm, (Outcome.ok.inj h2).symm⟩

theorem oinitialHash_iff (t : OTransaction) (x : Arr 32) :
    t.initialHash = .ok x ↔ ∃ cb pb, Body t cb pb ∧ x = Hashes.sha512_256 (openPreimage t cb pb) := by
  unfold OTransaction.initialHash OTransaction.hash
  rw [Outcome.bind_eq_ok]
  simp only [Outcome.mapErr_eq_ok, oencode_iff, auth_reset, Outcome.pure_def, Outcome.ok.injEq]
  constructor
  · rintro ⟨bs, ⟨_, cb, pb, h, rfl⟩, rfl⟩; exact ⟨cb, pb, h, rfl⟩
  · rintro ⟨cb, pb, h, rfl⟩; exact ⟨_, ⟨cleared_small _, cb, pb, h, rfl⟩, rfl⟩

theorem overifyOrigin_eq (t : OTransaction) {cb pb : Bytes} (h : Body t cb pb) :
    t.verifyOrigin = t.auth.origin.verify (Hashes.sha512_256 (openPreimage t cb pb)) 4 := by
  unfold OTransaction.verifyOrigin
  rw [(oinitialHash_iff t _).2 ⟨cb, pb, h, rfl⟩]; rfl

theorem overifyOrigin_iff (t : OTransaction) (n : Arr 32) :
    t.verifyOrigin = .ok n ↔ ∃ cb pb, Body t cb pb ∧
      t.auth.origin.verify (Hashes.sha512_256 (openPreimage t cb pb)) 4 = .ok n := by
  constructor
  · intro h
    have h0 := h
    unfold OTransaction.verifyOrigin at h
    rw [Outcome.bind_eq_ok] at h
    obtain ⟨x, hx, _⟩ := h
    obtain ⟨cb, pb, hb, _⟩ := (oinitialHash_iff t x).1 hx
    rw [overifyOrigin_eq t hb] at h0
    exact ⟨cb, pb, hb, h0⟩
  · rintro ⟨cb, pb, hb, h⟩
    rw [overifyOrigin_eq t hb]; exact h

theorem onew_iff (t : OTransaction) (s : OSigner) :
    OSigner.new t = .ok s ↔ ∃ cb pb, Body t cb pb ∧
      s = ⟨t, Hashes.sha512_256 (openPreimage t cb pb), false, true, true⟩ := by
  unfold OSigner.new
  rw [Outcome.bind_eq_ok]
  simp only [oinitialHash_iff, Outcome.pure_def, Outcome.ok.injEq]
  constructor
  · rintro ⟨x, ⟨cb, pb, h, rfl⟩, rfl⟩; exact ⟨cb, pb, h, rfl⟩
  · rintro ⟨cb, pb, h, rfl⟩; exact ⟨_, ⟨cb, pb, h, rfl⟩, rfl⟩

theorem body_auth {t : OTransaction} {cb pb : Bytes} (h : Body t cb pb) (a : Auth) :
    Body { t with auth := a } cb pb := h

/-! ### Signers in lockstep -/

/-- The same state of two signers, whatever the rest of their transactions. -/
structure Same (o : OSigner) (s : Signer) : Prop where
  auth : o.tx.auth = s.tx.auth
  hash : o.hash = s.hash
  originSigned : o.originSigned = s.originSigned
  verifyOversign : o.verifyOversign = s.verifyOversign
  verifyOverlap : o.verifyOverlap = s.verifyOverlap

/-- ... after a step that changed nothing else. -/
structure Step (o : OSigner) (s : Signer) (o' : OSigner) (s' : Signer) : Prop where
  same : Same o' s'
  left : o'.tx = { o.tx with auth := o'.tx.auth }
  right : s'.tx = { s.tx with auth := s'.tx.auth }

omit [Hashes] in
theorem Step.trans {o o' o'' : OSigner} {s s' s'' : Signer} (h : Step o s o' s') (h' : Step o' s' o'' s'') :
    Step o s o'' s'' :=
  ⟨h'.same, by rw [h'.left, h.left], by rw [h'.right, h.right]⟩

theorem lock (op : SignerOp) (o : OSigner) (s : Signer) (h : Same o s) :
    Alike (Step o s) (openCall op o) (op.call s) := by
  obtain ⟨⟨v, ci, a, am, pm, pcs, pl⟩, hh, os, vs, vl⟩ := o
  obtain ⟨⟨v', ci', a', am', pm', pcs', pl'⟩, hh', os', vs', vl'⟩ := s
  obtain ⟨h1, h2, h3, h4, h5⟩ := h
  simp only [] at h1 h2 h3 h4 h5
  subst h1 h2 h3 h4 h5
  cases op with
  | signOrigin k =>
    show Alike _ (OSigner.signOrigin _ k) (Signer.signOrigin _ k)
    unfold OSigner.signOrigin Signer.signOrigin OTransaction.signNextOrigin Transaction.signNextOrigin
    simp only []
    split
    · exact .err _
    · generalize (if vs = true then _ else _ : Outcome TxError Bool) = over
      cases over with
      | ok b =>
        simp only [Outcome.ok_bind]
        cases b
        · cases signAndAppend a.origin hh authTypeStandard k with
          | ok r => exact .ok ⟨⟨rfl, rfl, rfl, rfl, rfl⟩, rfl, rfl⟩
          | err e => exact .err _
          | panic => exact .panic
        · exact .err _
      | err e => exact .err _
      | panic => exact .panic
  | signSponsor k =>
    show Alike _ (OSigner.signSponsor _ k) (Signer.signSponsor _ k)
    unfold OSigner.signSponsor Signer.signSponsor OTransaction.signNextSponsor Transaction.signNextSponsor
    cases a with
    | standard o => exact .err _
    | sponsored o c =>
      simp only [Auth.sponsor, Outcome.ok_bind]
      generalize (if vs = true then _ else _ : Outcome TxError Bool) = over
      cases over with
      | ok b =>
        simp only [Outcome.ok_bind]
        cases b
        · cases signAndAppend c hh authTypeSponsored k with
          | ok r => exact .ok ⟨⟨rfl, rfl, rfl, rfl, rfl⟩, rfl, rfl⟩
          | err e => exact .err _
          | panic => exact .panic
        · exact .err _
      | err e => exact .err _
      | panic => exact .panic
  | appendOrigin k =>
    show Alike _ (OSigner.appendOrigin _ k) (Signer.appendOrigin _ k)
    unfold OSigner.appendOrigin Signer.appendOrigin OTransaction.appendNextOrigin Transaction.appendNextOrigin
    simp only []
    split
    · exact .err _
    · have hk : Alike (Step ⟨⟨v, ci, a, am, pm, pcs, pl⟩, hh, os, vs, vl⟩ ⟨⟨v', ci', a, am', pm', pcs', pl'⟩, hh, os, vs, vl⟩)
          ((a.origin.modify (.addPublicKey k) >>= fun c => pure ⟨v, ci, a.setOrigin c, am, pm, pcs, pl⟩ :
            Outcome TxError OTransaction) >>= fun tx => pure ⟨tx, hh, os, vs, vl⟩)
          ((a.origin.modify (.addPublicKey k) >>= fun c => pure ⟨v', ci', a.setOrigin c, am', pm', pcs', pl'⟩ :
            Outcome TxError Transaction) >>= fun tx => pure ⟨tx, hh, os, vs, vl⟩) := by
        cases (a.origin.modify (.addPublicKey k) : Outcome TxError Spending) with
        | ok r => exact .ok ⟨⟨rfl, rfl, rfl, rfl, rfl⟩, rfl, rfl⟩
        | err e => exact .err _
        | panic => exact .panic
      cases a.origin.mode with
      | p2sh => exact hk
      | p2wsh => exact hk
      | p2pkh => exact .err _
      | p2wpkh => exact .err _

theorem lock_walk (ps : List Participant) : ∀ (o : OSigner) (s : Signer), Same o s →
    Alike (Step o s) (openWalk o ps) (walk s ps) := by
  induction ps with
  | nil => intro o s h; exact .ok ⟨h, rfl, rfl⟩
  | cons p ps ih =>
    intro o s h
    have key : ∀ op : SignerOp, Alike (Step o s) (openCall op o >>= fun o' => openWalk o' ps)
        (op.call s >>= fun s' => walk s' ps) := by
      intro op
      have hl := lock op o s h
      generalize openCall op o = x at hl ⊢
      generalize op.call s = y at hl ⊢
      cases hl with
      | ok hr =>
        rename_i o' s'
        simp only [Outcome.ok_bind]
        have hl' := ih o' s' hr.same
        generalize openWalk o' ps = x' at hl' ⊢
        generalize walk s' ps = y' at hl' ⊢
        cases hl' with
        | ok hr' => exact .ok (hr.trans hr')
        | err e => exact .err e
        | panic => exact .panic
      | err e => exact .err e
      | panic => exact .panic
    cases p with
    | signs k => exact key (.signOrigin k)
    | absent k => exact key (.appendOrigin k)

/-- A transaction of the crate's with the same header and authorization. -/
def stub (t : OTransaction) : Transaction :=
  ⟨t.version, t.chainId, t.auth, t.anchorMode, t.postConditionMode, [], .tokenTransfer ⟨.tru, 0, []⟩⟩

omit [Hashes] [Secp] in
theorem alike_ok {ε α β : Type} {R : α → β → Prop} {x : Outcome ε α} {y : Outcome ε β} {b : β}
    (h : Alike R x y) (hy : y = .ok b) : ∃ a, x = .ok a ∧ R a b := by
  subst hy
  cases h with
  | ok h => exact ⟨_, rfl, h⟩

/-! ### Matching transactions -/

theorem matches_encode {o : OTransaction} {t : Transaction} (h : Matches o t) : o.encode = t.encode := by
  unfold OTransaction.encode Transaction.encode
  rw [h.version, h.chainId, h.auth, h.anchorMode, h.postConditionMode, h.conditions, h.payload]

theorem matches_auth {o : OTransaction} {t : Transaction} (h : Matches o t) {a b : Auth} (he : a = b) :
    Matches { o with auth := a } { t with auth := b } :=
  ⟨h.version, h.chainId, he, h.anchorMode, h.postConditionMode, h.conditions, h.payload⟩

theorem matches_initialHash {o : OTransaction} {t : Transaction} (h : Matches o t) : o.initialHash = t.initialHash := by
  unfold OTransaction.initialHash Transaction.initialHash OTransaction.hash Transaction.hash
  rw [matches_encode (matches_auth h (congrArg Auth.reset h.auth))]

theorem matches_verify {o : OTransaction} {t : Transaction} (h : Matches o t) : o.verifyOrigin = t.verifyOrigin := by
  unfold OTransaction.verifyOrigin Transaction.verifyOrigin
  rw [matches_initialHash h, h.auth]

theorem matches_new {o : OTransaction} {t : Transaction} (h : Matches o t) :
    Alike SignerMatches (OSigner.new o) (Signer.new t) := by
  unfold OSigner.new Signer.new
  rw [matches_initialHash h]
  cases t.initialHash with
  | ok x => exact .ok ⟨h, rfl, rfl, rfl, rfl⟩
  | err e => exact .err e
  | panic => exact .panic

theorem matches_newSponsor {o : OTransaction} {t : Transaction} (h : Matches o t) (c : Spending) :
    Alike SignerMatches (OSigner.newSponsor o c) (Signer.newSponsor t c) := by
  unfold OSigner.newSponsor Signer.newSponsor
  rw [h.auth]
  split
  · exact .err _
  · cases (t.auth.setSponsor c : Outcome TxError Auth) with
    | ok a =>
      simp only [Outcome.ok_bind]
      have hm := matches_auth h (rfl : a = a)
      rw [matches_verify hm]
      cases Transaction.verifyOrigin { t with auth := a } with
      | ok x =>
        simp only [Outcome.ok_bind]
        have hn := matches_new hm
        generalize OSigner.new { o with auth := a } = x at hn ⊢
        generalize Signer.new { t with auth := a } = y at hn ⊢
        cases hn with
        | ok h => exact .ok ⟨h.tx, rfl, rfl, rfl, rfl⟩
        | err e => exact .err e
        | panic => exact .panic
      | err e => exact .err e
      | panic => exact .panic
    | err e => exact .err e
    | panic => exact .panic

theorem step_matches {o o' : OSigner} {s s' : Signer} (h : SignerMatches o s) (hs : Step o s o' s') :
    SignerMatches o' s' := by
  refine ⟨?_, hs.same.hash, hs.same.originSigned, hs.same.verifyOversign, hs.same.verifyOverlap⟩
  rw [hs.left, hs.right]
  exact matches_auth h.tx hs.same.auth

omit [Hashes] [Secp] in
theorem Alike.mono {ε α β : Type} {R S : α → β → Prop} {x : Outcome ε α} {y : Outcome ε β} (h : Alike R x y)
    (hi : ∀ a b, R a b → S a b) : Alike S x y := by
  cases h with
  | ok h => exact .ok (hi _ _ h)
  | err e => exact .err e
  | panic => exact .panic

theorem matches_call {o : OSigner} {s : Signer} (h : SignerMatches o s) (op : SignerOp) :
    Alike SignerMatches (openCall op o) (op.call s) :=
  Alike.mono (lock op o s ⟨h.tx.auth, h.hash, h.originSigned, h.verifyOversign, h.verifyOverlap⟩)
    (fun _ _ hs => step_matches h hs)

theorem matches_sign {o : OTransaction} {t : Transaction} (h : Matches o t) (k : Secp.SK) :
    Alike Matches (o.sign k) (t.sign k) := by
  unfold OTransaction.sign Transaction.sign
  have hn := matches_new h
  generalize OSigner.new o = x at hn ⊢
  generalize Signer.new t = y at hn ⊢
  cases hn with
  | ok h =>
    simp only [Outcome.ok_bind]
    have hc := matches_call h (.signOrigin k)
    rename_i a b
    simp only [openCall, SignerOp.call] at hc
    generalize a.signOrigin k = x' at hc ⊢
    generalize b.signOrigin k = y' at hc ⊢
    cases hc with
    | ok h => exact .ok h.tx
    | err e => exact .err e
    | panic => exact .panic
  | err e => exact .err e
  | panic => exact .panic

theorem matches_of (t : Transaction) : Matches (ofTransaction t) t :=
  ⟨rfl, rfl, rfl, rfl, rfl, opostConditions_of _, ofPayload_encode _⟩

end

end Stacks.Open

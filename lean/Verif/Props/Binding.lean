import Verif.Spec.Binding
import Verif.Props.EcdsaVerify

/-! # C99: what a signature is bound to -/

namespace Stacks.Tx
open Stacks.Concrete.Ecdsa Stacks.Spec WeierstrassCurve

/-- The nonce point of a signature is determined by the signature. -/
theorem fits_point {m m' : Arr 32} {t : RSig} {d d' : SK} {e e' x x' y y' : Nat} (h : Fits m t d e x y)
    (h' : Fits m' t d' e' x' y') : x = x' ∧ e = e' := by
  obtain ⟨hQ, hE, hx, hy⟩ := repA_some h.point
  obtain ⟨hQ', hE', hx', hy'⟩ := repA_some h'.point
  have hxx : x = x' := by
    have h1 := h.r_eq.symm.trans h'.r_eq
    have h2 : n ≤ x ↔ n ≤ x' := h.high.symm.trans h'.high
    have h3 := p_lt_2n
    rcases lt_or_ge x n with hl | hl
    · have hl' : x' < n := by by_contra hc; exact absurd (h2.2 (by omega)) (by omega)
      rwa [Nat.mod_eq_of_lt hl, Nat.mod_eq_of_lt hl'] at h1
    · have hl' := h2.1 hl
      rw [Nat.mod_eq_sub_mod hl, Nat.mod_eq_sub_mod hl', Nat.mod_eq_of_lt (by omega), Nat.mod_eq_of_lt (by omega)] at h1
      omega
  subst hxx
  refine ⟨rfl, ?_⟩
  have hpar : (y % 2 == 1) = (y' % 2 == 1) := h.odd.symm.trans h'.odd
  have e1 : (y : F) ^ 2 = (x : F) ^ 3 + 7 := (equation_iff' _ _).1 hQ.1
  have e2 : (y' : F) ^ 2 = (x : F) ^ 3 + 7 := (equation_iff' _ _).1 hQ'.1
  have hyy : y = y' := by
    rcases sq_eq_sq_iff_eq_or_eq_neg.1 (e1.trans e2.symm) with hs | hs
    · exact cast_inj hy hy' hs
    · exfalso
      have hy0 : y' ≠ 0 := by
        rintro rfl
        exact ordinate_ne e2 Nat.cast_zero
      have : y = p - y' := cast_inj hy (by omega) (by rw [cast_sub' hy', hs])
      rw [this, odd_sub hy'] at hpar
      revert hpar; cases (y' % 2 == 1) <;> decide
  subst hyy
  have h3 : e • G = e' • G := hE.trans hE'.symm
  rw [nsmul_inj_mod, addOrderOf_G, Nat.mod_eq_of_lt h.lt, Nat.mod_eq_of_lt h'.lt] at h3
  exact h3

section
variable [Secp] [Hashes]

theorem keys_collide {mode mode' : C32.Mode} {k k' : Secp.PK} {s : Arr 20} (h : keySigner mode k = some s)
    (h' : keySigner mode' k' = some s) (hne : k ≠ k') : KeysCollide mode mode' k k' := by
  have hlen : ∀ q : Secp.PK, (Secp.serialize q).1.length = 33 := fun q => (Secp.serialize q).2
  refine ⟨hne, ?_⟩
  cases mode <;> first | (cases h; done) | skip
  all_goals cases mode' <;> first | (cases h'; done) | skip
  · exact .inl (Option.some.inj (h.trans h'.symm))
  · refine .inr ⟨fun he => ?_, Option.some.inj (h.trans h'.symm)⟩
    have := congrArg List.length he
    simp only [keyProgram, List.length_cons, hlen, (hash160Of _).2] at this
    omega
  · refine .inr ⟨fun he => ?_, Option.some.inj (h.trans h'.symm)⟩
    have := congrArg List.length he
    simp only [keyProgram, List.length_cons, hlen, (hash160Of _).2] at this
    omega
  · by_cases he : keyProgram .p2wpkh k = keyProgram .p2wpkh k'
    · exact .inl (Subtype.ext (List.cons.inj (List.cons.inj he).2).2)
    · exact .inr ⟨he, Option.some.inj (h.trans h'.symm)⟩

omit [Hashes] in
theorem script_length (m : Nat) (ks : List Secp.PK) : (multisigScriptSpec m ks).length = 3 + 34 * ks.length := by
  have : ∀ ks : List Secp.PK, (ks.flatMap (fun k => 33 :: (Secp.serialize k).1)).length = 34 * ks.length := by
    intro ks
    induction ks with
    | nil => rfl
    | cons k ks ih => rw [List.flatMap_cons, List.length_append, ih, List.length_cons, (Secp.serialize k).2, List.length_cons]; omega
  unfold multisigScriptSpec
  rw [List.length_cons, List.length_append, this]
  simp only [List.length_cons, List.length_nil]
  omega

theorem accounts_collide [Secp.Lawful] {mode mode' : C32.Mode} {m m' : Nat} {ks ks' : List Secp.PK} {s : Arr 20} (hm : m ≤ 175)
    (hm' : m' ≤ 175) (h : scriptSigner mode m ks = some s) (h' : scriptSigner mode' m' ks' = some s) (hne : ks ≠ ks') :
    AccountsCollide mode mode' (multisigScriptSpec m ks) (multisigScriptSpec m' ks') := by
  have hs : multisigScriptSpec m ks ≠ multisigScriptSpec m' ks' :=
    fun he => hne (C32.C20_script_injective m m' ks ks' hm hm' he).2
  refine ⟨hs, ?_⟩
  cases mode <;> first | (cases h; done) | skip
  all_goals cases mode' <;> first | (cases h'; done) | skip
  · exact .inr ⟨hs, Option.some.inj (h.trans h'.symm)⟩
  · refine .inr ⟨fun he => ?_, Option.some.inj (h.trans h'.symm)⟩
    have := congrArg List.length he
    simp only [scriptProgram, script_length, List.length_cons, (Hashes.sha256 _).2] at this
    omega
  · refine .inr ⟨fun he => ?_, Option.some.inj (h.trans h'.symm)⟩
    have := congrArg List.length he
    simp only [scriptProgram, script_length, List.length_cons, (Hashes.sha256 _).2] at this
    omega
  · by_cases he : scriptProgram .p2wsh (multisigScriptSpec m ks) = scriptProgram .p2wsh (multisigScriptSpec m' ks')
    · exact .inl (Subtype.ext (List.cons.inj (List.cons.inj he).2).2)
    · exact .inr ⟨he, Option.some.inj (h.trans h'.symm)⟩

/-- The first signature is checked against the first message and gives the key at its place. -/
theorem recovers_first_at {typ : UInt8} {fee nonce : UInt64} {h h1 : Arr 32} {fs : List AuthField}
    {ks : List Secp.PK} (a : Recovers typ fee nonce h fs ks h1) (hc : 0 < fs.countP isSignature) :
    ∃ sig k, fs.find? isSignature = some (.msg sig) ∧ RecoversKey (presignDigest h typ fee nonce) sig k ∧
      ks[fs.findIdx isSignature]? = some k := by
  induction a with
  | nil => simp at hc
  | pk h h' k fs ks _ ih =>
    rw [List.countP_cons_of_neg (fun h => Bool.noConfusion h)] at hc
    obtain ⟨sig, k', h1, h2, h3⟩ := ih hc
    refine ⟨sig, k', ?_, h2, ?_⟩
    · rw [List.find?_cons_of_neg (fun h => Bool.noConfusion h)]; exact h1
    · rw [List.findIdx_cons]; exact h3
  | msg h h' s k fs ks hk _ ih =>
    refine ⟨s, k, List.find?_cons_of_pos rfl, hk, ?_⟩
    rw [List.findIdx_cons]; rfl

end

section
attribute [local instance] realSecp
local instance bindingLawful : Secp.Lawful := realLawful

/-- **C99** The 65 bytes of a signature recover a given key for one message only, up to the order of the
group. -/
theorem C99_one_digest (m m' : Arr 32) (sig : Arr 65) (q : PK) (h : RecoversKey m sig q)
    (h' : RecoversKey m' sig q) : beVal m.1 ≡ beVal m'.1 [MOD Ecdsa.order] := by
  obtain ⟨bs, hl⟩ := sig
  match bs, hl, h, h' with
  | b :: rs, hl, h, h' =>
    obtain ⟨id, hrs, rfl, hr⟩ := (recoversKey_iff m b rs hl q).1 h
    obtain ⟨id', hrs', hid, hr'⟩ := (recoversKey_iff m' _ rs hl q).1 h'
    have hinj : ∀ i j : Fin 4, UInt8.ofNat i = UInt8.ofNat j → i = j := by decide
    obtain rfl := hinj _ _ hid
    obtain ⟨d, e, x, y, hd, hf⟩ := recover_fits hr
    obtain ⟨d', e', x', y', hd', hf'⟩ := recover_fits hr'
    obtain rfl : d = d' := (C82_key_pairs q).unique hd hd'
    obtain ⟨rfl, rfl⟩ := fits_point hf hf'
    have he := hf.eq
    have he' := hf'.eq
    rw [he] at he'
    exact (ZMod.natCast_eq_natCast_iff _ _ n).1 (add_right_cancel he')

variable [Hashes]

omit [Hashes] in
theorem congr_cases (m m' : Arr 32) (h : beVal m.1 ≡ beVal m'.1 [MOD Ecdsa.order]) :
    m = m' ∨ beVal m.1 = beVal m'.1 + Ecdsa.order ∨ beVal m'.1 = beVal m.1 + Ecdsa.order := by
  have h1 := beVal_lt m.1
  have h2 := beVal_lt m'.1
  rw [m.2] at h1
  rw [m'.2] at h2
  have h3 : 256 ^ 32 < 2 * Ecdsa.order := by decide
  have h4 : 0 < Ecdsa.order := by decide
  generalize hN : Ecdsa.order = N at *
  have hq1 : beVal m.1 / N < 2 := Nat.div_lt_of_lt_mul (by omega)
  have hq2 : beVal m'.1 / N < 2 := Nat.div_lt_of_lt_mul (by omega)
  have hd1 := Nat.div_add_mod (beVal m.1) N
  have hd2 := Nat.div_add_mod (beVal m'.1) N
  have hm : beVal m.1 % N = beVal m'.1 % N := h
  generalize beVal m.1 / N = a at *
  generalize beVal m'.1 / N = b at *
  have : a = 0 ∨ a = 1 := by omega
  have : b = 0 ∨ b = 1 := by omega
  have key : beVal m.1 = beVal m'.1 → m = m' := fun he => Subtype.ext (by
    rw [← beBytes_beVal' m.2, ← beBytes_beVal' m'.2, he])
  rcases ‹a = 0 ∨ a = 1› with rfl | rfl <;> rcases ‹b = 0 ∨ b = 1› with rfl | rfl
  · left; apply key; omega
  · right; right; omega
  · right; left; omega
  · left; apply key; omega

/-- **C99** Digests that meet are equal, or as numbers exactly the order of the group apart. -/
theorem C99_congruent (x y : Bytes) (h : DigestsMeet x y) :
    x ≠ y ∧ (Hashes.sha512_256 x = Hashes.sha512_256 y ∨
      beVal (Hashes.sha512_256 x).1 = beVal (Hashes.sha512_256 y).1 + Ecdsa.order ∨
      beVal (Hashes.sha512_256 y).1 = beVal (Hashes.sha512_256 x).1 + Ecdsa.order) :=
  ⟨h.1, congr_cases _ _ h.2⟩

/-- **C99** The same signatures accepted for the same account are bound to the previous hash, the role,
the fee and the nonce, unless explicit digests or accounts collide. -/
theorem C99_binding (o o' : Spending) (h h' n n' : Arr 32) (typ typ' : UInt8) (hs : SameSignatures o o')
    (hv : o.verify h typ = .ok n) (hv' : o'.verify h' typ' = .ok n') :
    (h = h' ∧ typ = typ' ∧ o.fee = o'.fee ∧ o.nonce = o'.nonce) ∨
    DigestsMeet (firstSigned h typ o) (firstSigned h' typ' o') ∨ SignersCollide h typ h' typ' o o' := by
  by_cases hi : firstSigned h typ o = firstSigned h' typ' o'
  · exact .inl (presignInput_inj hi)
  refine .inr ?_
  match o, o', hs, hv, hv', hi with
  | .single c, .single c', ⟨h1, h2⟩, hv, hv', hi =>
    obtain ⟨k, r1, s1, _⟩ := (single_verify_iff c _ _ n).1 hv
    obtain ⟨k', r2, s2, _⟩ := (single_verify_iff c' _ _ n').1 hv'
    by_cases hk : k = k'
    · subst hk
      exact .inl ⟨hi, C99_one_digest _ _ _ k r1 (h1 ▸ r2)⟩
    · exact .inr ⟨k, k', r1, r2, keys_collide s1 (h2 ▸ s2) hk⟩
  | .multi c, .multi c', ⟨h1, h2, h3⟩, hv, hv', hi =>
    obtain ⟨ks, r1, _, _, q1, s1⟩ := (multi_verify_iff c _ _ n).1 hv
    obtain ⟨ks', r2, _, _, q2, s2⟩ := (multi_verify_iff c' _ _ n').1 hv'
    by_cases hk : ks = ks'
    · subst hk
      rw [← h1] at r2
      obtain ⟨sig, k, a1, a2, a3⟩ := recovers_first_at r1 h3
      obtain ⟨sig', k', b1, b2, b3⟩ := recovers_first_at r2 h3
      rw [a1] at b1
      obtain rfl : sig = sig' := by simpa using b1
      rw [a3] at b3
      obtain rfl : k = k' := by simpa using b3
      exact .inl ⟨hi, C99_one_digest _ _ _ k a2 b2⟩
    · exact .inr ⟨ks, ks', n, n', r1, r2, accounts_collide q1.1 q2.1 s1 (h2 ▸ s2) hk⟩

/-- **C99** For two transactions: everything signed agrees, fee and nonce included. -/
theorem C99_origin (t t' : Transaction) (n n' : Arr 32) (h : WellFormedTransaction t) (h' : WellFormedTransaction t')
    (hs : SameSignatures t.auth.origin t'.auth.origin) (hv : t.verifyOrigin = .ok n) (hv' : t'.verifyOrigin = .ok n') :
    (signedContent t = signedContent t' ∧ t.auth.origin.fee = t'.auth.origin.fee ∧
      t.auth.origin.nonce = t'.auth.origin.nonce) ∨
    (signingPreimage t ≠ signingPreimage t' ∧
      Hashes.sha512_256 (signingPreimage t) = Hashes.sha512_256 (signingPreimage t')) ∨
    DigestsMeet (firstSigned (Hashes.sha512_256 (signingPreimage t)) 4 t.auth.origin)
      (firstSigned (Hashes.sha512_256 (signingPreimage t')) 4 t'.auth.origin) ∨
    SignersCollide (Hashes.sha512_256 (signingPreimage t)) 4 (Hashes.sha512_256 (signingPreimage t')) 4
      t.auth.origin t'.auth.origin := by
  obtain ⟨_, hv⟩ := (verifyOrigin_iff t n).1 hv
  obtain ⟨_, hv'⟩ := (verifyOrigin_iff t' n').1 hv'
  rcases C99_binding _ _ _ _ n n' 4 4 hs hv hv' with ⟨h1, _, h3, h4⟩ | h1 | h1
  · by_cases hp : signingPreimage t = signingPreimage t'
    · exact .inl ⟨C44_preimage_determines t t' h h' hp, h3, h4⟩
    · exact .inr (.inl ⟨hp, h1⟩)
  · exact .inr (.inr (.inl h1))
  · exact .inr (.inr (.inr h1))

omit [Hashes] in
theorem sameBody_trans {a b c : Transaction} (h : SameBody a b) (g : SameBody b c) : SameBody a c :=
  ⟨h.1.trans g.1, h.2.1.trans g.2.1, h.2.2.1.trans g.2.2.1, h.2.2.2.1.trans g.2.2.2.1,
    h.2.2.2.2.1.trans g.2.2.2.2.1, h.2.2.2.2.2.1.trans g.2.2.2.2.2.1, h.2.2.2.2.2.2.trans g.2.2.2.2.2.2⟩

omit [Hashes] in
theorem setters_same (ss : List Setter) : ∀ t : Transaction, SameBody (runSetters t ss) t ∧
    ∀ o, SameSignatures o t.auth.origin → SameSignatures o (runSetters t ss).auth.origin := by
  induction ss with
  | nil => intro t; exact ⟨⟨rfl, rfl, rfl, rfl, rfl, rfl, rfl⟩, fun _ h => h⟩
  | cons s ss ih =>
    intro t
    cases s with
    | fee x =>
      obtain ⟨h1, h2⟩ := ih (t.setFee x)
      refine ⟨sameBody_trans h1 ?_, fun o h => h2 o ?_⟩ <;>
        obtain ⟨v, c, a, am, pm, pcs, p⟩ := t <;> rcases a with (c | c) | ⟨c | c, s⟩
      all_goals first | exact ⟨rfl, rfl, rfl, rfl, rfl, rfl, rfl⟩ | (cases o <;> exact h)
    | nonce x =>
      obtain ⟨h1, h2⟩ := ih (t.setNonce x)
      refine ⟨sameBody_trans h1 ?_, fun o h => h2 o ?_⟩ <;>
        obtain ⟨v, c, a, am, pm, pcs, p⟩ := t <;> rcases a with (c | c) | ⟨c | c, s⟩
      all_goals first | exact ⟨rfl, rfl, rfl, rfl, rfl, rfl, rfl⟩ | (cases o <;> exact h)

/-- **C99** The fee and the nonce of a signed transaction cannot be changed: whatever `set_fee` and
`set_nonce` do after the signature, if the origin still verifies then fee and nonce are as signed. -/
theorem C99_setters (t : Transaction) (ss : List Setter) (n n' : Arr 32)
    (hs : SameSignatures t.auth.origin t.auth.origin) (hv : t.verifyOrigin = .ok n)
    (hv' : (runSetters t ss).verifyOrigin = .ok n') :
    (lastFee t.auth.origin.fee ss = t.auth.origin.fee ∧ lastNonce t.auth.origin.nonce ss = t.auth.origin.nonce) ∨
    DigestsMeet (firstSigned (Hashes.sha512_256 (signingPreimage t)) 4 t.auth.origin)
      (firstSigned (Hashes.sha512_256 (signingPreimage t)) 4 (runSetters t ss).auth.origin) ∨
    SignersCollide (Hashes.sha512_256 (signingPreimage t)) 4 (Hashes.sha512_256 (signingPreimage t)) 4
      t.auth.origin (runSetters t ss).auth.origin := by
  obtain ⟨h1, h2⟩ := setters_same ss t
  obtain ⟨e1, e2, _⟩ := C45_last_write_wins ss t
  obtain ⟨_, hv⟩ := (verifyOrigin_iff t n).1 hv
  obtain ⟨_, hv'⟩ := (verifyOrigin_iff _ n').1 hv'
  rw [h1.preimage] at hv'
  rcases C99_binding _ _ _ _ n n' 4 4 (h2 _ hs) hv hv' with ⟨_, _, h3, h4⟩ | h3
  · exact .inl ⟨by rw [← e1, h3], by rw [← e2, h4]⟩
  · exact .inr h3

/-- **C99** The signatures of an origin are not accepted as those of a sponsor. -/
theorem C99_roles (o p : Spending) (h h' n n' : Arr 32) (hs : SameSignatures o p) (hv : o.verify h 4 = .ok n)
    (hv' : p.verify h' 5 = .ok n') :
    DigestsMeet (firstSigned h 4 o) (firstSigned h' 5 p) ∨ SignersCollide h 4 h' 5 o p := by
  rcases C99_binding o p h h' n n' 4 5 hs hv hv' with ⟨_, h2, _⟩ | h1
  · exact absurd h2 (by decide)
  · exact h1

end

/-! ## C100 -/

section
variable [Secp] [Hashes]

/-- The hash after some signatures. -/
def sigChain (typ : UInt8) (fee nonce : UInt64) (h : Arr 32) (ss : List (Arr 65)) : Arr 32 :=
  ss.foldl (fun g s => postsignDigest (presignDigest g typ fee nonce) s) h

omit [Secp] in
theorem sigChain_concat (typ : UInt8) (fee nonce : UInt64) (h : Arr 32) (ss : List (Arr 65)) (s : Arr 65) :
    sigChain typ fee nonce h (ss ++ [s]) =
      postsignDigest (presignDigest (sigChain typ fee nonce h ss) typ fee nonce) s := by
  unfold sigChain; rw [List.foldl_append]; rfl

theorem hashedAlong_concat (typ : UInt8) (fee nonce : UInt64) (s : Arr 65) (ss : List (Arr 65)) : ∀ h : Arr 32,
    hashedAlong typ fee nonce h ((ss ++ [s]).map .msg) = hashedAlong typ fee nonce h (ss.map .msg) ++
      [presignInput (sigChain typ fee nonce h ss) typ fee nonce,
        (presignDigest (sigChain typ fee nonce h ss) typ fee nonce).1 ++ [0x00] ++ s.1] := by
  induction ss with
  | nil => intro h; rfl
  | cons a ss ih =>
    intro h
    show _ :: _ :: hashedAlong typ fee nonce _ ((ss ++ [s]).map .msg) = _
    rw [ih]; rfl

/-- Only the signatures matter. -/
theorem recovers_chain {typ : UInt8} {fee nonce : UInt64} {h n : Arr 32} {fs : List AuthField} {ks : List Secp.PK}
    (a : Recovers typ fee nonce h fs ks n) : ∃ ss : List (Arr 65), fs.filter isSignature = ss.map .msg ∧
      n = sigChain typ fee nonce h ss ∧ hashedAlong typ fee nonce h fs = hashedAlong typ fee nonce h (ss.map .msg) := by
  induction a with
  | nil h => exact ⟨[], rfl, rfl, rfl⟩
  | pk h h' k fs ks _ ih =>
    obtain ⟨ss, h1, h2, h3⟩ := ih
    exact ⟨ss, by rw [List.filter_cons_of_neg (fun h => Bool.noConfusion h), h1], h2, h3⟩
  | msg h h' s k fs ks _ _ ih =>
    obtain ⟨ss, h1, h2, h3⟩ := ih
    refine ⟨s :: ss, by rw [List.filter_cons_of_pos rfl, h1]; rfl, h2, ?_⟩
    show _ :: _ :: hashedAlong typ fee nonce _ fs = _
    rw [h3]; rfl

omit [Secp] in
theorem collision_mono {xs ys xs' ys' : List Bytes} (h : HashCollision xs ys) (hx : xs ⊆ xs') (hy : ys ⊆ ys') :
    HashCollision xs' ys' := by
  obtain ⟨x, h1, y, h2, h3⟩ := h
  exact ⟨x, hx h1, y, hy h2, h3⟩

/-- Two chains that end in the same hash are the same chain. -/
theorem chain_back (typ : UInt8) (fee nonce fee' nonce' : UInt64) (X Y : Bytes) (hX : 98 < X.length)
    (hY : 98 < Y.length) (ss : List (Arr 65)) : ∀ ss' : List (Arr 65),
    sigChain typ fee nonce (Hashes.sha512_256 X) ss = sigChain typ fee' nonce' (Hashes.sha512_256 Y) ss' →
    (ss = ss' ∧ X = Y ∧ (ss ≠ [] → fee = fee' ∧ nonce = nonce')) ∨
    HashCollision (X :: hashedAlong typ fee nonce (Hashes.sha512_256 X) (ss.map .msg))
      (Y :: hashedAlong typ fee' nonce' (Hashes.sha512_256 Y) (ss'.map .msg)) := by
  have hlen : ∀ (m : Arr 32) (s : Arr 65), (m.1 ++ [0x00] ++ s.1).length = 98 := by
    intro m s; simp [m.2, s.2]
  induction ss using List.reverseRecOn with
  | nil =>
    intro ss' he
    induction ss' using List.reverseRecOn with
    | nil =>
      by_cases hXY : X = Y
      · exact .inl ⟨rfl, hXY, fun h => absurd rfl h⟩
      · exact .inr ⟨X, by simp, Y, by simp, hXY, he⟩
    | append_singleton u' s' _ =>
      rw [sigChain_concat] at he
      refine .inr ⟨X, by simp, _, by rw [hashedAlong_concat]; simp, ?_, he⟩
      intro hc
      have := congrArg List.length hc
      rw [hlen] at this
      omega
  | append_singleton u s ih =>
    intro ss' he
    induction ss' using List.reverseRecOn with
    | nil =>
      rw [sigChain_concat] at he
      refine .inr ⟨_, by rw [hashedAlong_concat]; simp, Y, by simp, ?_, he⟩
      intro hc
      have := congrArg List.length hc
      rw [hlen] at this
      omega
    | append_singleton u' s' _ =>
      rw [sigChain_concat, sigChain_concat] at he
      rw [hashedAlong_concat, hashedAlong_concat]
      generalize hg : sigChain typ fee nonce (Hashes.sha512_256 X) u = g at *
      generalize hg' : sigChain typ fee' nonce' (Hashes.sha512_256 Y) u' = g' at *
      by_cases hP : (presignDigest g typ fee nonce).1 ++ [0x00] ++ s.1 = (presignDigest g' typ fee' nonce').1 ++ [0x00] ++ s'.1
      · obtain ⟨h1, h2⟩ := List.append_inj hP (by simp [(presignDigest _ _ _ _).2])
        obtain ⟨h3, _⟩ := List.append_inj h1 (by rw [(presignDigest _ _ _ _).2, (presignDigest _ _ _ _).2])
        obtain rfl : s = s' := Subtype.ext h2
        by_cases hI : presignInput g typ fee nonce = presignInput g' typ fee' nonce'
        · obtain ⟨e1, _, e3, e4⟩ := presignInput_inj hI
          rcases ih u' (by rw [e1, hg']) with ⟨f1, f2, _⟩ | hc
          · exact .inl ⟨by rw [f1], f2, fun _ => ⟨e3, e4⟩⟩
          · refine .inr (collision_mono hc ?_ ?_) <;> intro x hx <;> simp only [List.mem_cons, List.mem_append] at hx ⊢ <;> tauto
        · exact .inr ⟨_, by simp, _, by simp, hI, Subtype.ext h3⟩
      · exact .inr ⟨_, by simp, _, by simp, hP, he⟩

/-- A verified condition is a chain. -/
theorem verify_chain {o : Spending} {h n : Arr 32} {typ : UInt8} (hv : o.verify h typ = .ok n) :
    ∃ ss : List (Arr 65), signaturesOf o = ss.map .msg ∧ n = sigChain typ o.fee o.nonce h ss ∧
      hashedAlong typ o.fee o.nonce h (fieldsSigned o) = hashedAlong typ o.fee o.nonce h (ss.map .msg) := by
  cases o with
  | single c =>
    obtain ⟨k, _, _, e⟩ := (single_verify_iff c _ _ n).1 hv
    exact ⟨[c.signature], rfl, e, rfl⟩
  | multi c =>
    obtain ⟨ks, r, _⟩ := (multi_verify_iff c _ _ n).1 hv
    exact recovers_chain r

omit [Hashes] in
theorem sponsored_preimage_long (t : Transaction) (o p : Spending) (ha : t.auth = .sponsored o p) :
    98 < (signingPreimage t).length := by
  have h1 : (spendingBytes noSponsor).length = 103 := by
    simp [spendingBytes, noSponsor, noSignature]
  unfold signingPreimage transactionBytes
  simp only [ha, clearedAuth, authBytes, List.length_append, List.length_cons, h1]
  omega

/-- **C100** The hash handed to the sponsor determines the transaction and its origin's signatures: if it
is the same for two sponsored transactions then so is everything signed, the signatures of the origins and,
if there are any, fee and nonce, or two explicit strings collide. -/
theorem C100_origin_hash (t t' : Transaction) (o p o' p' : Spending) (n : Arr 32) (h : WellFormedTransaction t)
    (h' : WellFormedTransaction t') (ha : t.auth = .sponsored o p) (ha' : t'.auth = .sponsored o' p')
    (hv : t.verifyOrigin = .ok n) (hv' : t'.verifyOrigin = .ok n) :
    (signedContent t = signedContent t' ∧ signaturesOf o = signaturesOf o' ∧
      (signaturesOf o ≠ [] → o.fee = o'.fee ∧ o.nonce = o'.nonce)) ∨
    HashCollision (hashedForSponsor t) (hashedForSponsor t') := by
  obtain ⟨_, hv⟩ := (verifyOrigin_iff t n).1 hv
  obtain ⟨_, hv'⟩ := (verifyOrigin_iff t' n).1 hv'
  have ho : t.auth.origin = o := by rw [ha]; rfl
  have ho' : t'.auth.origin = o' := by rw [ha']; rfl
  rw [ho] at hv; rw [ho'] at hv'
  obtain ⟨ss, a1, a2, a3⟩ := verify_chain hv
  obtain ⟨ss', b1, b2, b3⟩ := verify_chain hv'
  unfold hashedForSponsor
  rw [ho, ho', a3, b3, a1, b1]
  rcases chain_back 4 o.fee o.nonce o'.fee o'.nonce _ _ (sponsored_preimage_long t o p ha)
    (sponsored_preimage_long t' o' p' ha') ss ss' (a2.symm.trans b2) with ⟨rfl, e2, e3⟩ | hc
  · exact .inl ⟨C44_preimage_determines t t' h h' e2, rfl, fun hn => e3 (fun e => hn (by rw [e]; rfl))⟩
  · exact .inr hc

end

section
attribute [local instance] realSecp
variable [Hashes]

/-- **C100** A sponsor's signatures belong to one sponsored transaction: if the same signatures of a
sponsor are accepted for two transactions, then everything the origin signed, the origin's signatures
and the fees and nonces agree, or explicit strings, digests or accounts collide. -/
theorem C100_sponsor (t t' : Transaction) (o p o' p' : Spending) (h h' : Arr 32) (hw : WellFormedTransaction t)
    (hw' : WellFormedTransaction t') (ha : t.auth = .sponsored o p) (ha' : t'.auth = .sponsored o' p')
    (hs : SameSignatures p p') (hi : t.initialHash = .ok h) (hi' : t'.initialHash = .ok h')
    (hv : t.auth.verify h = .ok ()) (hv' : t'.auth.verify h' = .ok ()) :
    (signedContent t = signedContent t' ∧ signaturesOf o = signaturesOf o' ∧
      (signaturesOf o ≠ [] → o.fee = o'.fee ∧ o.nonce = o'.nonce) ∧ p.fee = p'.fee ∧ p.nonce = p'.nonce) ∨
    HashCollision (hashedForSponsor t) (hashedForSponsor t') ∨
    ∃ n n', t.verifyOrigin = .ok n ∧ t'.verifyOrigin = .ok n' ∧
      (DigestsMeet (firstSigned n 5 p) (firstSigned n' 5 p') ∨ SignersCollide n 5 n' 5 p p') := by
  rw [ha, C54_sponsored_iff] at hv
  rw [ha', C54_sponsored_iff] at hv'
  obtain ⟨n, m, v1, v2⟩ := hv
  obtain ⟨n', m', v1', v2'⟩ := hv'
  obtain ⟨hb, rfl⟩ := (initialHash_iff t h).1 hi
  obtain ⟨hb', rfl⟩ := (initialHash_iff t' h').1 hi'
  have w : t.verifyOrigin = .ok n := (verifyOrigin_iff t n).2 ⟨hb, by rw [ha]; exact v1⟩
  have w' : t'.verifyOrigin = .ok n' := (verifyOrigin_iff t' n').2 ⟨hb', by rw [ha']; exact v1'⟩
  rcases C99_binding p p' n n' m m' 5 5 hs v2 v2' with ⟨rfl, _, e1, e2⟩ | hc
  · rcases C100_origin_hash t t' o p o' p' n hw hw' ha ha' w w' with ⟨f1, f2, f3⟩ | hc
    · exact .inl ⟨f1, f2, f3, e1, e2⟩
    · exact .inr (.inl hc)
  · exact .inr (.inr ⟨n, n', w, w', hc⟩)

end

/-! ## The hypotheses are satisfiable -/

section
attribute [local instance] Concrete.realHashes realSecp

/-- A transfer of the account of the key 7, to be sponsored. -/
def exRealSponsored : Transaction :=
  ⟨.mainnet, .mainnet, .sponsored (.single ⟨.p2pkh, 3, 1, hash160Of (serialize (pub ⟨7, by decide⟩)).1, noSignature⟩) noSponsor,
    .any, .deny, exConditions, .tokenTransfer exTransfer⟩

/-- Signed by the origin, then by a sponsor with the key 9, it verifies. -/
example : ∃ t1 q s s' h, exRealSponsored.sign ⟨7, by decide⟩ = .ok t1 ∧ Signer.newSponsor t1 (.single q) = .ok s ∧
    s.signSponsor ⟨9, by decide⟩ = .ok s' ∧ s'.tx.initialHash = .ok h ∧ s'.tx.auth.verify h = .ok () := by
  obtain ⟨t1, s, s', h, e⟩ := C76_sponsored exRealSponsored noSponsor ⟨7, by decide⟩ ⟨9, by decide⟩ 3 1 11 2 .p2pkh .p2wpkh _ _
    rfl (wf_encodable_tx exRealSponsored ⟨⟨.inl rfl, .inl rfl⟩, by decide, exConditions_wf, exTransfer_wf⟩).2
    ((single_new_iff _ _ _ _ _).2 ⟨rfl, rfl, rfl, rfl, rfl⟩)
    ((single_new_iff _ _ _ _ ⟨.p2wpkh, 11, 2, _, noSignature⟩).2 ⟨rfl, rfl, rfl, rfl, rfl⟩)
  exact ⟨t1, _, s, s', h, e⟩

/-- It meets the hypotheses of `C83_sponsored`. -/
example : ∃ (t : Transaction) (o : Spending) (q : SingleSig) (h : Arr 32), t.auth = .sponsored o (.single q) ∧
    t.initialHash = .ok h ∧ t.auth.verify h = .ok () := by
  obtain ⟨t1, s, s', h, _, e1, e2, e3, e4⟩ := C76_sponsored exRealSponsored noSponsor ⟨7, by decide⟩ ⟨9, by decide⟩ 3 1 11 2
    .p2pkh .p2wpkh _ _
    rfl (wf_encodable_tx exRealSponsored ⟨⟨.inl rfl, .inl rfl⟩, by decide, exConditions_wf, exTransfer_wf⟩).2
    ((single_new_iff _ _ _ _ _).2 ⟨rfl, rfl, rfl, rfl, rfl⟩)
    ((single_new_iff _ _ _ _ ⟨.p2wpkh, 11, 2, _, noSignature⟩).2 ⟨rfl, rfl, rfl, rfl, rfl⟩)
  obtain ⟨o, c, n, _, _, rfl⟩ := (newSponsor_iff _ _ _).1 e1
  obtain ⟨o', c', ha, _, _, rfl⟩ := (signSponsor_iff _ _ _).1 e2
  cases ha
  exact ⟨_, _, _, h, rfl, e3, e4⟩

/-- With another fee the signed transfer does not verify. -/
example : (match exRealSigned with
    | .ok t => (match (t.setFee 77).verifyOrigin with | .ok _ => false | _ => true)
    | _ => false) = true := by decide +kernel

/-- A condition carries the same signatures as itself with another fee. -/
example (c : SingleSig) : SameSignatures (.single c) (.single { c with fee := 9 }) := ⟨rfl, rfl⟩

/-- The bytes hashed for a sponsored transaction with a single signature of the origin: three strings. -/
example (t : Transaction) (c : SingleSig) (p : Spending) (ha : t.auth = .sponsored (.single c) p) :
    (hashedForSponsor t).length = 3 := by
  unfold hashedForSponsor; rw [ha]; rfl

end

end Stacks.Tx

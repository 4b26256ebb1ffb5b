import Verif.Concrete.EcdsaCurve
import Verif.Spec.Secp
import Mathlib.NumberTheory.LegendreSymbol.Basic

/-! # ECDSA over secp256k1 satisfies `Secp.Lawful`

Recovering the public key from a signature gives the key of the signer; the compact format of
signatures and the compressed format of keys are injective. -/

namespace Stacks.Concrete.Ecdsa
open WeierstrassCurve

theorem n_lt_p : n < p := by decide
theorem p_lt_2n : p < 2 * n := by decide
theorem n_lt : n < 2 ^ 256 := by decide

theorem castn_zero_iff {a : Nat} (ha : a < n) : (a : ZMod n) = 0 ↔ a = 0 := by
  rw [ZMod.natCast_eq_zero_iff]
  exact ⟨fun h => Nat.eq_zero_of_dvd_of_lt h ha, fun h => h ▸ dvd_zero _⟩

theorem castn_sub {a : Nat} (ha : a ≤ n) : ((n - a : Nat) : ZMod n) = -(a : ZMod n) := by
  rw [Nat.cast_sub ha, ZMod.natCast_self, zero_sub]

/-! ## Points with a given abscissa -/

theorem sqrt_spec {y : F} : ((y ^ 2) ^ ((p + 1) / 4)) = y ∨ ((y ^ 2) ^ ((p + 1) / 4)) = -y := by
  rw [← pow_mul, show 2 * ((p + 1) / 4) = p / 2 + 1 by decide, pow_succ]
  by_cases hy : y = 0
  · left; rw [hy, mul_zero]
  · rcases ZMod.pow_div_two_eq_neg_one_or_one p hy with h | h
    · left; rw [h, one_mul]
    · right; rw [h, neg_one_mul]

theorem odd_sub {y : Nat} (h : y < p) : ((p - y) % 2 == 1) = !(y % 2 == 1) := by
  have hp : p % 2 = 1 := by decide
  rcases Nat.mod_two_eq_zero_or_one y with hy | hy
  · have : (p - y) % 2 = 1 := by omega
    simp [this, hy]
  · have : (p - y) % 2 = 0 := by omega
    simp [this, hy]

theorem neg_cast {y : Nat} (h0 : 0 < y) (h : y < p) {y' : Nat} (h' : y' < p) (e : (y' : F) = -(y : F)) : y' = p - y :=
  cast_inj h' (by omega) (by rw [e, cast_sub' h])

/-- The point with the given abscissa and parity. -/
theorem liftX_eq {x y : Nat} (hx : x < p) (hy : y < p) (hy0 : 0 < y) (h : (y : F) ^ 2 = (x : F) ^ 3 + 7) :
    liftX x (y % 2 == 1) = some (x, y) := by
  simp only [liftX, force_eq]
  rw [if_neg (by omega)]
  have hc : ((x * x * x + 7) % p : Nat) = ((y : F) ^ 2).val := by
    rw [h]
    have : (x : F) ^ 3 + 7 = ((x * x * x + 7 : Nat) : F) := by push_cast; ring
    rw [this, ZMod.val_natCast]
  have hpw : ((powMod p ((x * x * x + 7) % p) ((p + 1) / 4) : Nat) : F) = ((y : F) ^ 2) ^ ((p + 1) / 4) := by
    rw [powMod_cast (by decide) (by decide), hc, ZMod.natCast_zmod_val]
  have hlt : powMod p ((x * x * x + 7) % p) ((p + 1) / 4) < p := powMod_lt (by decide) _ _
  generalize powMod p ((x * x * x + 7) % p) ((p + 1) / 4) = r at hpw hlt
  rw [hc]
  have hsq : r * r % p = ((y : F) ^ 2).val := by
    have : ((r * r : Nat) : F) = (y : F) ^ 2 := by
      push_cast
      rcases sqrt_spec (y := (y : F)) with e | e <;> rw [hpw, e] <;> ring
    rw [← this, ZMod.val_natCast]
  rw [if_neg (by simpa using hsq)]
  rcases sqrt_spec (y := (y : F)) with e | e
  · rw [e] at hpw
    obtain rfl := cast_inj hlt hy hpw
    rw [if_pos rfl]
  · rw [e] at hpw
    obtain rfl := neg_cast hy0 hy hlt hpw
    rw [if_neg (by rw [odd_sub hy]; cases (y % 2 == 1) <;> simp), show p - (p - y) = y by omega,
      Nat.mod_eq_of_lt hy]

/-! ## Signing and recovering -/

theorem ne_zero_of_order {e : Nat} (h0 : 0 < e) (h : e < n) {a b : Nat} (hab : RepA (some (a, b)) (e • G)) : 0 < b := by
  obtain ⟨hQ, hE, ha, hb⟩ := repA_some hab
  by_contra hb0
  have hb0 : b = 0 := by omega
  subst hb0
  have h2 : e • G + e • G = 0 := by
    rw [hE]
    exact Affine.Point.add_self_of_Y_eq (by simp)
  rw [← two_nsmul, ← mul_nsmul'] at h2
  have := addOrderOf_dvd_of_nsmul_eq_zero h2
  rw [addOrderOf_G] at this
  rcases (Nat.Prime.dvd_mul n_prime).1 this with h | h
  · exact absurd (Nat.le_of_dvd (by decide) h) (by decide)
  · exact absurd (Nat.le_of_dvd h0 h) (by omega)

theorem neg_rep {a b : Nat} {Q : Pt} (hb0 : 0 < b) (h : RepA (some (a, b)) Q) : RepA (some (a, p - b)) (-Q) := by
  obtain ⟨hQ, rfl, ha, hb⟩ := repA_some h
  have eq := (equation_iff' _ _).1 hQ.1
  have hN : W.Nonsingular (a : F) ((p - b : Nat) : F) := nonsingular_of (by rw [cast_sub' hb]; linear_combination eq)
  have := repA_mk ha (by omega) hN
  rw [Affine.Point.neg_some]
  convert this using 2
  rw [cast_sub' hb]
  simp

theorem neg_smul_G {e : Nat} (h : e ≤ n) : (n - e) • G = -(e • G) := by
  have : (n - e) • G + e • G = 0 := by rw [← add_nsmul, Nat.sub_add_cancel h, n_smul]
  exact eq_neg_of_add_eq_zero_left this

/-- The coordinates of the public key of `d`. -/
theorem pub_rep (d : SK) : RepA (some (pub d).1) (d.1 • G) := by
  have h := mulPt_rep base_rep (k := d.1) (lt_trans d.2.2 n_lt)
  rcases hm : mulPt d.1 base with _ | ⟨a, b⟩
  · rw [hm, repA_none] at h
    exact absurd h (smul_ne_zero d.2.1 d.2.2)
  · rw [hm] at h
    obtain ⟨hQ, hE, ha, hb⟩ := repA_some h
    have hv : Valid (a, b) := (valid_iff ha hb).2 ((equation_iff' _ _).1 hQ.1)
    have : pub d = ⟨(a, b), hv⟩ := by rw [pub, hm, mkKey, dif_pos hv]
    rw [this]
    exact h

theorem recId_div (x y : Nat) (flip : Bool) : ((recId x y flip).1 / 2 = 1) ↔ n ≤ x := by
  unfold recId
  by_cases h : n ≤ x <;> simp only [h, if_true, if_false, iff_true, iff_false] <;> split <;> decide

theorem recId_mod (x y : Nat) (flip : Bool) : ((recId x y flip).1 % 2 == 1) = ((y % 2 == 1) != flip) := by
  unfold recId
  by_cases h : n ≤ x <;> simp only [h, if_true, if_false] <;> split <;> simp_all

theorem x_of_r {x : Nat} (hx : x < p) : (if n ≤ x then x % n + n else x % n) = x := by
  have := p_lt_2n
  split
  · rw [Nat.mod_eq_sub_mod ‹_›, Nat.mod_eq_of_lt (by omega)]; omega
  · exact Nat.mod_eq_of_lt (by omega)

/-- Recovery from a signature whose parts satisfy the equation of ECDSA. -/
theorem recover_core (m : Arr 32) (d : SK) {x y e s : Nat} {t : RSig} (he0 : 0 < e) (he : e < n)
    (hR : RepA (some (x, y)) (e • G)) (hr : x % n ≠ 0) (hs0 : s ≠ 0)
    (heq : (s : ZMod n) * e = beVal m.1 + (x : ZMod n) * d.1) (ht1 : t.1.1 = x % n) (ht2 : t.1.2.1 = s)
    (hid1 : (t.1.2.2.1 / 2 = 1) ↔ n ≤ x) (hid2 : (t.1.2.2.1 % 2 == 1) = (y % 2 == 1)) :
    recover m t = .ok (pub d) := by
  obtain ⟨hQ, hE, hx, hy⟩ := repA_some hR
  have hy0 := ne_zero_of_order he0 he hR
  have hcurve := (equation_iff' _ _).1 hQ.1
  unfold recover
  simp only [ht1, ht2, force_eq, hid2]
  rw [if_neg (by simp [hr, hs0])]
  have hX : (if t.1.2.2.1 / 2 = 1 then x % n + n else x % n) = x := by
    rw [← x_of_r hx]
    simp only [hid1]
    congr 1 <;> simp [x_of_r hx]
  rw [hX, liftX_eq hx hy hy0 hcurve]
  dsimp only
  have hr' : ((x % n : Nat) : ZMod n) ≠ 0 := fun h => hr ((castn_zero_iff (mod_n_lt _)).1 h)
  have hi := inv_cast (m := n) (by decide) (by decide) hr'
  rw [ZMod.natCast_mod] at hi hr'
  have h1 := mulPt_rep hR (k := s * inv n (x % n) % n) (lt_trans (mod_n_lt _) n_lt)
  have h2 := mulPt_rep base_rep (k := (n - beVal m.1 % n) * inv n (x % n) % n) (lt_trans (mod_n_lt _) n_lt)
  have h3 := addPt_rep h1 h2
  rw [← mul_nsmul', ← add_nsmul] at h3
  have hd : ((s * inv n (x % n) % n * e + (n - beVal m.1 % n) * inv n (x % n) % n : Nat) : ZMod n) = (d.1 : ZMod n) := by
    simp only [Nat.cast_add, Nat.cast_mul, ZMod.natCast_mod, castn_sub (mod_n_lt _).le, hi]
    field_simp
    linear_combination heq
  rw [smul_eq hd] at h3
  rw [repA_unique h3 (pub_rep d)]
  dsimp only
  rw [dif_pos (pub d).2]

theorem signWith_recover (m : Arr 32) (d : SK) {k : Nat} {t : RSig} (h : signWith (beVal m.1) d.1 k = some t) :
    recover m t = .ok (pub d) := by
  unfold signWith at h
  split at h
  · cases h
  rename_i hk
  have hk0 : 0 < k := by omega
  have hkn : k < n := by omega
  have hR := mulPt_rep base_rep (k := k) (lt_trans hkn n_lt)
  split at h
  · cases h
  rename_i x y hm
  rw [hm] at hR
  simp only [force_eq] at h
  split at h
  · cases h
  rename_i hrs
  have hy0 := ne_zero_of_order hk0 hkn hR
  have hy : y < p := (repA_some hR).2.2.2
  have hr : x % n ≠ 0 := fun h => hrs (Or.inl h)
  have hk' : (k : ZMod n) ≠ 0 := fun h => by rw [castn_zero_iff hkn] at h; omega
  have hi := inv_cast (m := n) (by decide) (by decide) hk'
  have hs0 : inv n k * ((beVal m.1 + x % n * d.1) % n) % n ≠ 0 := fun h => hrs (Or.inr h)
  have hscast : ((inv n k * ((beVal m.1 + x % n * d.1) % n) % n : Nat) : ZMod n) * k = beVal m.1 + (x : ZMod n) * d.1 := by
    simp only [Nat.cast_add, Nat.cast_mul, ZMod.natCast_mod, hi]
    field_simp
  have hsn : inv n k * ((beVal m.1 + x % n * d.1) % n) % n < n := mod_n_lt _
  generalize inv n k * ((beVal m.1 + x % n * d.1) % n) % n = s at h hs0 hscast hsn
  split at h
  · simp only [Option.some.injEq] at h
    subst h
    have hR' := neg_rep hy0 hR
    rw [← neg_smul_G hkn.le] at hR'
    refine recover_core m d (by omega) (by omega) hR' hr (s := n - s) (by omega) ?_ ?_ ?_
      (recId_div x y true) ?_
    · rw [castn_sub hsn.le, castn_sub hkn.le]; linear_combination hscast
    · exact Nat.mod_mod _ _
    · exact Nat.mod_eq_of_lt (by omega)
    · refine (recId_mod x y true).trans ?_
      rw [odd_sub hy]
      cases (y % 2 == 1) <;> rfl
  · simp only [Option.some.injEq] at h
    subst h
    refine recover_core m d hk0 hkn hR hr (s := s) hs0 hscast ?_ ?_ (recId_div x y false) ?_
    · exact Nat.mod_mod _ _
    · exact Nat.mod_eq_of_lt hsn
    · refine (recId_mod x y false).trans ?_
      cases (y % 2 == 1) <;> rfl

/-- Twice the base point. -/
def g2x : Nat := 0xc6047f9441ed7d6d3045406e95c07cd85c778e4b8cef3ca7abac09b95c709ee5
def g2y : Nat := 0x1ae168fea63dc339a3c58419466ceaeef7f632653266d0e1236431a950cfe52a

/-- One of the nonces 1 and 2 can always be used. -/
theorem signWith_fallback (m d : Nat) (h0 : 0 < d) (h : d < n) :
    ∃ t, ((signWith m d 1).or (signWith m d 2)) = some t := by
  have e1 : mulPt 1 base = some (gx, gy) := by decide +kernel
  have e2 : mulPt 2 base = some (g2x, g2y) := by decide +kernel
  by_cases c1 : (m + gx % n * d) % n = 0
  · by_cases c2 : (m + g2x % n * d) % n = 0
    · exfalso
      have f1 : ((m + gx % n * d : Nat) : ZMod n) = 0 := (ZMod.natCast_eq_zero_iff _ _).2 (Nat.dvd_of_mod_eq_zero c1)
      have f2 : ((m + g2x % n * d : Nat) : ZMod n) = 0 := (ZMod.natCast_eq_zero_iff _ _).2 (Nat.dvd_of_mod_eq_zero c2)
      have f3 : (((g2x % n - gx % n) * d : Nat) : ZMod n) = 0 := by
        rw [Nat.cast_mul, Nat.cast_sub (by decide)]
        push_cast at f1 f2 ⊢
        linear_combination f2 - f1
      rw [ZMod.natCast_eq_zero_iff] at f3
      rcases (Nat.Prime.dvd_mul n_prime).1 f3 with g | g
      · exact absurd g (by decide +kernel)
      · exact absurd (Nat.le_of_dvd h0 g) (by omega)
    · have hs : inv n 2 * ((m + g2x % n * d) % n) % n ≠ 0 := by
        intro hs
        have := Nat.dvd_of_mod_eq_zero hs
        rcases (Nat.Prime.dvd_mul n_prime).1 this with g | g
        · exact absurd g (by decide +kernel)
        · exact c2 (Nat.eq_zero_of_dvd_of_lt g (mod_n_lt _))
      have hr : g2x % n ≠ 0 := by decide +kernel
      have : ∃ t, signWith m d 2 = some t := by
        unfold signWith
        rw [if_neg (by decide), e2]
        simp only [force_eq]
        rw [if_neg (by simp only [hs, hr, or_self, not_false_eq_true])]
        split <;> exact ⟨_, rfl⟩
      obtain ⟨t, ht⟩ := this
      rw [ht]
      cases signWith m d 1
      · exact ⟨t, rfl⟩
      · exact ⟨_, rfl⟩
  · have hs : inv n 1 * ((m + gx % n * d) % n) % n ≠ 0 := by
      intro hs
      have := Nat.dvd_of_mod_eq_zero hs
      rcases (Nat.Prime.dvd_mul n_prime).1 this with g | g
      · exact absurd g (by decide +kernel)
      · exact c1 (Nat.eq_zero_of_dvd_of_lt g (mod_n_lt _))
    have hr : gx % n ≠ 0 := by decide +kernel
    have : ∃ t, signWith m d 1 = some t := by
      unfold signWith
      rw [if_neg (by decide), e1]
      simp only [force_eq]
      rw [if_neg (by simp only [hs, hr, or_self, not_false_eq_true])]
      split <;> exact ⟨_, rfl⟩
    obtain ⟨t, ht⟩ := this
    rw [ht]
    exact ⟨t, rfl⟩

theorem signLoop_eq (m d : Nat) (h0 : 0 < d) (h : d < n) (a : Nat) :
    ∀ key v, ∃ k, signWith m d k = some (signLoop m d a key v) := by
  induction a with
  | zero =>
    intro key v
    obtain ⟨t, ht⟩ := signWith_fallback m d h0 h
    rw [signLoop, ht]
    rcases Option.or_eq_some_iff.1 ht with h | h
    · exact ⟨1, h⟩
    · exact ⟨2, h.2⟩
  | succ a ih =>
    intro key v
    simp only [signLoop, force_eq]
    split
    · rename_i s hs
      exact ⟨_, hs⟩
    · exact ih _ _

theorem recover_sign (m : Arr 32) (d : SK) : recover m (sign m d) = .ok (pub d) := by
  simp only [sign, force_eq]
  obtain ⟨k, hk⟩ := signLoop_eq (beVal m.1) d.1 d.2.1 d.2.2 16 _ _
  exact signWith_recover m d hk

/-! ## Formats -/

theorem fromCompact_compact (t : RSig) : fromCompact (compact t).2.1 (compact t).1 = .ok t := by
  obtain ⟨⟨r, s, id⟩, hr, hs⟩ := t
  dsimp only at hr hs
  have hlt : n < 256 ^ 32 := by decide
  have ht : (beBytes 32 r ++ beBytes 32 s).take 32 = beBytes 32 r := by
    rw [List.take_append_of_le_length (by simp), List.take_of_length_le (by simp)]
  have hd : (beBytes 32 r ++ beBytes 32 s).drop 32 = beBytes 32 s := by
    rw [List.drop_append_of_le_length (by simp), List.drop_of_length_le (by simp), List.nil_append]
  simp only [fromCompact, compact, ht, hd, beVal_beBytes (lt_trans hr hlt), beVal_beBytes (lt_trans hs hlt)]
  rw [dif_pos ⟨by simp, hr, hs⟩]

theorem serialize_injective (q q' : PK) (h : serialize q = serialize q') : q = q' := by
  obtain ⟨⟨x, y⟩, hq⟩ := q
  obtain ⟨⟨x', y'⟩, hq'⟩ := q'
  have h := congrArg Subtype.val h
  simp only [serialize, List.cons.injEq] at h
  obtain ⟨hpar, hx⟩ := h
  have hlt : p < 256 ^ 32 := by decide
  obtain ⟨hxp, hyp, hc⟩ := id hq
  obtain ⟨hxp', hyp', hc'⟩ := id hq'
  dsimp only at *
  obtain rfl := beBytes_inj (lt_trans hxp hlt) (lt_trans hxp' hlt) hx
  have e := (valid_iff hxp hyp).1 hq
  have e' := (valid_iff hxp hyp').1 hq'
  have hmul : ((y : F) - y') * ((y : F) + y') = 0 := by linear_combination e - e'
  have hyy : y = y' := by
    rcases mul_eq_zero.1 hmul with g | g
    · exact cast_inj hyp hyp' (sub_eq_zero.1 g)
    · by_cases hy0 : y' = 0
      · subst hy0
        rw [Nat.cast_zero, add_zero, cast_zero_iff hyp] at g
        exact g
      · have := neg_cast (Nat.pos_of_ne_zero hy0) hyp' hyp (eq_neg_of_add_eq_zero_left g)
        have ho := odd_sub hyp'
        rw [← this] at ho
        exfalso
        rcases Nat.mod_two_eq_zero_or_one y with a | a <;> rcases Nat.mod_two_eq_zero_or_one y' with b | b <;>
          simp [a, b] at ho hpar
  subst hyy
  rfl

attribute [local instance] realSecp in
/-- The facts about the signature scheme that theorems take as hypotheses hold of ECDSA over
secp256k1. -/
theorem realLawful : Secp.Lawful where
  recover_sign := recover_sign
  fromCompact_compact := fromCompact_compact
  serialize_injective := serialize_injective

end Stacks.Concrete.Ecdsa

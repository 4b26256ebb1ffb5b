import Verif.Concrete.EcdsaOrder

/-! # When recovery succeeds, and with which key -/

namespace Stacks.Concrete.Ecdsa
open WeierstrassCurve

theorem ordinate_ne {x b : F} (h : b ^ 2 = x ^ 3 + 7) : b ≠ 0 := by
  rintro rfl
  exact no_cube x (by linear_combination -h)

theorem liftX_some {x : Nat} {odd : Bool} {q : Nat × Nat} (h : liftX x odd = some q) :
    q.1 = x ∧ x < p ∧ q.2 < p ∧ (q.2 : F) ^ 2 = (x : F) ^ 3 + 7 ∧ (q.2 % 2 == 1) = odd := by
  simp only [liftX, force_eq] at h
  split at h
  · cases h
  rename_i hx
  have hlt : powMod p ((x * x * x + 7) % p) ((p + 1) / 4) < p := powMod_lt (by decide) _ _
  generalize powMod p ((x * x * x + 7) % p) ((p + 1) / 4) = y at h hlt
  split at h
  · cases h
  rename_i hy
  have hyy : y * y % p = (x * x * x + 7) % p := by by_contra hc; exact hy hc
  have hF : (y : F) ^ 2 = (x : F) ^ 3 + 7 := by
    have := congrArg (Nat.cast (R := F)) hyy
    simp only [ZMod.natCast_mod] at this
    push_cast at this
    linear_combination this
  have hy0 : y ≠ 0 := by
    rintro rfl
    exact ordinate_ne hF Nat.cast_zero
  split at h
  · rename_i hpar
    simp only [Option.some.injEq] at h
    subst h
    exact ⟨rfl, by omega, hlt, hF, hpar⟩
  · rename_i hpar
    simp only [Option.some.injEq] at h
    subst h
    have hm : (p - y) % p = p - y := Nat.mod_eq_of_lt (by omega)
    refine ⟨rfl, by omega, by rw [hm]; omega, ?_, ?_⟩
    · dsimp only; rw [hm, cast_sub' hlt]; linear_combination hF
    · dsimp only
      rw [hm, odd_sub hlt]
      cases odd <;> revert hpar <;> cases (y % 2 == 1) <;> decide

/-- A recoverable signature of `m` that fits the key `d`, with nonce `e`. -/
structure Fits (m : Arr 32) (t : RSig) (d : SK) (e x y : Nat) : Prop where
  pos : 0 < e
  lt : e < n
  point : RepA (some (x, y)) (e • G)
  r_ne : x % n ≠ 0
  s_ne : t.1.2.1 ≠ 0
  eq : (t.1.2.1 : ZMod n) * e = beVal m.1 + (x : ZMod n) * d.1
  r_eq : t.1.1 = x % n
  high : (t.1.2.2.1 / 2 = 1) ↔ n ≤ x
  odd : (t.1.2.2.1 % 2 == 1) = (y % 2 == 1)

theorem Fits.recover {m : Arr 32} {t : RSig} {d : SK} {e x y : Nat} (h : Fits m t d e x y) :
    recover m t = .ok (pub d) :=
  recover_core m d h.pos h.lt h.point h.r_ne h.s_ne h.eq h.r_eq rfl h.high h.odd

/-- Recovery succeeds only so. -/
theorem recover_fits {m : Arr 32} {t : RSig} {q : PK} (h : recover m t = .ok q) :
    ∃ d e x y, pub d = q ∧ Fits m t d e x y := by
  have h0 := h
  obtain ⟨⟨r, s, id⟩, hr, hs⟩ := t
  dsimp only at hr hs
  unfold Ecdsa.recover at h
  simp only [force_eq] at h
  split at h
  · cases h
  rename_i hrs
  have hr0 : r ≠ 0 := fun e => hrs (Or.inl e)
  have hs0 : s ≠ 0 := fun e => hrs (Or.inr e)
  split at h
  · cases h
  rename_i q' hl
  obtain ⟨x, y⟩ := q'
  obtain ⟨hx1, hx, hy, hF, hpar⟩ := liftX_some hl
  dsimp only at hx1 hy hF hpar
  rw [← hx1] at hx hF
  have hN := nonsingular_of hF
  obtain ⟨e, he, hE⟩ := exists_smul (.some _ _ hN)
  have he0 : 0 < e := by
    rcases Nat.eq_zero_or_pos e with rfl | h
    · rw [zero_nsmul] at hE; exact absurd hE (Affine.Point.some_ne_zero hN)
    · exact h
  have hR : RepA (some (x, y)) (e • G) := hE ▸ repA_mk hx hy hN
  have hhigh : (id.1 / 2 = 1) ↔ n ≤ x := by
    split at hx1
    · rename_i hid; exact ⟨fun _ => by omega, fun _ => hid⟩
    · rename_i hid; exact ⟨fun h => absurd h hid, fun h => by omega⟩
  have hrx : r = x % n := by
    split at hx1
    · rw [hx1, Nat.add_mod_right, Nat.mod_eq_of_lt hr]
    · rw [hx1, Nat.mod_eq_of_lt hr]
  have hrn : ((r : Nat) : ZMod n) ≠ 0 := fun h => hr0 ((castn_zero_iff hr).1 h)
  have hi := inv_cast (m := n) (by decide) (by decide) hrn
  have h1 := mulPt_rep hR (k := s * inv n r % n) (lt_trans (mod_n_lt _) n_lt)
  have h2 := mulPt_rep base_rep (k := (n - beVal m.1 % n) * inv n r % n) (lt_trans (mod_n_lt _) n_lt)
  have h3 := addPt_rep h1 h2
  rw [← mul_nsmul', ← add_nsmul] at h3
  -- the secret key
  let dv : Nat := ((s : ZMod n) * e * (r : ZMod n)⁻¹ - (beVal m.1 : ZMod n) * (r : ZMod n)⁻¹).val
  have hdc : ((dv : Nat) : ZMod n) = (s : ZMod n) * e * (r : ZMod n)⁻¹ - (beVal m.1 : ZMod n) * (r : ZMod n)⁻¹ :=
    ZMod.natCast_zmod_val _
  have hd : ((s * inv n r % n * e + (n - beVal m.1 % n) * inv n r % n : Nat) : ZMod n) = (dv : ZMod n) := by
    rw [hdc]
    simp only [Nat.cast_add, Nat.cast_mul, ZMod.natCast_mod, castn_sub (mod_n_lt _).le, hi]
    ring
  rw [smul_eq hd] at h3
  have hdlt : dv < n := ZMod.val_lt _
  have hd0 : 0 < dv := by
    rcases Nat.eq_zero_or_pos dv with hz | h
    · exfalso
      rw [hz, zero_nsmul] at h3
      have := repA_unique h3 (repA_none.2 rfl)
      rw [this] at h
      cases h
    · exact h
  have hfit : Fits m ⟨(r, s, id), hr, hs⟩ ⟨dv, hd0, hdlt⟩ e x y := by
    refine ⟨he0, he, hR, hrx ▸ hr0, hs0, ?_, hrx, hhigh, hpar.symm⟩
    have hxr : (x : ZMod n) = (r : ZMod n) := by rw [hrx, ZMod.natCast_mod]
    dsimp only
    rw [hdc, hxr]
    field_simp
    ring
  refine ⟨⟨dv, hd0, hdlt⟩, e, x, y, ?_, hfit⟩
  exact Except.ok.inj (hfit.recover.symm.trans h0)

/-- The other signature. -/
def twin (t : RSig) : RSig :=
  ⟨(t.1.1, (n - t.1.2.1) % n, t.1.2.2 ^^^ 1), t.2.1, mod_n_lt _⟩

theorem Fits.twin {m : Arr 32} {t : RSig} {d : SK} {e x y : Nat} (h : Fits m t d e x y) :
    Fits m (twin t) d (n - e) x (p - y) := by
  have hs := t.2.2
  have hs0 := h.s_ne
  have he := h.lt
  have he0 := h.pos
  have hmod : (n - t.1.2.1) % n = n - t.1.2.1 := Nat.mod_eq_of_lt (by omega)
  obtain ⟨hQ, hE, hx, hy⟩ := repA_some h.point
  have hy0 := ne_zero_of_order he0 he h.point
  refine ⟨by omega, by omega, ?_, h.r_ne, ?_, ?_, h.r_eq, ?_, ?_⟩
  · rw [neg_smul_G he.le]; exact neg_rep hy0 h.point
  · show (n - t.1.2.1) % n ≠ 0; omega
  · show (((n - t.1.2.1) % n : Nat) : ZMod n) * _ = _
    rw [hmod, castn_sub hs.le, castn_sub he.le]
    linear_combination h.eq
  · rw [← h.high]
    show ((t.1.2.2 ^^^ 1 : Fin 4).1 / 2 = 1) ↔ _
    generalize t.1.2.2 = i
    revert i; decide
  · rw [odd_sub hy, ← h.odd]
    show ((t.1.2.2 ^^^ 1 : Fin 4).1 % 2 == 1) = _
    generalize t.1.2.2 = i
    revert i; decide

end Stacks.Concrete.Ecdsa

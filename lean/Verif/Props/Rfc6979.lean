import Verif.Spec.Rfc6979
import Verif.Props.EcdsaVerify
import Verif.Props.HashFunctions

/-! # C123: signatures are those of RFC 6979, and what a repeated nonce would reveal -/

namespace Stacks.Tx
open Stacks.Concrete Stacks.Concrete.Ecdsa Stacks.Spec Stacks.Spec.Rfc6979 WeierstrassCurve

theorem hmac256_iff (key msg mac : Bytes) (hkey : key.length = 32) (hmsg : msg.length ≤ 1000) :
    IsHmac key msg mac ↔ mac = hmac key msg := by
  have sha : ∀ (bs d : Bytes), bs.length ≤ 2000 → (Spec.HashFunctions.IsSha256 bs d ↔ d = (sha256 bs).1) :=
    fun bs d h => C106_sha256 bs d (by omega)
  have hin : ∀ (block inner : Bytes), block.length = 64 →
      (Spec.HashFunctions.IsSha256 (block.map (· ^^^ 0x36) ++ msg) inner ↔
        inner = (sha256 (block.map (· ^^^ 0x36) ++ msg)).1) := by
    intro block inner hb
    exact sha _ _ (by rw [List.length_append, List.length_map, hb]; omega)
  have hout : ∀ (block inner : Bytes), block.length = 64 → inner.length = 32 →
      (Spec.HashFunctions.IsSha256 (block.map (· ^^^ 0x5c) ++ inner) mac ↔
        mac = (sha256 (block.map (· ^^^ 0x5c) ++ inner)).1) := by
    intro block inner hb hi
    exact sha _ _ (by rw [List.length_append, List.length_map, hb, hi]; omega)
  unfold IsHmac hmac
  constructor
  · rintro ⟨-, block, inner, h1, h2, h3, h4⟩
    rw [hin block inner h1] at h3
    rw [hout block inner h1 (by rw [h3]; exact (sha256 _).2)] at h4
    have e : block = key ++ List.replicate 32 0 := by
      apply List.ext_getElem
      · rw [List.length_append, List.length_replicate, h1, hkey]
      · intro i hi hi'
        have := h2 i (by omega)
        rw [List.getD_eq_getElem _ _ hi] at this
        rw [this]
        by_cases hik : i < key.length
        · rw [List.getD_eq_getElem _ _ hik, List.getElem_append_left]
        · rw [List.getD_eq_default _ _ (by omega), List.getElem_append_right (by omega), List.getElem_replicate]
    rw [h4, h3, e]
  · intro hmac
    have hb : (key ++ List.replicate 32 0).length = 64 := by simp [hkey]
    refine ⟨by omega, key ++ List.replicate 32 0, _, hb, fun i hi => ?_, (hin _ _ hb).2 rfl,
      (hout _ _ hb (sha256 _).2).2 hmac⟩
    by_cases hik : i < key.length
    · rw [List.getD_append _ _ _ _ hik]
    · rw [List.getD_append_right _ _ _ _ (by omega), List.getD_eq_default key _ (by omega),
        List.getD_replicate _ (by omega)]

theorem hmac256_length (key msg : Bytes) : (hmac key msg).length = 32 := (sha256 _).2

attribute [local irreducible] Concrete.Ecdsa.hmac

/-- `K` and `V` before the first candidate. -/
def startKV (x : Bytes) : Bytes × Bytes :=
  let v₀ := List.replicate 32 (1 : UInt8)
  let k₁ := hmac (List.replicate 32 0) (v₀ ++ [0] ++ x)
  let v₁ := hmac k₁ v₀
  let k₂ := hmac k₁ (v₁ ++ [1] ++ x)
  (k₂, hmac k₂ v₁)

/-- One attempt. -/
def stepKV (s : Bytes × Bytes) : Bytes × Bytes :=
  let t := hmac s.1 s.2
  let k := hmac s.1 (t ++ [0])
  (k, hmac k t)

/-- `K` and `V` before candidate `i`. -/
def beforeKV (x : Bytes) : Nat → Bytes × Bytes
  | 0 => startKV x
  | i + 1 => stepKV (beforeKV x i)

theorem beforeKV_length (x : Bytes) (i : Nat) : (beforeKV x i).1.length = 32 ∧ (beforeKV x i).2.length = 32 := by
  cases i <;> exact ⟨hmac256_length _ _, hmac256_length _ _⟩

theorem isStart_iff (x K V : Bytes) (hx : x.length = 64) : IsStart x K V ↔ (K, V) = startKV x := by
  have hl := hmac256_length
  constructor
  · rintro ⟨K₁, V₁, h1, h2, h3, h4⟩
    rw [hmac256_iff _ _ _ (by simp) (by simp [hx])] at h1
    subst h1
    rw [hmac256_iff _ _ _ (hl _ _) (by simp)] at h2
    subst h2
    rw [hmac256_iff _ _ _ (hl _ _) (by simp [hx, hl])] at h3
    subst h3
    rw [hmac256_iff _ _ _ (hl _ _) (by simp [hl])] at h4
    subst h4
    rfl
  · intro h
    obtain ⟨rfl, rfl⟩ := Prod.mk.inj h
    exact ⟨_, _, (hmac256_iff _ _ _ (by simp) (by simp [hx])).2 rfl, (hmac256_iff _ _ _ (hl _ _) (by simp)).2 rfl,
      (hmac256_iff _ _ _ (hl _ _) (by simp [hx, hl])).2 rfl, (hmac256_iff _ _ _ (hl _ _) (by simp [hl])).2 rfl⟩

theorem before_iff (x : Bytes) (hx : x.length = 64) (i : Nat) (K V : Bytes) : Before x i K V ↔ (K, V) = beforeKV x i := by
  have hl := hmac256_length
  induction i generalizing K V with
  | zero =>
    rw [beforeKV, ← isStart_iff x K V hx]
    exact ⟨fun h => by cases h; assumption, .start⟩
  | succ i ih =>
    have hb := beforeKV_length x i
    constructor
    · intro h
      cases h with
      | @next _ K₁ V₁ T _ _ h1 h2 h3 h4 =>
        have e := (ih _ _).1 h1
        rw [← e] at hb
        rw [hmac256_iff _ _ _ hb.1 (by rw [hb.2]; decide)] at h2
        subst h2
        rw [hmac256_iff _ _ _ hb.1 (by simp [hl])] at h3
        subst h3
        rw [hmac256_iff _ _ _ (hl _ _) (by simp [hl])] at h4
        subst h4
        rw [beforeKV, ← e]
        rfl
    · intro h
      rw [beforeKV] at h
      obtain ⟨rfl, rfl⟩ := Prod.mk.inj h
      exact .next ((ih _ _).2 rfl) ((hmac256_iff _ _ _ hb.1 (by rw [hb.2]; decide)).2 rfl)
        ((hmac256_iff _ _ _ hb.1 (by simp [hl])).2 rfl) ((hmac256_iff _ _ _ (hl _ _) (by simp [hl])).2 rfl)

/-- Candidate `i`. -/
def candidate (x : Bytes) (i : Nat) : Nat := beVal (hmac (beforeKV x i).1 (beforeKV x i).2)

theorem candidate_iff (x : Bytes) (hx : x.length = 64) (i k : Nat) : IsCandidate x i k ↔ k = candidate x i := by
  have hb := beforeKV_length x i
  constructor
  · rintro ⟨K, V, T, h1, h2, rfl⟩
    rw [before_iff x hx] at h1
    rw [← h1] at hb
    rw [hmac256_iff _ _ _ hb.1 (by rw [hb.2]; decide)] at h2
    rw [candidate, ← h1, h2]
  · rintro rfl
    exact ⟨_, _, _, (before_iff x hx _ _ _).2 rfl, (hmac256_iff _ _ _ hb.1 (by rw [hb.2]; decide)).2 rfl, rfl⟩

theorem recId_val (x y : Nat) (flip : Bool) :
    (recId x y flip).1 = (if x < n then 0 else 2) + (if flip then 1 - y % 2 else y % 2) := by
  unfold recId
  rcases Nat.mod_two_eq_zero_or_one y with h | h <;> by_cases hx : n ≤ x <;>
    cases flip <;> simp [h, hx, Nat.not_lt.2, Nat.lt_of_not_le]

theorem signWith_iff (d : SK) (m k : Nat) (t : RSig) :
    signWith m d.1 k = some t ↔ SignsWith G d.1 m k t.1.1 t.1.2.1 t.1.2.2.1 := by
  by_cases hk : k = 0 ∨ n ≤ k
  · constructor
    · intro h
      rw [signWith, if_pos hk] at h
      cases h
    · rintro ⟨h1, h2, -⟩
      have h2 : k < n := h2
      omega
  have hk0 : 0 < k := by omega
  have hkn : k < n := by omega
  have hk' : (k : ZMod n) ≠ 0 := fun h => by rw [castn_zero_iff hkn] at h; omega
  have hi := inv_cast (m := n) (by decide) (by decide) hk'
  have hR := mulPt_rep base_rep (k := k) (lt_trans hkn n_lt)
  rw [signWith, if_neg hk]
  rcases hm : mulPt k base with _ | ⟨x, y⟩
  · rw [hm] at hR
    refine ⟨fun h => (by cases h), ?_⟩
    rintro ⟨-, -, x, y, hN, -, hP, -⟩
    have h0 := repA_none.1 hR
    exact absurd (hP.symm.trans h0) (Affine.Point.some_ne_zero hN)
  rw [hm] at hR
  obtain ⟨hQ, hE, hx, hy⟩ := repA_some hR
  have vx : ZMod.val (n := Spec.Ecdsa.fieldPrime) ((x : Nat) : ZMod _) = x := by
    rw [ZMod.val_natCast]; exact Nat.mod_eq_of_lt hx
  have vy : ZMod.val (n := Spec.Ecdsa.fieldPrime) ((y : Nat) : ZMod _) = y := by
    rw [ZMod.val_natCast]; exact Nat.mod_eq_of_lt hy
  simp only [force_eq]
  have hscast : ((inv n k * ((m + x % n * d.1) % n) % n : Nat) : ZMod n) * k = m + (x % n : Nat) * d.1 := by
    simp only [Nat.cast_add, Nat.cast_mul, ZMod.natCast_mod, hi]
    field_simp
  have hsn : inv n k * ((m + x % n * d.1) % n) % n < n := mod_n_lt _
  generalize inv n k * ((m + x % n * d.1) % n) % n = s at hscast hsn
  have hmod : s * k ≡ m + x % n * d.1 [MOD n] := (ZMod.natCast_eq_natCast_iff _ _ n).1 (by push_cast at hscast ⊢; exact hscast)
  have huniq : ∀ s₀ < n, s₀ * k ≡ m + x % n * d.1 [MOD n] → s₀ = s := by
    intro s₀ h0 h
    have := (ZMod.natCast_eq_natCast_iff (s₀ * k) (s * k) n).2 (h.trans hmod.symm)
    push_cast at this
    have := mul_right_cancel₀ hk' this
    have := (ZMod.natCast_eq_natCast_iff _ _ n).1 this
    unfold Nat.ModEq at this
    rwa [Nat.mod_eq_of_lt h0, Nat.mod_eq_of_lt hsn] at this
  have hodd : n % 2 = 1 := by decide
  have key : SignsWith G d.1 m k t.1.1 t.1.2.1 t.1.2.2.1 ↔ t.1.1 = x % n ∧ 0 < x % n ∧ 0 < s ∧
      t.1.2.1 = (if 2 * s < n then s else n - s) ∧
      t.1.2.2.1 = (if x < n then 0 else 2) + (if 2 * s < n then y % 2 else 1 - y % 2) := by
    constructor
    · rintro ⟨-, -, x', y', hN, s₀, h1, h2, h3, h4, h5, h6, h7, h8⟩
      have h1 := hE.symm.trans h1
      injection h1 with e1 e2
      subst e1 e2
      have h2 : t.1.1 = x % n := h2.trans (congrArg (· % n) vx)
      rw [h2] at h6 h3
      obtain rfl := huniq s₀ h5 h6
      exact ⟨h2, h3, h4, h7, h8.trans
        (congrArg₂ (fun a b => (if a < n then 0 else 2) + (if 2 * s₀ < n then b % 2 else 1 - b % 2)) vx vy)⟩
    · rintro ⟨h1, h2, h3, h4, h5⟩
      refine ⟨hk0, hkn, _, _, hQ, s, hE, ?_, by rw [h1]; exact h2, h3, hsn, by rw [h1]; exact hmod, h4, ?_⟩
      · rw [h1]
        exact congrArg (· % n) vx.symm
      · rw [h5]
        exact congrArg₂ (fun a b => (if a < n then 0 else 2) + (if 2 * s < n then b % 2 else 1 - b % 2)) vx.symm vy.symm
  rw [key]
  by_cases h0 : x % n = 0 ∨ s = 0
  · rw [if_pos h0]
    exact ⟨fun h => (by cases h), fun h => by omega⟩
  rw [if_neg h0]
  by_cases hh : n / 2 < s
  · rw [if_pos hh, if_neg (by omega : ¬ 2 * s < n), if_neg (by omega : ¬ 2 * s < n)]
    have e := recId_val x y true
    constructor
    · intro h
      obtain rfl := Option.some.inj h
      exact ⟨Nat.mod_mod _ _, by omega, by omega, Nat.mod_eq_of_lt (by omega), e⟩
    · rintro ⟨h1, h2, h3, h4, h5⟩
      congr 1
      apply Subtype.ext
      refine Prod.ext ?_ (Prod.ext ?_ (Fin.ext ?_))
      · exact (Nat.mod_mod _ _).trans h1.symm
      · exact (Nat.mod_eq_of_lt (by omega)).trans h4.symm
      · exact e.trans h5.symm
  · rw [if_neg hh, if_pos (by omega : 2 * s < n), if_pos (by omega : 2 * s < n)]
    have e := recId_val x y false
    constructor
    · intro h
      obtain rfl := Option.some.inj h
      exact ⟨Nat.mod_mod _ _, by omega, by omega, Nat.mod_eq_of_lt (by omega), e⟩
    · rintro ⟨h1, h2, h3, h4, h5⟩
      congr 1
      apply Subtype.ext
      refine Prod.ext ?_ (Prod.ext ?_ (Fin.ext ?_))
      · exact (Nat.mod_mod _ _).trans h1.symm
      · exact (Nat.mod_eq_of_lt (by omega)).trans h4.symm
      · exact e.trans h5.symm

theorem beBytes_hmac (key msg : Bytes) : beBytes 32 (beVal (hmac key msg)) = hmac key msg :=
  beBytes_beVal' (hmac256_length _ _)

theorem signLoop_first (x : Bytes) (m d : Nat) (a i : Nat)
    (h : ∃ j < a, ∃ t, signWith m d (candidate x (i + j)) = some t) :
    ∃ j < a, signWith m d (candidate x (i + j)) = some (signLoop m d a (beforeKV x i).1 (beforeKV x i).2) ∧
      ∀ j' < j, signWith m d (candidate x (i + j')) = none := by
  induction a generalizing i with
  | zero => obtain ⟨j, h, _⟩ := h; omega
  | succ a ih =>
    simp only [signLoop, force_eq, beBytes_hmac]
    cases hc : signWith m d (beVal (hmac (beforeKV x i).1 (beforeKV x i).2)) with
    | some t => exact ⟨0, by omega, hc, fun j' hj => by omega⟩
    | none =>
      have h' : ∃ j < a, ∃ t, signWith m d (candidate x (i + 1 + j)) = some t := by
        obtain ⟨j, hj, t, ht⟩ := h
        cases j with
        | zero => rw [Nat.add_zero, candidate, hc] at ht; cases ht
        | succ j => exact ⟨j, by omega, t, by rwa [show i + 1 + j = i + (j + 1) by omega]⟩
      obtain ⟨j, hj, h1, h2⟩ := ih (i + 1) h'
      refine ⟨j + 1, by omega, ?_, fun j' hj' => ?_⟩
      · rw [show i + (j + 1) = i + 1 + j by omega]; exact h1
      · cases j' with
        | zero => exact hc
        | succ j' => rw [show i + (j' + 1) = i + 1 + j' by omega]; exact h2 j' (by omega)

theorem signsWith_sig {d : SK} {m k r s id : Nat} (h : SignsWith G d.1 m k r s id) :
    ∃ t : RSig, t.1.1 = r ∧ t.1.2.1 = s ∧ t.1.2.2.1 = id ∧ signWith m d.1 k = some t := by
  have hr : r < n := by
    obtain ⟨-, -, x, y, hN, s₀, h1, h2, -⟩ := h
    rw [h2]
    exact mod_n_lt _
  have hs : s < n := by
    obtain ⟨-, -, x, y, hN, s₀, h1, h2, -, h3, h4, -, h5, -⟩ := h
    have h4 : s₀ < n := h4
    have h5 : s = if 2 * s₀ < n then s₀ else n - s₀ := h5
    split at h5 <;> omega
  have hid : id < 4 := by
    obtain ⟨-, -, x, y, hN, s₀, -, -, -, -, -, -, -, h⟩ := h
    have := Nat.mod_lt (ZMod.val y) (show 0 < 2 by decide)
    split at h <;> split at h <;> omega
  exact ⟨⟨(r, s, ⟨id, hid⟩), hr, hs⟩, rfl, rfl, rfl, (signWith_iff d m k _).2 h⟩

theorem usable_iff (d : SK) (m k : Nat) : Usable G d.1 m k ↔ ∃ t, signWith m d.1 k = some t := by
  constructor
  · rintro ⟨r, s, id, h⟩
    obtain ⟨t, -, -, -, h⟩ := signsWith_sig h
    exact ⟨t, h⟩
  · rintro ⟨t, h⟩
    exact ⟨_, _, _, (signWith_iff d m k t).1 h⟩

theorem sign_loop (m : Arr 32) (d : SK) : sign m d = signLoop (beVal m.1) d.1 16
    (beforeKV (beBytes 32 d.1 ++ m.1) 0).1 (beforeKV (beBytes 32 d.1 ++ m.1) 0).2 := by
  simp only [sign, force_eq, beBytes_hmac]
  rfl

theorem seed_eq (m : Arr 32) (d : Nat) (hm : beVal m.1 < Ecdsa.order) : seed d m.1 = beBytes 32 d ++ m.1 := by
  rw [seed, Nat.mod_eq_of_lt hm, beBytes_beVal' m.2]

/-- **C123** For every digest below the order: if one of the first sixteen candidates of RFC 6979 can be used,
`sign_ecdsa_recoverable` gives the signature of RFC 6979 and no other. -/
theorem C123_rfc6979 (m : Arr 32) (d : SK) (hm : beVal m.1 < Ecdsa.order) (h : UsableWithin 16 G d.1 m.1) (r s id : Nat) :
    IsSignature G d.1 m.1 r s id ↔ (sign m d).1.1 = r ∧ (sign m d).1.2.1 = s ∧ (sign m d).1.2.2.1 = id := by
  unfold UsableWithin at h
  unfold IsSignature
  rw [seed_eq m d.1 hm] at h ⊢
  have hx : (beBytes 32 d.1 ++ m.1).length = 64 := by simp [m.2]
  have h' : ∃ j < 16, ∃ t, signWith (beVal m.1) d.1 (candidate (beBytes 32 d.1 ++ m.1) (0 + j)) = some t := by
    obtain ⟨i, hi, k, h1, h2⟩ := h
    rw [candidate_iff _ hx] at h1
    rw [usable_iff, h1] at h2
    exact ⟨i, hi, by rwa [Nat.zero_add]⟩
  obtain ⟨j, hj, h1, h2⟩ := signLoop_first _ _ _ _ _ h'
  rw [← sign_loop] at h1
  simp only [Nat.zero_add] at h1 h2
  constructor
  · rintro ⟨i, k, hk, hs, hf⟩
    rw [candidate_iff _ hx] at hk
    subst hk
    obtain ⟨t, rfl, rfl, rfl, ht⟩ := signsWith_sig hs
    have hij : i = j := by
      rcases Nat.lt_trichotomy i j with h | h | h
      · rw [h2 i h] at ht; cases ht
      · exact h
      · exact absurd ((usable_iff d _ _).2 ⟨_, h1⟩) (hf j h _ ((candidate_iff _ hx _ _).2 rfl))
    subst hij
    rw [ht] at h1
    obtain rfl := Option.some.inj h1
    exact ⟨rfl, rfl, rfl⟩
  · rintro ⟨rfl, rfl, rfl⟩
    refine ⟨j, _, (candidate_iff _ hx _ _).2 rfl, (signWith_iff d _ _ _).1 h1, fun i hi k' hk' hu => ?_⟩
    rw [candidate_iff _ hx] at hk'
    obtain ⟨t, ht⟩ := (usable_iff d _ _).1 hu
    rw [hk', h2 i hi] at ht
    cases ht

/-- The key and digest have a usable first candidate. -/
theorem first_usable (m : Arr 32) (d : SK) (hm : beVal m.1 < Ecdsa.order)
    (h : (signWith (beVal m.1) d.1 (candidate (beBytes 32 d.1 ++ m.1) 0)).isSome) : UsableWithin 16 G d.1 m.1 :=
  ⟨0, by decide, _, (candidate_iff _ (by rw [seed_eq m d.1 hm]; simp [m.2]) _ _).2 (by rw [seed_eq m d.1 hm]),
    (usable_iff d _ _).2 (Option.isSome_iff_exists.1 h)⟩

theorem smul_inj {a b : Nat} (ha : a < n) (hb : b < n) (h : a • G = b • G) : a = b := by
  rwa [nsmul_inj_mod, addOrderOf_G, Nat.mod_eq_of_lt ha, Nat.mod_eq_of_lt hb] at h

/-- Two multiples of the base point with the same abscissa. -/
theorem same_abscissa {e₁ e₂ : Nat} (h₁ : 0 < e₁ ∧ e₁ < n) (h₂ : 0 < e₂ ∧ e₂ < n) {x y₁ y₂ : F}
    {hN₁ : W.Nonsingular x y₁} {hN₂ : W.Nonsingular x y₂} (hE₁ : e₁ • G = .some x y₁ hN₁) (hE₂ : e₂ • G = .some x y₂ hN₂) :
    (y₁ = y₂ ∧ e₁ = e₂) ∨ (y₁ = -y₂ ∧ e₁ + e₂ = n) := by
  have c₁ := (equation_iff' _ _).1 hN₁.1
  have c₂ := (equation_iff' _ _).1 hN₂.1
  rcases sq_eq_sq_iff_eq_or_eq_neg.1 (c₁.trans c₂.symm) with hy | hy
  · subst hy
    exact .inl ⟨rfl, smul_inj h₁.2 h₂.2 (hE₁.trans hE₂.symm)⟩
  · refine .inr ⟨hy, ?_⟩
    have : e₁ • G = (n - e₂) • G := by
      rw [neg_smul_G h₂.2.le, hE₁, hE₂]
      subst hy
      rw [Affine.Point.neg_some]
      congr 1
      simp [Affine.negY]
    have := smul_inj h₁.2 (by omega) this
    omega

theorem parity_neg {y₁ y₂ : Nat} (h₁ : 0 < y₁ ∧ y₁ < p) (h₂ : 0 < y₂ ∧ y₂ < p) (h : (y₁ : F) = -(y₂ : F)) :
    (y₁ % 2 == 1) = !(y₂ % 2 == 1) := by
  have : y₁ = p - y₂ := cast_inj h₁.2 (by omega) (by rw [h, cast_sub' h₂.2])
  rw [this, odd_sub h₂.2]

/-- The nonce of a signature is known, up to its sign, from `r` and the recovery identifier. -/
theorem fits_nonces {m₁ m₂ : Arr 32} {d₁ d₂ : SK} {t₁ t₂ : RSig} {e₁ e₂ x₁ x₂ y₁ y₂ : Nat}
    (h₁ : Fits m₁ t₁ d₁ e₁ x₁ y₁) (h₂ : Fits m₂ t₂ d₂ e₂ x₂ y₂) (hr : t₁.1.1 = t₂.1.1)
    (hi : t₁.1.2.2.1 / 2 = t₂.1.2.2.1 / 2) :
    if t₁.1.2.2 = t₂.1.2.2 then e₁ = e₂ else e₁ + e₂ = n := by
  obtain ⟨hQ₁, hE₁, hx₁, hy₁⟩ := repA_some h₁.point
  obtain ⟨hQ₂, hE₂, hx₂, hy₂⟩ := repA_some h₂.point
  have hx : x₁ = x₂ := by
    rw [← x_of_r hx₁, ← x_of_r hx₂, ← h₁.r_eq, ← h₂.r_eq, hr]
    have : (n ≤ x₁) ↔ (n ≤ x₂) := by rw [← h₁.high, ← h₂.high, hi]
    simp only [this]
  subst hx
  have n₁ := ne_zero_of_order h₁.pos h₁.lt h₁.point
  have n₂ := ne_zero_of_order h₂.pos h₂.lt h₂.point
  have o₁ := h₁.odd
  have o₂ := h₂.odd
  rcases same_abscissa ⟨h₁.pos, h₁.lt⟩ ⟨h₂.pos, h₂.lt⟩ hE₁ hE₂ with ⟨hy, he⟩ | ⟨hy, he⟩
  · have hy : y₁ = y₂ := cast_inj hy₁ hy₂ hy
    rw [← hy, ← o₁] at o₂
    rw [if_pos]
    · exact he
    · apply Fin.ext
      have : t₁.1.2.2.1 % 2 = t₂.1.2.2.1 % 2 := by
        rcases Nat.mod_two_eq_zero_or_one t₁.1.2.2.1 with a | a <;>
          rcases Nat.mod_two_eq_zero_or_one t₂.1.2.2.1 with b | b <;> simp [a, b] at o₂ ⊢
      omega
  · have hpar := parity_neg ⟨n₁, hy₁⟩ ⟨n₂, hy₂⟩ hy
    rw [if_neg]
    · exact he
    · intro h
      rw [h, o₂, hpar] at o₁
      revert o₁
      cases (y₂ % 2 == 1) <;> decide

/-- **C123** Two signatures of different digests by one key with the same `r` (and the same upper bit of the recovery
identifier) reveal the key: it is a quotient of numbers that anyone can compute from the signatures and the
digests. -/
theorem C123_same_r_reveals (m₁ m₂ : Arr 32) (d : SK) (t₁ t₂ : RSig) (h₁ : recover m₁ t₁ = .ok (pub d))
    (h₂ : recover m₂ t₂ = .ok (pub d)) (hr : t₁.1.1 = t₂.1.1) (hi : t₁.1.2.2.1 / 2 = t₂.1.2.2.1 / 2)
    (hm : ¬ beVal m₁.1 ≡ beVal m₂.1 [MOD Ecdsa.order]) :
    let r : ZMod n := t₁.1.1
    let s₁ : ZMod n := t₁.1.2.1
    let s₂ : ZMod n := if t₁.1.2.2 = t₂.1.2.2 then t₂.1.2.1 else -t₂.1.2.1
    r * (s₁ - s₂) ≠ 0 ∧ (d.1 : ZMod n) = (s₂ * beVal m₁.1 - s₁ * beVal m₂.1) / (r * (s₁ - s₂)) := by
  intro r s₁ s₂
  obtain ⟨d₁, e₁, x₁, y₁, hd₁, f₁⟩ := recover_fits h₁
  obtain ⟨d₂, e₂, x₂, y₂, hd₂, f₂⟩ := recover_fits h₂
  obtain rfl := (C82_key_pairs _).unique hd₁ rfl
  obtain rfl := (C82_key_pairs _).unique hd₂ rfl
  have hn := fits_nonces f₁ f₂ hr hi
  have hr0 : r ≠ 0 := fun h => by
    have : t₁.1.1 = 0 := (castn_zero_iff t₁.2.1).1 h
    exact f₁.r_ne (f₁.r_eq ▸ this)
  have q₁ : s₁ * e₁ = beVal m₁.1 + r * d₂.1 := by
    have := f₁.eq
    rw [← ZMod.natCast_mod x₁, ← f₁.r_eq] at this
    exact this
  have q₂ : s₂ * e₁ = beVal m₂.1 + r * d₂.1 := by
    have := f₂.eq
    rw [← ZMod.natCast_mod x₂, ← f₂.r_eq, ← hr] at this
    by_cases hid : t₁.1.2.2 = t₂.1.2.2
    · rw [if_pos hid] at hn
      simp only [s₂, if_pos hid]
      rw [hn]
      exact this
    · rw [if_neg hid] at hn
      have he : e₁ = n - e₂ := by omega
      simp only [s₂, if_neg hid]
      rw [he, castn_sub f₂.lt.le, neg_mul_neg]
      exact this
  have hne : s₁ - s₂ ≠ 0 := by
    intro h
    have h : s₁ = s₂ := sub_eq_zero.1 h
    rw [h, q₂] at q₁
    have : ((beVal m₁.1 : Nat) : ZMod n) = (beVal m₂.1 : Nat) := (add_right_cancel q₁).symm
    exact hm ((ZMod.natCast_eq_natCast_iff _ _ n).1 this)
  refine ⟨mul_ne_zero hr0 hne, ?_⟩
  rw [eq_div_iff (mul_ne_zero hr0 hne)]
  linear_combination s₂ * q₁ - s₁ * q₂

theorem signsWith_abscissa {d m k r s id : Nat} (h : SignsWith G d m k r s id) :
    0 < k ∧ k < n ∧ ∃ (x y : F) (hN : W.Nonsingular x y), k • G = .some x y hN ∧
      x.val = (if id / 2 = 1 then r + n else r) ∧ r < n ∧ id < 4 := by
  obtain ⟨h1, h2, x, y, hN, s₀, h3, h4, h5, h6, h7, h8, h9, h10⟩ := h
  refine ⟨h1, h2, x, y, hN, h3, ?_⟩
  have hrn : r < n := h4 ▸ mod_n_lt _
  have hx : ZMod.val (n := p) x < p := ZMod.val_lt x
  have hxr := x_of_r hx
  have h4 : r = ZMod.val (n := p) x % n := h4
  have h10 : id = (if ZMod.val (n := p) x < n then 0 else 2) + (if 2 * s₀ < n then ZMod.val (n := p) y % 2 else 1 - ZMod.val (n := p) y % 2) := h10
  have hb : (if 2 * s₀ < n then ZMod.val (n := p) y % 2 else 1 - ZMod.val (n := p) y % 2) < 2 := by split <;> omega
  rw [← h4] at hxr
  by_cases hc : n ≤ ZMod.val (n := p) x
  · rw [if_neg (by omega)] at h10
    rw [if_pos hc] at hxr
    rw [if_pos (by omega)]
    exact ⟨hxr.symm, hrn, by omega⟩
  · rw [if_pos (by omega)] at h10
    rw [if_neg hc] at hxr
    rw [if_neg (by omega)]
    exact ⟨hxr.symm, hrn, by omega⟩

/-- **C123** Two signatures share `r` and the upper bit of the recovery identifier exactly when their nonces are the
same or opposite. -/
theorem C123_same_r_iff (d₁ d₂ m₁ m₂ k₁ k₂ r₁ r₂ s₁ s₂ i₁ i₂ : Nat) (h₁ : SignsWith G d₁ m₁ k₁ r₁ s₁ i₁)
    (h₂ : SignsWith G d₂ m₂ k₂ r₂ s₂ i₂) :
    (r₁ = r₂ ∧ i₁ / 2 = i₂ / 2) ↔ (k₁ = k₂ ∨ k₁ + k₂ = Ecdsa.order) := by
  obtain ⟨a₁, b₁, x₁, y₁, hN₁, hE₁, v₁, c₁, g₁⟩ := signsWith_abscissa h₁
  obtain ⟨a₂, b₂, x₂, y₂, hN₂, hE₂, v₂, c₂, g₂⟩ := signsWith_abscissa h₂
  constructor
  · rintro ⟨rfl, hi⟩
    have hx : x₁ = x₂ := ZMod.val_injective _ (by rw [v₁, v₂, hi])
    subst hx
    rcases same_abscissa ⟨a₁, b₁⟩ ⟨a₂, b₂⟩ hE₁ hE₂ with h | h
    · exact .inl h.2
    · exact .inr h.2
  · intro h
    have hx : x₁ = x₂ := by
      rcases h with rfl | h
      · have := hE₁.symm.trans hE₂
        injection this
      · have h : k₁ + k₂ = n := h
        have e : k₁ = n - k₂ := by omega
        rw [e, neg_smul_G b₂.le, hE₂, Affine.Point.neg_some] at hE₁
        injection hE₁ with e1
        exact e1.symm
    rw [hx, v₂] at v₁
    have hm₁ := congrArg (· % n) v₁
    have hr : r₁ = r₂ := by
      have h1 : (if i₁ / 2 = 1 then r₁ + n else r₁) % n = r₁ := by
        split
        · rw [Nat.add_mod_right, Nat.mod_eq_of_lt c₁]
        · exact Nat.mod_eq_of_lt c₁
      have h2 : (if i₂ / 2 = 1 then r₂ + n else r₂) % n = r₂ := by
        split
        · rw [Nat.add_mod_right, Nat.mod_eq_of_lt c₂]
        · exact Nat.mod_eq_of_lt c₂
      rw [← h1, ← h2]
      exact hm₁.symm
    refine ⟨hr, ?_⟩
    split at v₁ <;> split at v₁ <;> omega

section
variable [Hashes]
attribute [local instance] realSecp
local instance rfc6979Lawful : Secp.Lawful := realLawful

omit [Hashes] in
/-- **C123** The 65 bytes that are put into a transaction. -/
theorem C123_bytes (m : Arr 32) (d : SK) (hm : beVal m.1 < Ecdsa.order) (h : UsableWithin 16 G d.1 m.1) (r s id : Nat)
    (hs : IsSignature G d.1 m.1 r s id) :
    (signatureBytes m d).1 = UInt8.ofNat id :: (beBytes 32 r ++ beBytes 32 s) := by
  obtain ⟨h1, h2, h3⟩ := (C123_rfc6979 m d hm h r s id).1 hs
  rw [signatureBytes_eq]
  show UInt8.ofNat (sign m d).1.2.2.1 :: (beBytes 32 (sign m d).1.1 ++ beBytes 32 (sign m d).1.2.1) = _
  rw [h1, h2, h3]

omit [Hashes] in
/-- **C123** The same of the bytes: if the signatures of two different digests, by one key, have the same bytes 1 to 32
and first bytes that differ at most in their lowest bit, anyone can compute the key. -/
theorem C123_bytes_reveal (m₁ m₂ : Arr 32) (d : SK) (b₁ b₂ : UInt8) (r s₁ s₂ : Arr 32)
    (h₁ : RecoversKey m₁ ⟨b₁ :: (r.1 ++ s₁.1), by simp [r.2, s₁.2]⟩ (pub d))
    (h₂ : RecoversKey m₂ ⟨b₂ :: (r.1 ++ s₂.1), by simp [r.2, s₂.2]⟩ (pub d))
    (hb : b₁.toNat / 2 = b₂.toNat / 2) (hm : ¬ beVal m₁.1 ≡ beVal m₂.1 [MOD Ecdsa.order]) :
    let σ : ZMod n := if b₁ = b₂ then 1 else -1
    (beVal r.1 * (beVal s₁.1 - σ * beVal s₂.1) : ZMod n) ≠ 0 ∧
    (d.1 : ZMod n) = (σ * beVal s₂.1 * beVal m₁.1 - beVal s₁.1 * beVal m₂.1) /
      (beVal r.1 * (beVal s₁.1 - σ * beVal s₂.1)) := by
  intro σ
  have ht : ∀ s : Arr 32, (r.1 ++ s.1).take 32 = r.1 ∧ (r.1 ++ s.1).drop 32 = s.1 := fun s =>
    ⟨List.take_left' r.2, List.drop_left' r.2⟩
  obtain ⟨id₁, hl₁, rfl, g₁⟩ := (recoversKey_iff _ _ _ _ _).1 h₁
  obtain ⟨id₂, hl₂, rfl, g₂⟩ := (recoversKey_iff _ _ _ _ _).1 h₂
  have hid : ∀ id : Fin 4, (UInt8.ofNat id).toNat = id.1 := by decide
  have hinj : ∀ a b : Fin 4, UInt8.ofNat a = UInt8.ofNat b ↔ a = b := by decide
  rw [hid, hid] at hb
  have := C123_same_r_reveals m₁ m₂ d _ _ g₁ g₂ (by dsimp only; rw [(ht s₁).1, (ht s₂).1]) hb hm
  simp only [(ht s₁).1, (ht s₁).2, (ht s₂).2] at this
  have hσ : (if id₁ = id₂ then (beVal s₂.1 : ZMod n) else -(beVal s₂.1 : ZMod n)) = σ * beVal s₂.1 := by
    simp only [σ, hinj]
    split
    · rw [one_mul]
    · rw [neg_one_mul]
  rw [hσ] at this
  exact this

end

/-! ## Examples: a published test vector for the curve, and a nonce that is used twice -/

/-- The private key 1. -/
def rfcKey : SK := ⟨1, by decide⟩
/-- The digest of a name. -/
def rfcDigest : Arr 32 := Concrete.sha256 "Satoshi Nakamoto".toUTF8.toList

theorem rfc_digest_lt : beVal rfcDigest.1 < Ecdsa.order := by decide +kernel

theorem rfc_usable : UsableWithin 16 G rfcKey.1 rfcDigest.1 := first_usable _ _ rfc_digest_lt (by decide +kernel)

example : IsCandidate (seed 1 rfcDigest.1) 0 0x8f8a276c19f4149656b280621e358cce24f5f52542772691ee69063b74f15d15 :=
  (candidate_iff _ (by rw [seed_eq _ _ rfc_digest_lt]; simp [rfcDigest.2]) _ _).2
    (by rw [seed_eq _ _ rfc_digest_lt]; decide +kernel)

example : ∃ id, IsSignature G 1 rfcDigest.1 0x934b1ea10a4b3c1757e2b0c017d0b6143ce3c9a7e6a4a49860d7a6ab210ee3d8
    0x2442ce9d2b916064108014783e923ec36b49743e2ffa1c4496f01a512aafd9e5 id :=
  ⟨_, (C123_rfc6979 rfcDigest rfcKey rfc_digest_lt rfc_usable 0x934b1ea10a4b3c1757e2b0c017d0b6143ce3c9a7e6a4a49860d7a6ab210ee3d8
    0x2442ce9d2b916064108014783e923ec36b49743e2ffa1c4496f01a512aafd9e5 _).2 ⟨by decide +kernel, by decide +kernel, rfl⟩⟩

/-- Two digests signed with the nonce 1. -/
def reuse (m : Arr 32) : RSig := (signWith (beVal m.1) 12345 1).getD ⟨(0, 0, 0), by decide, by decide⟩

theorem reuse_recovers (m : Arr 32) (h : (signWith (beVal m.1) 12345 1).isSome) :
    recover m (reuse m) = .ok (pub ⟨12345, by decide⟩) := by
  obtain ⟨t, ht⟩ := Option.isSome_iff_exists.1 h
  rw [reuse, ht]
  exact signWith_recover m ⟨12345, by decide⟩ ht

example : let m : Arr 32 := ⟨List.replicate 32 7, rfl⟩
    let m' : Arr 32 := ⟨List.replicate 32 8, rfl⟩
    recover m (reuse m) = .ok (pub ⟨12345, by decide⟩) ∧ recover m' (reuse m') = .ok (pub ⟨12345, by decide⟩) ∧
    (reuse m).1.1 = (reuse m').1.1 ∧ (reuse m).1.2.2.1 / 2 = (reuse m').1.2.2.1 / 2 ∧
    ¬ beVal m.1 ≡ beVal m'.1 [MOD Ecdsa.order] ∧ (reuse m).1.2.1 ≠ (reuse m').1.2.1 :=
  ⟨reuse_recovers _ (by decide +kernel), reuse_recovers _ (by decide +kernel), by decide +kernel, by decide +kernel,
    by unfold Nat.ModEq; decide +kernel, by decide +kernel⟩

end Stacks.Tx

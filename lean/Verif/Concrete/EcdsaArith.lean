import Verif.Concrete.Ecdsa
import Mathlib.NumberTheory.LucasPrimality
import Mathlib.Data.Nat.Prime.Basic
import Mathlib.Algebra.BigOperators.Associated
import Mathlib.Tactic.NormNum.Prime

/-! # Modular powers, and the two primes of secp256k1 -/

namespace Stacks.Concrete.Ecdsa

@[simp] theorem force_eq {α : Type} (n : Nat) (k : Nat → α) : force n k = k n := by
  cases n <;> rfl

/-- The number with the given bits, most significant first. -/
def bitsVal : List Bool → Nat
  | [] => 0
  | b :: bs => (if b then 2 ^ bs.length else 0) + bitsVal bs

@[simp] theorem bits_length (l k : Nat) : (bits l k).length = l := by
  induction l with
  | zero => rfl
  | succ l ih => simp [bits, ih]

theorem bitsVal_bits (l k : Nat) : bitsVal (bits l k) = k % 2 ^ l := by
  induction l with
  | zero => simp [bits, bitsVal, Nat.mod_one]
  | succ l ih =>
    simp only [bits, bitsVal, bits_length, ih, beq_iff_eq]
    have h : k % 2 ^ (l + 1) = 2 ^ l * (k / 2 ^ l % 2) + k % 2 ^ l := by
      rw [pow_succ, Nat.mod_mul]; omega
    rw [h]
    rcases Nat.mod_two_eq_zero_or_one (k / 2 ^ l) with h | h <;> simp [h]

theorem powLoop_eq (m b : Nat) (bs : List Bool) (a : Nat) :
    powLoop m b bs a % m = a ^ 2 ^ bs.length * b ^ bitsVal bs % m := by
  induction bs generalizing a with
  | nil => simp [powLoop, bitsVal]
  | cons c cs ih =>
    rw [powLoop, force_eq, ih]
    cases c
    · simp only [bitsVal, Bool.false_eq_true, if_false, List.length_cons, zero_add]
      refine Nat.ModEq.mul_right _ ?_
      refine ((Nat.mod_modEq (a * a) m).pow _).trans ?_
      rw [← pow_two, ← pow_mul, pow_succ 2 cs.length, mul_comm 2]
    · simp only [bitsVal, if_true, List.length_cons]
      have e : a ^ 2 ^ (cs.length + 1) * b ^ (2 ^ cs.length + bitsVal cs) =
          (a * a * b) ^ 2 ^ cs.length * b ^ bitsVal cs := by
        rw [← pow_two, mul_pow, ← pow_mul, pow_succ 2 cs.length, mul_comm 2, pow_add]; ring
      rw [e]
      refine Nat.ModEq.mul_right _ (Nat.ModEq.pow _ ?_)
      exact (Nat.mod_modEq _ m).trans ((Nat.mod_modEq (a * a) m).mul_right b)

theorem powLoop_lt {m b : Nat} (hm : 0 < m) (bs : List Bool) {a : Nat} (ha : a < m) :
    powLoop m b bs a < m := by
  induction bs generalizing a with
  | nil => exact ha
  | cons c cs ih =>
    rw [powLoop, force_eq]
    apply ih
    split <;> exact Nat.mod_lt _ hm

theorem powMod_lt {m : Nat} (hm : 1 < m) (b e : Nat) : powMod m b e < m :=
  powLoop_lt (by omega) _ hm

theorem powMod_eq {m b e : Nat} (hm : 1 < m) (he : e < 2 ^ 256) : powMod m b e = b ^ e % m := by
  rw [← Nat.mod_eq_of_lt (powMod_lt hm b e), powMod, powLoop_eq, bitsVal_bits, Nat.mod_eq_of_lt he, one_pow, one_mul]

theorem powMod_cast {m b e : Nat} (hm : 1 < m) (he : e < 2 ^ 256) : ((powMod m b e : Nat) : ZMod m) = (b : ZMod m) ^ e := by
  rw [powMod_eq hm he, ZMod.natCast_mod, Nat.cast_pow]

/-! ## Pratt certificates -/

/-- A primality certificate: `m - 1` is the product of the primes `fs`, and `a` has order `m - 1`. -/
theorem pratt (m a : Nat) (fs : List Nat) (hprime : ∀ f ∈ fs, f.Prime) (hm : 1 < m ∧ m ≤ 2 ^ 256)
    (hprod : fs.prod = m - 1) (h1 : powMod m a (m - 1) = 1)
    (hne : ∀ f ∈ fs, powMod m a ((m - 1) / f) ≠ 1) : m.Prime := by
  have hlt : m - 1 < 2 ^ 256 := by omega
  refine lucas_primality m (a : ZMod m) ?_ ?_
  · rw [← powMod_cast hm.1 hlt, h1, Nat.cast_one]
  · intro q hq hdvd h
    rw [← hprod] at hdvd
    obtain ⟨f, hf, hqf⟩ := (Nat.Prime.prime hq).dvd_prod_iff.1 hdvd
    obtain rfl := (Nat.prime_dvd_prime_iff_eq hq (hprime f hf)).1 hqf
    apply hne q hf
    have hlt' : (m - 1) / q < 2 ^ 256 := lt_of_le_of_lt (Nat.div_le_self _ _) hlt
    rw [← powMod_cast hm.1 hlt'] at h
    have h' : ((powMod m a ((m - 1) / q) : Nat) : ZMod m) = ((1 : Nat) : ZMod m) := by rw [h, Nat.cast_one]
    rw [ZMod.natCast_eq_natCast_iff] at h'
    unfold Nat.ModEq at h'
    rwa [Nat.mod_eq_of_lt (powMod_lt hm.1 _ _), Nat.mod_eq_of_lt hm.1] at h'
theorem prime_13331831 : Nat.Prime 13331831 :=
  pratt _ 13 [2, 5, 971, 1373] (by
    simp only [List.mem_cons, List.not_mem_nil, or_false]
    rintro f (rfl | rfl | rfl | rfl)
    · norm_num
    · norm_num
    · norm_num
    · norm_num) (by decide +kernel) (by decide +kernel) (by decide +kernel) (by decide +kernel)

theorem prime_173378833005251801 : Nat.Prime 173378833005251801 :=
  pratt _ 6 [2, 2, 2, 5, 5, 2621, 24809, 13331831] (by
    simp only [List.mem_cons, List.not_mem_nil, or_false]
    rintro f (rfl | rfl | rfl | rfl | rfl | rfl | rfl | rfl)
    · norm_num
    · norm_num
    · norm_num
    · norm_num
    · norm_num
    · norm_num
    · norm_num
    · exact prime_13331831) (by decide +kernel) (by decide +kernel) (by decide +kernel) (by decide +kernel)

theorem prime_22149492674086928081353 : Nat.Prime 22149492674086928081353 :=
  pratt _ 5 [2, 2, 2, 3, 5323, 173378833005251801] (by
    simp only [List.mem_cons, List.not_mem_nil, or_false]
    rintro f (rfl | rfl | rfl | rfl | rfl | rfl)
    · norm_num
    · norm_num
    · norm_num
    · norm_num
    · norm_num
    · exact prime_173378833005251801) (by decide +kernel) (by decide +kernel) (by decide +kernel) (by decide +kernel)

theorem prime_132896956044521568488119 : Nat.Prime 132896956044521568488119 :=
  pratt _ 6 [2, 3, 22149492674086928081353] (by
    simp only [List.mem_cons, List.not_mem_nil, or_false]
    rintro f (rfl | rfl | rfl)
    · norm_num
    · norm_num
    · exact prime_22149492674086928081353) (by decide +kernel) (by decide +kernel) (by decide +kernel) (by decide +kernel)

theorem prime_1206781 : Nat.Prime 1206781 :=
  pratt _ 10 [2, 2, 3, 5, 20113] (by
    simp only [List.mem_cons, List.not_mem_nil, or_false]
    rintro f (rfl | rfl | rfl | rfl | rfl)
    · norm_num
    · norm_num
    · norm_num
    · norm_num
    · norm_num) (by decide +kernel) (by decide +kernel) (by decide +kernel) (by decide +kernel)

theorem prime_7240687 : Nat.Prime 7240687 :=
  pratt _ 3 [2, 3, 1206781] (by
    simp only [List.mem_cons, List.not_mem_nil, or_false]
    rintro f (rfl | rfl | rfl)
    · norm_num
    · norm_num
    · exact prime_1206781) (by decide +kernel) (by decide +kernel) (by decide +kernel) (by decide +kernel)

theorem prime_107590001 : Nat.Prime 107590001 :=
  pratt _ 3 [2, 2, 2, 2, 5, 5, 5, 5, 7, 29, 53] (by
    simp only [List.mem_cons, List.not_mem_nil, or_false]
    rintro f (rfl | rfl | rfl | rfl | rfl | rfl | rfl | rfl | rfl | rfl | rfl)
    · norm_num
    · norm_num
    · norm_num
    · norm_num
    · norm_num
    · norm_num
    · norm_num
    · norm_num
    · norm_num
    · norm_num
    · norm_num) (by decide +kernel) (by decide +kernel) (by decide +kernel) (by decide +kernel)

theorem prime_255515944373312847190720520512484175977 : Nat.Prime 255515944373312847190720520512484175977 :=
  pratt _ 3 [2, 2, 2, 7, 7, 11, 1627, 2657, 4423, 41201, 96557, 7240687, 107590001] (by
    simp only [List.mem_cons, List.not_mem_nil, or_false]
    rintro f (rfl | rfl | rfl | rfl | rfl | rfl | rfl | rfl | rfl | rfl | rfl | rfl | rfl)
    · norm_num
    · norm_num
    · norm_num
    · norm_num
    · norm_num
    · norm_num
    · norm_num
    · norm_num
    · norm_num
    · norm_num
    · norm_num
    · exact prime_7240687
    · exact prime_107590001) (by decide +kernel) (by decide +kernel) (by decide +kernel) (by decide +kernel)

theorem prime_205115282021455665897114700593932402728804164701536103180137503955397371 : Nat.Prime 205115282021455665897114700593932402728804164701536103180137503955397371 :=
  pratt _ 10 [2, 3, 5, 29, 29, 31, 7723, 132896956044521568488119, 255515944373312847190720520512484175977] (by
    simp only [List.mem_cons, List.not_mem_nil, or_false]
    rintro f (rfl | rfl | rfl | rfl | rfl | rfl | rfl | rfl | rfl)
    · norm_num
    · norm_num
    · norm_num
    · norm_num
    · norm_num
    · norm_num
    · norm_num
    · exact prime_132896956044521568488119
    · exact prime_255515944373312847190720520512484175977) (by decide +kernel) (by decide +kernel) (by decide +kernel) (by decide +kernel)

theorem prime_115792089237316195423570985008687907853269984665640564039457584007908834671663 : Nat.Prime 115792089237316195423570985008687907853269984665640564039457584007908834671663 :=
  pratt _ 3 [2, 3, 7, 13441, 205115282021455665897114700593932402728804164701536103180137503955397371] (by
    simp only [List.mem_cons, List.not_mem_nil, or_false]
    rintro f (rfl | rfl | rfl | rfl | rfl)
    · norm_num
    · norm_num
    · norm_num
    · norm_num
    · exact prime_205115282021455665897114700593932402728804164701536103180137503955397371) (by decide +kernel) (by decide +kernel) (by decide +kernel) (by decide +kernel)

theorem prime_4681609 : Nat.Prime 4681609 :=
  pratt _ 23 [2, 2, 2, 3, 97, 2011] (by
    simp only [List.mem_cons, List.not_mem_nil, or_false]
    rintro f (rfl | rfl | rfl | rfl | rfl | rfl)
    · norm_num
    · norm_num
    · norm_num
    · norm_num
    · norm_num
    · norm_num) (by decide +kernel) (by decide +kernel) (by decide +kernel) (by decide +kernel)

theorem prime_107361793816595537 : Nat.Prime 107361793816595537 :=
  pratt _ 3 [2, 2, 2, 2, 16699, 85831, 4681609] (by
    simp only [List.mem_cons, List.not_mem_nil, or_false]
    rintro f (rfl | rfl | rfl | rfl | rfl | rfl | rfl)
    · norm_num
    · norm_num
    · norm_num
    · norm_num
    · norm_num
    · norm_num
    · exact prime_4681609) (by decide +kernel) (by decide +kernel) (by decide +kernel) (by decide +kernel)

theorem prime_120233 : Nat.Prime 120233 :=
  pratt _ 3 [2, 2, 2, 7, 19, 113] (by
    simp only [List.mem_cons, List.not_mem_nil, or_false]
    rintro f (rfl | rfl | rfl | rfl | rfl | rfl)
    · norm_num
    · norm_num
    · norm_num
    · norm_num
    · norm_num
    · norm_num) (by decide +kernel) (by decide +kernel) (by decide +kernel) (by decide +kernel)

theorem prime_44706919 : Nat.Prime 44706919 :=
  pratt _ 6 [2, 3, 797, 9349] (by
    simp only [List.mem_cons, List.not_mem_nil, or_false]
    rintro f (rfl | rfl | rfl | rfl)
    · norm_num
    · norm_num
    · norm_num
    · norm_num) (by decide +kernel) (by decide +kernel) (by decide +kernel) (by decide +kernel)

theorem prime_174723607534414371449 : Nat.Prime 174723607534414371449 :=
  pratt _ 3 [2, 2, 2, 17, 59, 4051, 120233, 44706919] (by
    simp only [List.mem_cons, List.not_mem_nil, or_false]
    rintro f (rfl | rfl | rfl | rfl | rfl | rfl | rfl | rfl)
    · norm_num
    · norm_num
    · norm_num
    · norm_num
    · norm_num
    · norm_num
    · exact prime_120233
    · exact prime_44706919) (by decide +kernel) (by decide +kernel) (by decide +kernel) (by decide +kernel)

theorem prime_305873 : Nat.Prime 305873 :=
  pratt _ 3 [2, 2, 2, 2, 7, 2731] (by
    simp only [List.mem_cons, List.not_mem_nil, or_false]
    rintro f (rfl | rfl | rfl | rfl | rfl | rfl)
    · norm_num
    · norm_num
    · norm_num
    · norm_num
    · norm_num
    · norm_num) (by decide +kernel) (by decide +kernel) (by decide +kernel) (by decide +kernel)

theorem prime_545358713 : Nat.Prime 545358713 :=
  pratt _ 5 [2, 2, 2, 41, 59, 28181] (by
    simp only [List.mem_cons, List.not_mem_nil, or_false]
    rintro f (rfl | rfl | rfl | rfl | rfl | rfl)
    · norm_num
    · norm_num
    · norm_num
    · norm_num
    · norm_num
    · norm_num) (by decide +kernel) (by decide +kernel) (by decide +kernel) (by decide +kernel)

theorem prime_1627771 : Nat.Prime 1627771 :=
  pratt _ 3 [2, 3, 5, 29, 1871] (by
    simp only [List.mem_cons, List.not_mem_nil, or_false]
    rintro f (rfl | rfl | rfl | rfl | rfl)
    · norm_num
    · norm_num
    · norm_num
    · norm_num
    · norm_num) (by decide +kernel) (by decide +kernel) (by decide +kernel) (by decide +kernel)

theorem prime_297159362677 : Nat.Prime 297159362677 :=
  pratt _ 2 [2, 2, 3, 3, 11, 461, 1627771] (by
    simp only [List.mem_cons, List.not_mem_nil, or_false]
    rintro f (rfl | rfl | rfl | rfl | rfl | rfl | rfl)
    · norm_num
    · norm_num
    · norm_num
    · norm_num
    · norm_num
    · norm_num
    · exact prime_1627771) (by decide +kernel) (by decide +kernel) (by decide +kernel) (by decide +kernel)

theorem prime_29047611873442575647497758179 : Nat.Prime 29047611873442575647497758179 :=
  pratt _ 2 [2, 293, 305873, 545358713, 297159362677] (by
    simp only [List.mem_cons, List.not_mem_nil, or_false]
    rintro f (rfl | rfl | rfl | rfl | rfl)
    · norm_num
    · norm_num
    · exact prime_305873
    · exact prime_545358713
    · exact prime_297159362677) (by decide +kernel) (by decide +kernel) (by decide +kernel) (by decide +kernel)

theorem prime_341948486974166000522343609283189 : Nat.Prime 341948486974166000522343609283189 :=
  pratt _ 2 [2, 2, 3, 3, 3, 109, 29047611873442575647497758179] (by
    simp only [List.mem_cons, List.not_mem_nil, or_false]
    rintro f (rfl | rfl | rfl | rfl | rfl | rfl | rfl)
    · norm_num
    · norm_num
    · norm_num
    · norm_num
    · norm_num
    · norm_num
    · exact prime_29047611873442575647497758179) (by decide +kernel) (by decide +kernel) (by decide +kernel) (by decide +kernel)

theorem prime_115792089237316195423570985008687907852837564279074904382605163141518161494337 : Nat.Prime 115792089237316195423570985008687907852837564279074904382605163141518161494337 :=
  pratt _ 7 [2, 2, 2, 2, 2, 2, 3, 149, 631, 107361793816595537, 174723607534414371449, 341948486974166000522343609283189] (by
    simp only [List.mem_cons, List.not_mem_nil, or_false]
    rintro f (rfl | rfl | rfl | rfl | rfl | rfl | rfl | rfl | rfl | rfl | rfl | rfl)
    · norm_num
    · norm_num
    · norm_num
    · norm_num
    · norm_num
    · norm_num
    · norm_num
    · norm_num
    · norm_num
    · exact prime_107361793816595537
    · exact prime_174723607534414371449
    · exact prime_341948486974166000522343609283189) (by decide +kernel) (by decide +kernel) (by decide +kernel) (by decide +kernel)

theorem p_prime : p.Prime :=
  prime_115792089237316195423570985008687907853269984665640564039457584007908834671663

theorem n_prime : n.Prime :=
  prime_115792089237316195423570985008687907852837564279074904382605163141518161494337

end Stacks.Concrete.Ecdsa

import Verif.Spec.HashFunctions
import Verif.Concrete.Ripemd
import Verif.Proofs.Basic
import Mathlib.Data.Nat.Prime.Basic
import Mathlib.Tactic.Linarith

/-! # The executable digests follow the standards: lemmas -/

namespace Stacks.Concrete

open Stacks.Spec.HashFunctions

theorem force_id {α : Type} (n : Nat) (k : Nat → α) : force n k = k n := by cases n <;> rfl

theorem forceAll_id (l : List Nat) : Sha2.forceAll l = l := by
  induction l with
  | nil => rfl
  | cons x xs ih => rw [Sha2.forceAll, force_id, ih]

theorem fit_val {n : Nat} {bs : Bytes} (h : bs.length = n) : (fit n bs).1 = bs := by
  simp [fit, ← h]

theorem big_eq (bs : Bytes) : big bs = beVal bs := by
  unfold big beVal
  congr 1
  funext n b
  omega

theorem chunks_eq (n : Nat) (hn : 0 < n) : ∀ (m : Nat) (bs : Bytes) (fuel : Nat), bs.length = m * n → m ≤ fuel →
    Sha2.chunks n fuel bs = (List.range m).map fun i => (bs.drop (i * n)).take n
  | 0, bs, fuel, h, _ => by
    have : bs = [] := List.length_eq_zero_iff.1 (by simpa using h)
    subst this
    cases fuel <;> rfl
  | m + 1, bs, 0, _, hf => by omega
  | m + 1, bs, fuel + 1, h, hf => by
    rw [Nat.add_mul, Nat.one_mul] at h
    have he : bs.isEmpty = false := by
      cases bs with
      | nil => simp only [List.length_nil] at h; omega
      | cons => rfl
    rw [Sha2.chunks, he, chunks_eq n hn m (bs.drop n) fuel (by rw [List.length_drop]; omega) (by omega),
      List.range_succ_eq_map]
    simp [List.drop_drop, Nat.add_mul, Nat.add_comm]

/-! ## SHA-2 -/

/-- The executable version of a variant, with a table of constants and an initial value. -/
@[reducible] def exec (V : Variant) (ks iv : List Nat) : Sha2 := ⟨V.w, ks, iv, V.s0, V.s1, V.S0, V.S1⟩

/-- The rotations are by less than a word, and words are whole bytes. -/
structure Good (V : Variant) : Prop where
  w : V.w = 8 * (V.w / 8)
  pos : 0 < V.w
  quarter : V.w / 4 = 2 * (V.w / 8)
  S0 : V.S0.1 < V.w ∧ V.S0.2.1 < V.w ∧ V.S0.2.2 < V.w
  S1 : V.S1.1 < V.w ∧ V.S1.2.1 < V.w ∧ V.S1.2.2 < V.w
  s0 : V.s0.1 < V.w ∧ V.s0.2.1 < V.w
  s1 : V.s1.1 < V.w ∧ V.s1.2.1 < V.w

/-- The registers as the executable version keeps them. -/
def nats {w : Nat} (v : Registers w) : List Nat := v.words.map BitVec.toNat

section Rounds
variable {V : Variant} (ks iv : List Nat)

theorem rotr_eq {n : Nat} (x : BitVec V.w) (h : n < V.w) : (exec V ks iv).rotr x.toNat n = (x.rotateRight n).toNat := by
  rw [BitVec.toNat_rotateRight, Nat.mod_eq_of_lt h]; rfl

theorem big_rot {r : Nat × Nat × Nat} (x : BitVec V.w) (h : r.1 < V.w ∧ r.2.1 < V.w ∧ r.2.2 < V.w) :
    (exec V ks iv).big r x.toNat = (Rot r x).toNat := by
  rw [Sha2.big, rotr_eq ks iv x h.1, rotr_eq ks iv x h.2.1, rotr_eq ks iv x h.2.2, Rot, BitVec.toNat_xor, BitVec.toNat_xor]

theorem small_rot {r : Nat × Nat × Nat} (x : BitVec V.w) (h : r.1 < V.w ∧ r.2.1 < V.w) :
    (exec V ks iv).small r x.toNat = (RotShift r x).toNat := by
  rw [Sha2.small, rotr_eq ks iv x h.1, rotr_eq ks iv x h.2, RotShift, BitVec.toNat_xor, BitVec.toNat_xor,
    BitVec.toNat_ushiftRight]

theorem compress_eq (hV : Good V) (M K : Nat → BitVec V.w) (v : Registers V.w) : ∀ (n t : Nat),
    (exec V ks iv).compress ((List.range' t n).map fun i => (K i).toNat)
      ((List.range' t 16).map fun i => (schedule V M i).toNat)
      (rounds V K (schedule V M) v t).a.toNat
      (rounds V K (schedule V M) v t).b.toNat
      (rounds V K (schedule V M) v t).c.toNat
      (rounds V K (schedule V M) v t).d.toNat
      (rounds V K (schedule V M) v t).e.toNat
      (rounds V K (schedule V M) v t).f.toNat
      (rounds V K (schedule V M) v t).g.toNat
      (rounds V K (schedule V M) v t).h.toNat =
    nats (rounds V K (schedule V M) v (t + n))
  | 0, t => by
    rw [Nat.add_zero, List.range'_zero, List.map_nil]
    rfl
  | n + 1, t => by
    have ih := compress_eq hV M K v n (t + 1)
    rw [show t + (n + 1) = t + 1 + n by omega, ← ih]
    rw [List.range'_succ, show List.range' t 16 = t :: List.range' (t + 1) 15 from rfl, List.map_cons, List.map_cons]
    rw [Sha2.compress]
    simp only [force_id]
    have hs : schedule V M (t + 16) = RotShift V.s1 (schedule V M (t + 14)) +
        schedule V M (t + 9) + RotShift V.s0 (schedule V M (t + 1)) +
        schedule V M t := by
      rw [schedule, if_neg (by omega)]
      rfl
    have g0 : ((List.range' (t + 1) 15).map fun i => (schedule V M i).toNat).getD 0 0 =
        (schedule V M (t + 1)).toNat := rfl
    have g8 : ((List.range' (t + 1) 15).map fun i => (schedule V M i).toNat).getD 8 0 =
        (schedule V M (t + 9)).toNat := rfl
    have g13 : ((List.range' (t + 1) 15).map fun i => (schedule V M i).toNat).getD 13 0 =
        (schedule V M (t + 14)).toNat := rfl
    have hw : ∀ f : Nat → Nat, (List.range' (t + 1) 15).map f ++ [f (t + 16)] = (List.range' (t + 1) 16).map f := by
      intro f; rfl
    rw [g0, g8, g13]
    have e16 : ((schedule V M t).toNat + (exec V ks iv).small V.s0 (schedule V M (t + 1)).toNat +
        (schedule V M (t + 9)).toNat + (exec V ks iv).small V.s1 (schedule V M (t + 14)).toNat) % 2 ^ V.w =
        (schedule V M (t + 16)).toNat := by
      have h1 := small_rot ks iv (schedule V M (t + 1)) hV.s0
      have h2 := small_rot ks iv (schedule V M (t + 14)) hV.s1
      rw [hs, h1, h2]
      simp only [BitVec.toNat_add, Nat.mod_add_mod]
      congr 1
      show _ = _ + _ + _ + _
      omega
    rw [e16, hw fun i => (schedule V M i).toNat]
    generalize hr : rounds V K (schedule V M) v t = r
    have hr1 : rounds V K (schedule V M) v (t + 1) =
        round V (K t) (schedule V M t) r := by rw [rounds, hr]
    rw [hr1]
    generalize schedule V M = W
    have hS1 := big_rot ks iv r.e hV.S1
    have hS0 := big_rot ks iv r.a hV.S0
    rw [hS1, hS0]
    have hch : (r.e.toNat &&& r.f.toNat) ^^^ ((2 ^ V.w - 1 - r.e.toNat) &&& r.g.toNat) = (Ch r.e r.f r.g).toNat := by
      rw [Ch, BitVec.toNat_xor, BitVec.toNat_and, BitVec.toNat_and, BitVec.toNat_not]
    have hmaj : (r.a.toNat &&& r.b.toNat) ^^^ (r.a.toNat &&& r.c.toNat) ^^^ (r.b.toNat &&& r.c.toNat) =
        (Maj r.a r.b r.c).toNat := by
      rw [Maj, BitVec.toNat_xor, BitVec.toNat_xor, BitVec.toNat_and, BitVec.toNat_and, BitVec.toNat_and]
    rw [hch, hmaj]
    have ea : ∀ (h x y k w s m : BitVec V.w), (h.toNat + x.toNat + y.toNat + k.toNat + w.toNat + s.toNat + m.toNat) % 2 ^ V.w =
        (h + x + y + k + w + (s + m)).toNat := by
      intro h x y k w s m
      simp only [BitVec.toNat_add, Nat.add_mod_mod, Nat.mod_add_mod]
      congr 1
      omega
    have ee : ∀ (d h x y k w : BitVec V.w), (d.toNat + (h.toNat + x.toNat + y.toNat + k.toNat + w.toNat)) % 2 ^ V.w =
        (d + (h + x + y + k + w)).toNat := by
      intro d h x y k w
      simp only [BitVec.toNat_add, Nat.add_mod_mod, Nat.mod_add_mod]
    rw [show (r.h.toNat + (Rot V.S1 r.e).toNat + (Ch r.e r.f r.g).toNat + (K t).toNat + (W t).toNat + (Rot V.S0 r.a).toNat +
        (Maj r.a r.b r.c).toNat) % 2 ^ V.w = _ from ea _ _ _ _ _ _ _,
      show (r.d.toNat + (r.h.toNat + (Rot V.S1 r.e).toNat + (Ch r.e r.f r.g).toNat + (K t).toNat + (W t).toNat)) % 2 ^ V.w = _
        from ee _ _ _ _ _ _]
    rfl

/-- The words of a block, as the executable version reads them. -/
theorem block_words (hV : Good V) (padded : Bytes) (n : Nat) (h : (n + 1) * (2 * V.w) ≤ padded.length) :
    Sha2.forceAll ((Sha2.chunks (V.w / 8) 16 ((padded.drop (n * (2 * V.w))).take (2 * V.w))).map beVal) =
      (List.range' 0 16).map fun t => (word big V.w padded (16 * n + t)).toNat := by
  have hw := hV.w
  have hp := hV.pos
  rw [Nat.add_mul, Nat.one_mul] at h
  rw [forceAll_id, chunks_eq (V.w / 8) (by omega) 16 _ 16 (by rw [List.length_take, List.length_drop]; omega) (le_refl _),
    List.map_map, List.range_eq_range']
  apply List.map_congr_left
  intro t ht
  have ht : t < 16 := by simpa using (List.mem_range'_1.1 ht).2
  simp only [Function.comp, word]
  have e : ((((padded.drop (n * (2 * V.w))).take (2 * V.w)).drop (t * (V.w / 8))).take (V.w / 8)) =
      (padded.drop ((16 * n + t) * (V.w / 8))).take (V.w / 8) := by
    rw [List.drop_take, List.take_take, List.drop_drop]
    have h1 : n * (2 * V.w) + t * (V.w / 8) = (16 * n + t) * (V.w / 8) := by
      rw [hw]
      generalize V.w / 8 = q
      rw [Nat.mul_div_cancel_left _ (by omega)]
      ring
    have h2 : min (V.w / 8) (2 * V.w - t * (V.w / 8)) = V.w / 8 := by
      have : t * (V.w / 8) ≤ 15 * (V.w / 8) := Nat.mul_le_mul_right _ (by omega)
      omega
    rw [h1, h2]
  rw [e, big_eq, BitVec.toNat_ofNat, Nat.mod_eq_of_lt]
  refine lt_of_lt_of_le (beVal_lt _) ?_
  rw [show (256 : Nat) = 2 ^ 8 by rfl, ← pow_mul]
  refine Nat.pow_le_pow_right (by omega) ?_
  rw [List.length_take]
  omega

theorem block_eq (hV : Good V) (K : Nat → BitVec V.w) (H : Registers V.w) (padded : Bytes) (n : Nat)
    (h : (n + 1) * (2 * V.w) ≤ padded.length) :
    (exec V ((List.range' 0 V.rounds).map fun i => (K i).toNat) iv).block (nats H)
        ((padded.drop (n * (2 * V.w))).take (2 * V.w)) =
      nats ((rounds V K (schedule V fun t => word big V.w padded (16 * n + t)) H V.rounds).add H) := by
  unfold Sha2.block
  simp only []
  rw [block_words hV padded n h]
  have hm : ((List.range' 0 16).map fun t => (word big V.w padded (16 * n + t)).toNat) =
      (List.range' 0 16).map fun t => (schedule V (fun t => word big V.w padded (16 * n + t)) t).toNat := by
    apply List.map_congr_left
    intro t ht
    have ht : t < 16 := by simpa using (List.mem_range'_1.1 ht).2
    rw [schedule, if_pos ht]
  have hc := compress_eq ((List.range' 0 V.rounds).map fun i => (K i).toNat) iv hV
    (fun t => word big V.w padded (16 * n + t)) K H V.rounds 0
  rw [Nat.zero_add] at hc
  rw [hm]
  simp only [nats, Registers.words, List.map_cons, List.map_nil]
  simp only [rounds] at hc
  rw [hc, forceAll_id]
  generalize rounds V K _ H V.rounds = r
  simp only [nats, Registers.words, Registers.add, List.map_cons, List.map_nil, List.zipWith_cons_cons, List.zipWith_nil_left,
    BitVec.toNat_add, Nat.add_comm]

theorem blocks_eq (hV : Good V) (K : Nat → BitVec V.w) (H : Registers V.w) (padded : Bytes) (N : Nat)
    (h : padded.length = N * (2 * V.w)) : ∀ (m n fuel : Nat), n + m = N → m ≤ fuel →
    (exec V ((List.range' 0 V.rounds).map fun i => (K i).toNat) iv).blocks
        (Sha2.chunks (2 * V.w) fuel (padded.drop (n * (2 * V.w)))) (nats (chain V K H padded n)) =
      nats (chain V K H padded N)
  | 0, n, fuel, hn, _ => by
    rw [Nat.add_zero] at hn
    subst hn
    rw [← h, List.drop_length]
    cases fuel <;> rfl
  | m + 1, n, 0, _, hf => by omega
  | m + 1, n, fuel + 1, hn, hf => by
    have hp := hV.pos
    have hle : (n + 1) * (2 * V.w) ≤ padded.length := by rw [h]; exact Nat.mul_le_mul_right _ (by omega)
    have he : (padded.drop (n * (2 * V.w))).isEmpty = false := by
      rw [List.isEmpty_eq_false_iff, ← List.length_pos_iff, List.length_drop]
      rw [Nat.add_mul, Nat.one_mul] at hle
      omega
    rw [Sha2.chunks, he]
    simp only [Bool.false_eq_true, if_false]
    rw [Sha2.blocks, block_eq iv hV K _ padded n hle, List.drop_drop]
    have := blocks_eq hV K H padded N h m (n + 1) fuel (by omega) (by omega)
    rw [← this, chain, Nat.add_mul, Nat.one_mul]

end Rounds

/-! ## Padding -/

theorem least_zeros {block a z k : Nat} (hz : (a + z) % block = 0)
    (hl : ∀ f < z, (a + f) % block ≠ 0) (hk : (a + k) % block = 0) (hkl : ∀ f < k, (a + f) % block ≠ 0) : z = k := by
  rcases Nat.lt_trichotomy z k with h | h | h
  · exact absurd hz (hkl z h)
  · exact h
  · exact absurd hk (hl k h)

theorem zeros_spec {block a : Nat} (hb : 0 < block) :
    (a + (2 * block - a % block) % block) % block = 0 ∧ ∀ f < (2 * block - a % block) % block, (a + f) % block ≠ 0 := by
  have hm := Nat.mod_lt a hb
  have hd := Nat.mod_add_div a block
  by_cases h0 : a % block = 0
  · have e : (2 * block - a % block) % block = 0 := by rw [h0, Nat.sub_zero, Nat.mul_mod_left]
    rw [e]
    exact ⟨by simpa using h0, fun f hf => by omega⟩
  · have e : (2 * block - a % block) % block = block - a % block := by
      rw [show 2 * block - a % block = (block - a % block) + block by omega, Nat.add_mod_right, Nat.mod_eq_of_lt (by omega)]
    rw [e]
    refine ⟨?_, fun f hf => ?_⟩
    · rw [Nat.add_mod, show (block - a % block) % block = block - a % block from Nat.mod_eq_of_lt (by omega),
        show a % block + (block - a % block) = block by omega, Nat.mod_self]
    · rw [Nat.add_mod, Nat.mod_eq_of_lt (show f < block by omega), Nat.mod_eq_of_lt (by omega)]
      omega

/-- Padding, for a way of reading and of writing numbers. -/
theorem pads_iff {read : Bytes → Nat} {write : Nat → Nat → Bytes} {block field : Nat} (hb : 0 < block) (msg padded : Bytes)
    (hlen : ∀ x, (write field x).length = field) (hw : read (write field (8 * msg.length)) = 8 * msg.length)
    (hinj : ∀ xs ys : Bytes, xs.length = ys.length → read xs = read ys → xs = ys) :
    Pads read block field msg padded ↔
      padded = msg ++ [0x80] ++
        List.replicate ((2 * block - (msg.length + 1 + field) % block) % block) 0 ++ write field (8 * msg.length) := by
  obtain ⟨z1, z2⟩ := zeros_spec (a := msg.length + 1 + field) hb
  constructor
  · rintro ⟨zeros, len, rfl, h1, h2, h3, h4⟩
    have hz := least_zeros (z := zeros)
      (by rw [← h3]; congr 1; simp only [List.length_append, List.length_replicate, List.length_singleton, h1]; omega)
      (fun f hf => by
        rw [show msg.length + 1 + field + f = msg.length + 1 + f + field by omega]
        exact h4 f hf)
      z1 z2
    rw [hz, hinj len (write field (8 * msg.length)) (by rw [h1, hlen]) (by rw [h2, hw])]
  · rintro rfl
    refine ⟨_, _, rfl, hlen _, hw, ?_, fun f hf => ?_⟩
    · rw [← z1]; congr 1; simp only [List.length_append, List.length_replicate, List.length_singleton, hlen]; omega
    · rw [show msg.length + 1 + f + field = msg.length + 1 + field + f by omega]
      exact z2 f hf

/-! ## Writing words -/

theorem writes_iff {read : Bytes → Nat} {write : Nat → Nat → Bytes} {w : Nat} (hw8 : w = 8 * (w / 8))
    (hlen : ∀ x, (write (w / 8) x).length = w / 8)
    (hlt : ∀ bs : Bytes, read bs < 256 ^ bs.length)
    (hw : ∀ x < 2 ^ w, read (write (w / 8) x) = x)
    (hinj : ∀ xs ys : Bytes, xs.length = ys.length → read xs = read ys → xs = ys) :
    ∀ (words : List (BitVec w)) (bs : Bytes),
      Writes read bs words ↔ bs = words.flatMap fun x => write (w / 8) x.toNat := by
  intro words
  induction words with
  | nil =>
    intro bs
    simp only [Writes, List.length_nil, Nat.zero_mul, List.flatMap_nil]
    constructor
    · exact fun h => List.length_eq_zero_iff.1 h.1
    · rintro rfl
      exact ⟨rfl, fun i hi => by omega⟩
  | cons x xs ih =>
    intro bs
    have hpw : 256 ^ (w / 8) = 2 ^ w := by rw [show (256 : Nat) = 2 ^ 8 by rfl, ← pow_mul, ← hw8]
    rw [List.flatMap_cons]
    have hword : ∀ cs : Bytes, cs.length = w / 8 → (BitVec.ofNat w (read cs) = x ↔ cs = write (w / 8) x.toNat) := by
      intro cs hc
      have hl := hlt cs
      rw [hc, hpw] at hl
      constructor
      · intro h
        apply hinj _ _ (by rw [hc, hlen])
        rw [hw _ x.isLt, ← h, BitVec.toNat_ofNat, Nat.mod_eq_of_lt hl]
      · rintro rfl
        rw [hw _ x.isLt]
        simp
    have hdrop : ∀ i, word read w (bs.drop (w / 8)) i = word read w bs (i + 1) := by
      intro i
      simp only [word, List.drop_drop]
      rw [show w / 8 + i * (w / 8) = (i + 1) * (w / 8) by ring]
    constructor
    · rintro ⟨h1, h2⟩
      rw [List.length_cons, Nat.add_mul, Nat.one_mul] at h1
      have h0 := h2 0 (by simp)
      simp only [word, Nat.zero_mul, List.drop_zero, List.getD_cons_zero] at h0
      rw [hword _ (by rw [List.length_take]; omega)] at h0
      have hr := (ih (bs.drop (w / 8))).1 ⟨by rw [List.length_drop]; omega, fun i hi => by
        rw [hdrop]
        simpa using h2 (i + 1) (by simpa using hi)⟩
      rw [← hr, ← h0, List.take_append_drop]
    · intro h
      have ht : bs.take (w / 8) = write (w / 8) x.toNat := by rw [h, List.take_left' (hlen _)]
      have hd : bs.drop (w / 8) = xs.flatMap fun x => write (w / 8) x.toNat := by rw [h, List.drop_left' (hlen _)]
      have hr := (ih _).2 hd
      have hl : w / 8 ≤ bs.length := by rw [h, List.length_append, hlen]; omega
      refine ⟨?_, fun i hi => ?_⟩
      · have := hr.1
        rw [List.length_drop] at this
        rw [List.length_cons, Nat.add_mul, Nat.one_mul]
        omega
      · cases i with
        | zero =>
          simp only [word, Nat.zero_mul, List.drop_zero, List.getD_cons_zero]
          rw [hword _ (by rw [List.length_take]; omega), ht]
        | succ i =>
          rw [← hdrop]
          simpa using hr.2 i (by simpa using hi)

theorem read_inj (xs ys : Bytes) (hl : xs.length = ys.length) (h : beVal xs = beVal ys) : xs = ys := by
  rw [← beBytes_beVal xs, ← beBytes_beVal ys, hl, h]

theorem little_eq (bs : Bytes) : little bs = beVal bs.reverse := big_eq _

theorem little_inj (xs ys : Bytes) (hl : xs.length = ys.length) (h : little xs = little ys) : xs = ys := by
  rw [little_eq, little_eq] at h
  exact List.reverse_injective (read_inj _ _ (by simpa using hl) h)

/-! ## Constants -/

/-- The first eighty primes. -/
def primes : List Nat := [
  2, 3, 5, 7, 11, 13, 17, 19, 23, 29, 31, 37, 41, 43, 47, 53, 59, 61, 67, 71,
  73, 79, 83, 89, 97, 101, 103, 107, 109, 113, 127, 131, 137, 139, 149, 151, 157, 163, 167, 173,
  179, 181, 191, 193, 197, 199, 211, 223, 227, 229, 233, 239, 241, 251, 257, 263, 269, 271, 277, 281,
  283, 293, 307, 311, 313, 317, 331, 337, 347, 349, 353, 359, 367, 373, 379, 383, 389, 397, 401, 409]

/-- Trial division by the numbers up to 20. -/
def noDivisor (n : Nat) : Bool := Nat.ble 2 n && (List.range' 2 19).all fun m => Nat.blt n (m * m) || !Nat.beq (n % m) 0

theorem noDivisor_table : (List.range 410).all (fun n => noDivisor n == primes.elem n) = true := by decide +kernel

theorem prime_iff (n : Nat) (h : n < 410) : Nat.Prime n ↔ n ∈ primes := by
  have ht := List.all_eq_true.1 noDivisor_table n (List.mem_range.2 h)
  rw [beq_iff_eq] at ht
  rw [← List.elem_iff, ← ht, Nat.prime_def_le_sqrt, noDivisor, Bool.and_eq_true, List.all_eq_true]
  refine and_congr (by simp) (forall_congr' fun m => ?_)
  simp only [List.mem_range'_1, Bool.or_eq_true, Nat.blt_eq, Bool.not_eq_true', ← Bool.not_eq_true, Nat.beq_eq]
  constructor
  · rintro hm ⟨h1, h2⟩
    by_cases hs : n < m * m
    · exact Or.inl hs
    · exact Or.inr fun h0 => hm h1 (Nat.le_sqrt.2 (by omega)) (Nat.dvd_of_mod_eq_zero h0)
  · intro hm h1 h2 h3
    have hs := Nat.le_sqrt.1 h2
    have hm20 : m < 21 := by
      by_contra hc
      have : 21 * 21 ≤ m * m := Nat.mul_le_mul (by omega) (by omega)
      omega
    rcases hm ⟨h1, by omega⟩ with h' | h'
    · omega
    · exact h' (Nat.mod_eq_zero_of_dvd h3)

theorem primes_nodup : primes.Nodup := by decide +kernel

theorem countP_lt_succ (n : Nat) : ∀ l : List Nat,
    l.countP (fun x => Nat.blt x (n + 1)) = l.countP (fun x => Nat.blt x n) + l.count n
  | [] => rfl
  | x :: xs => by
    have ih := countP_lt_succ n xs
    rw [List.countP_cons, List.countP_cons, List.count_cons, ih]
    simp only [Nat.blt_eq, beq_iff_eq]
    split <;> split <;> split <;> omega

theorem count_prime : ∀ n ≤ 410, Nat.count Nat.Prime n = primes.countP fun x => Nat.blt x n
  | 0, _ => by decide +kernel
  | n + 1, h => by
    rw [Nat.count_succ, countP_lt_succ, count_prime n (by omega), primes_nodup.count]
    simp only [prime_iff n (by omega)]

theorem count_table : (List.range 80).all (fun t => primes.elem (primes.getD t 0) && Nat.blt (primes.getD t 0) 410 &&
    Nat.beq (primes.countP fun x => Nat.blt x (primes.getD t 0)) t) = true := by decide +kernel

theorem prime_eq (t : Nat) (ht : t < 80) : prime t = primes.getD t 0 := by
  have h := List.all_eq_true.1 count_table t (List.mem_range.2 ht)
  rw [Bool.and_eq_true, Bool.and_eq_true, List.elem_iff, Nat.blt_eq, Nat.beq_eq] at h
  obtain ⟨⟨h1, h2⟩, h3⟩ := h
  have := Nat.nth_count ((prime_iff _ h2).2 h1)
  rw [count_prime _ (by omega), h3] at this
  exact this

theorem cube_unique {X m n : Nat} (h1 : m ^ 3 ≤ X) (h2 : X < (m + 1) ^ 3) (h3 : n ^ 3 ≤ X) (h4 : X < (n + 1) ^ 3) : m = n := by
  have a : m < n + 1 := lt_of_pow_lt_pow_left₀ 3 (by omega) (lt_of_le_of_lt h1 h4)
  have b : n < m + 1 := lt_of_pow_lt_pow_left₀ 3 (by omega) (lt_of_le_of_lt h3 h2)
  omega

theorem square_unique {X m n : Nat} (h1 : m ^ 2 ≤ X) (h2 : X < (m + 1) ^ 2) (h3 : n ^ 2 ≤ X) (h4 : X < (n + 1) ^ 2) : m = n := by
  have a : m < n + 1 := lt_of_pow_lt_pow_left₀ 2 (by omega) (lt_of_le_of_lt h1 h4)
  have b : n < m + 1 := lt_of_pow_lt_pow_left₀ 2 (by omega) (lt_of_le_of_lt h3 h2)
  omega

theorem rest_unique {w a b k l : Nat} (hk : k < 2 ^ w) (hl : l < 2 ^ w) (h : a * 2 ^ w + k = b * 2 ^ w + l) : k = l := by
  have e := congrArg (· % 2 ^ w) h
  simpa [Nat.mul_add_mod_of_lt, Nat.mod_eq_of_lt hk, Nat.mod_eq_of_lt hl, Nat.add_mod] using e

theorem cubeRootBits_unique {w p k l : Nat} (hk : CubeRootBits w p k) (hl : CubeRootBits w p l) : k = l := by
  obtain ⟨k0, a, k1, k2⟩ := hk
  obtain ⟨l0, b, l1, l2⟩ := hl
  exact rest_unique k0 l0 (cube_unique k1 k2 l1 l2)

theorem squareRootBits_unique {w p k l : Nat} (hk : SquareRootBits w p k) (hl : SquareRootBits w p l) : k = l := by
  obtain ⟨k0, a, k1, k2⟩ := hk
  obtain ⟨l0, b, l1, l2⟩ := hl
  exact rest_unique k0 l0 (square_unique k1 k2 l1 l2)

/-- A table holds the constants of a variant. -/
def Table (V : Variant) (ks : List Nat) : Prop :=
  ks.length = V.rounds ∧ ∀ t < V.rounds, CubeRootBits V.w (prime t) (ks.getD t 0)

/-- The constants of a table. -/
def constants (V : Variant) (ks : List Nat) (t : Nat) : BitVec V.w := BitVec.ofNat V.w (ks.getD t 0)

theorem constants_toNat {V : Variant} {ks : List Nat} (h : Table V ks) {t : Nat} (ht : t < V.rounds) :
    (constants V ks t).toNat = ks.getD t 0 := by
  rw [constants, BitVec.toNat_ofNat, Nat.mod_eq_of_lt (h.2 t ht).1]

theorem constants_list {V : Variant} {ks : List Nat} (h : Table V ks) :
    ((List.range' 0 V.rounds).map fun i => (constants V ks i).toNat) = ks := by
  apply List.ext_getElem
  · simp [h.1]
  · intro i h1 h2
    have hi : i < V.rounds := by rw [← h.1]; exact h2
    rw [List.getElem_map, List.getElem_range', Nat.zero_add, Nat.one_mul, constants_toNat h hi, List.getD_eq_getElem _ _ h2]

theorem rounds_congr {V : Variant} {K K' W : Nat → BitVec V.w} {v : Registers V.w} : ∀ (n : Nat), (∀ t < n, K t = K' t) →
    rounds V K W v n = rounds V K' W v n
  | 0, _ => rfl
  | n + 1, h => by rw [rounds, rounds, h n (by omega), rounds_congr n fun t ht => h t (by omega)]

theorem chain_congr {V : Variant} {K K' : Nat → BitVec V.w} {iv : Registers V.w} {padded : Bytes}
    (h : ∀ t < V.rounds, K t = K' t) : ∀ n, chain V K iv padded n = chain V K' iv padded n
  | 0 => rfl
  | n + 1 => by rw [chain, chain, chain_congr h n, rounds_congr _ h]

theorem words_inj {w : Nat} {u v : Registers w} (h : ∀ i < 8, u.words.getD i 0 = v.words.getD i 0) : u = v := by
  have h0 := h 0 (by omega)
  have h1 := h 1 (by omega)
  have h2 := h 2 (by omega)
  have h3 := h 3 (by omega)
  have h4 := h 4 (by omega)
  have h5 := h 5 (by omega)
  have h6 := h 6 (by omega)
  have h7 := h 7 (by omega)
  cases u; cases v
  simp only [Registers.words, List.getD_cons_zero, List.getD_cons_succ] at *
  subst h0 h1 h2 h3 h4 h5 h6 h7
  rfl

theorem rootsIv_unique {w : Nat} {u v : Registers w} (hu : RootsIv u) (hv : RootsIv v) : u = v :=
  words_inj fun i hi => BitVec.eq_of_toNat_eq (squareRootBits_unique (hu i hi) (hv i hi))

/-! ## The digests of SHA-2 -/

theorem pad_eq (P : Sha2) (msg : Bytes) : P.pad msg = msg ++ [0x80] ++
    List.replicate ((2 * (2 * P.w) - (msg.length + 1 + P.w / 4) % (2 * P.w)) % (2 * P.w)) 0 ++
    beBytes (P.w / 4) (8 * msg.length) := rfl

theorem sha2_iff {V : Variant} (hV : Good V) {ks : List Nat} (hk : Table V ks) (iv : Registers V.w) (msg digest : Bytes)
    (hm : 8 * msg.length < 2 ^ (2 * V.w)) :
    Sha2From V iv msg digest ↔ digest = ((exec V ks (nats iv)).blocks
      (Sha2.chunks (2 * V.w) ((exec V ks (nats iv)).pad msg).length ((exec V ks (nats iv)).pad msg)) (nats iv)).flatMap
        (beBytes (V.w / 8)) := by
  have hp := hV.pos
  have hw := hV.w
  have hq := hV.quarter
  have hpads : ∀ padded, Pads big (2 * V.w) (V.w / 4) msg padded ↔ padded = (exec V ks (nats iv)).pad msg := by
    intro padded
    rw [pad_eq]
    refine pads_iff (by omega) msg padded (fun x => beBytes_length _ _) ?_ ?_
    · rw [big_eq, beVal_beBytes]
      rw [show (256 : Nat) = 2 ^ 8 by rfl, ← pow_mul, show 8 * (V.w / 4) = 2 * V.w by omega]
      exact hm
    · intro xs ys hl h
      rw [big_eq, big_eq] at h
      exact read_inj xs ys hl h
  have hwrites : ∀ (words : List (BitVec V.w)) (bs : Bytes),
      Writes big bs words ↔ bs = words.flatMap fun x => beBytes (V.w / 8) x.toNat := by
    refine writes_iff hw (fun x => beBytes_length _ _) (fun bs => by rw [big_eq]; exact beVal_lt bs) (fun x hx => ?_) ?_
    · rw [big_eq, beVal_beBytes]
      rw [show (256 : Nat) = 2 ^ 8 by rfl, ← pow_mul, ← hw]
      exact hx
    · intro xs ys hl h
      rw [big_eq, big_eq] at h
      exact read_inj xs ys hl h
  have hchain : (exec V ks (nats iv)).blocks
      (Sha2.chunks (2 * V.w) ((exec V ks (nats iv)).pad msg).length ((exec V ks (nats iv)).pad msg)) (nats iv) =
      nats (chain V (constants V ks) iv ((exec V ks (nats iv)).pad msg) (((exec V ks (nats iv)).pad msg).length / (2 * V.w))) := by
    obtain ⟨_, _, _, _, _, hmod, _⟩ := (hpads _).2 rfl
    generalize (exec V ks (nats iv)).pad msg = padded at hmod
    have hd := Nat.div_add_mod padded.length (2 * V.w)
    have hb := blocks_eq (nats iv) hV (constants V ks) iv padded (padded.length / (2 * V.w))
      (by rw [Nat.mul_comm]; omega) (padded.length / (2 * V.w)) 0 padded.length (by omega) (Nat.div_le_self _ _)
    rw [constants_list hk, Nat.zero_mul, List.drop_zero] at hb
    exact hb
  rw [hchain]
  have hflat : ∀ r : Registers V.w, (nats r).flatMap (beBytes (V.w / 8)) = r.words.flatMap fun x => beBytes (V.w / 8) x.toNat :=
    fun r => by rw [nats, List.flatMap_map]
  rw [hflat]
  constructor
  · rintro ⟨K, padded, h1, h2, h3⟩
    rw [hpads] at h2
    subst h2
    rw [hwrites] at h3
    rw [h3, chain_congr (K' := constants V ks)]
    intro t ht
    apply BitVec.eq_of_toNat_eq
    rw [constants_toNat hk ht]
    exact cubeRootBits_unique (h1 t ht) (hk.2 t ht)
  · intro h
    refine ⟨constants V ks, _, fun t ht => ?_, (hpads _).2 rfl, (hwrites _ _).2 h⟩
    rw [constants_toNat hk ht]
    exact hk.2 t ht

/-! ## RIPEMD-160 -/

/-- The registers of a line as the executable version keeps them. -/
def lnats (v : Line) : List Nat := v.words.map BitVec.toNat

theorem rotl32_eq {n : Nat} (x : BitVec 32) (h : n < 32) : rotl32 x.toNat n = (x.rotateLeft n).toNat := by
  rw [BitVec.toNat_rotateLeft, Nat.mod_eq_of_lt h]; rfl

theorem not32_eq (x : BitVec 32) : not32 x.toNat = (~~~x).toNat := by rw [BitVec.toNat_not]; rfl

theorem rmdF_eq (j : Nat) (x y z : BitVec 32) : rmdF j x.toNat y.toNat z.toNat = (mix (j / 16) x y z).toNat := by
  unfold rmdF
  generalize j / 16 = q
  match q with
  | 0 | 1 | 2 | 3 | n + 4 =>
    simp only [mix, not32_eq, BitVec.toNat_xor, BitVec.toNat_or, BitVec.toNat_and]

theorem rmdLine_eq (ws ks : List Nat) (flip : Bool) (X K : Nat → BitVec 32) (wd : Nat → Nat) (L : Nat → Line)
    (hws : ∀ i < 16, ws.getD i 0 = (X i).toNat) (hks : ∀ i < 5, ks.getD i 0 = (K i).toNat)
    (hwd : ∀ j < 80, wd j < 16) (hrot : ∀ j < 80, rotation (j / 16) (wd j) < 32)
    (hL : ∀ j < 80, L (j + 1) = step (mix ((if flip then 79 - j else j) / 16)) (X (wd j)) (K (j / 16))
      (rotation (j / 16) (wd j)) (L j)) : ∀ (n j : Nat), j + n ≤ 80 →
    rmdLine ws ks flip j ((List.range' j n).map wd) ((List.range' j n).map fun j => rotation (j / 16) (wd j))
      (L j).a.toNat (L j).b.toNat (L j).c.toNat (L j).d.toNat (L j).e.toNat = lnats (L (j + n))
  | 0, j, _ => by
    rw [Nat.add_zero, List.range'_zero, List.map_nil, List.map_nil]
    rfl
  | n + 1, j, h => by
    have ih := rmdLine_eq ws ks flip X K wd L hws hks hwd hrot hL n (j + 1) (by omega)
    rw [show j + (n + 1) = j + 1 + n by omega, ← ih, List.range'_succ, List.map_cons, List.map_cons, rmdLine]
    simp only [force_id]
    rw [rmdF_eq, hws _ (hwd j (by omega)), hks _ (by omega)]
    have e1 : ((L j).a.toNat + (mix ((if flip then 79 - j else j) / 16) (L j).b (L j).c (L j).d).toNat + (X (wd j)).toNat +
        (K (j / 16)).toNat) % 2 ^ 32 =
        ((L j).a + mix ((if flip then 79 - j else j) / 16) (L j).b (L j).c (L j).d + X (wd j) + K (j / 16)).toNat := by
      simp only [BitVec.toNat_add, Nat.mod_add_mod]
    rw [e1, rotl32_eq _ (hrot j (by omega)), rotl32_eq _ (by omega), ← BitVec.toNat_add, hL j (by omega)]
    rfl

theorem leftWord_table : (List.range' 0 80).map leftWord = rmdR := by decide +kernel
theorem rightWord_table : (List.range' 0 80).map rightWord = rmdR' := by decide +kernel
theorem leftRotation_table : ((List.range' 0 80).map fun j => rotation (j / 16) (leftWord j)) = rmdS := by decide +kernel
theorem rightRotation_table : ((List.range' 0 80).map fun j => rotation (j / 16) (rightWord j)) = rmdS' := by decide +kernel
theorem leftWord_lt : ∀ j < 80, leftWord j < 16 ∧ rotation (j / 16) (leftWord j) < 32 := by decide +kernel
theorem rightWord_lt : ∀ j < 80, rightWord j < 16 ∧ rotation (j / 16) (rightWord j) < 32 := by decide +kernel

theorem prime4 : prime 0 = 2 ∧ prime 1 = 3 ∧ prime 2 = 5 ∧ prime 3 = 7 :=
  ⟨prime_eq 0 (by omega), prime_eq 1 (by omega), prime_eq 2 (by omega), prime_eq 3 (by omega)⟩

theorem leftConstants_iff (K : Nat → BitVec 32) : LeftConstants K ↔ ∀ i < 5, rmdK.getD i 0 = (K i).toNat := by
  obtain ⟨p0, p1, p2, p3⟩ := prime4
  constructor
  · rintro ⟨h0, h⟩ i hi
    have a := h 0 (by omega)
    have b := h 1 (by omega)
    have c := h 2 (by omega)
    have d := h 3 (by omega)
    rw [p0] at a; rw [p1] at b; rw [p2] at c; rw [p3] at d
    match i, hi with
    | 0, _ => rw [h0]; rfl
    | 1, _ => exact square_unique (by decide +kernel) (by decide +kernel) a.1 a.2
    | 2, _ => exact square_unique (by decide +kernel) (by decide +kernel) b.1 b.2
    | 3, _ => exact square_unique (by decide +kernel) (by decide +kernel) c.1 c.2
    | 4, _ => exact square_unique (by decide +kernel) (by decide +kernel) d.1 d.2
  · intro h
    refine ⟨BitVec.eq_of_toNat_eq (h 0 (by omega)).symm, fun n hn => ?_⟩
    rw [← h (n + 1) (by omega)]
    match n, hn with
    | 0, _ => rw [p0]; decide +kernel
    | 1, _ => rw [p1]; decide +kernel
    | 2, _ => rw [p2]; decide +kernel
    | 3, _ => rw [p3]; decide +kernel

theorem rightConstants_iff (K : Nat → BitVec 32) : RightConstants K ↔ ∀ i < 5, rmdK'.getD i 0 = (K i).toNat := by
  obtain ⟨p0, p1, p2, p3⟩ := prime4
  constructor
  · rintro ⟨h0, h⟩ i hi
    have a := h 0 (by omega)
    have b := h 1 (by omega)
    have c := h 2 (by omega)
    have d := h 3 (by omega)
    rw [p0] at a; rw [p1] at b; rw [p2] at c; rw [p3] at d
    match i, hi with
    | 0, _ => exact cube_unique (by decide +kernel) (by decide +kernel) a.1 a.2
    | 1, _ => exact cube_unique (by decide +kernel) (by decide +kernel) b.1 b.2
    | 2, _ => exact cube_unique (by decide +kernel) (by decide +kernel) c.1 c.2
    | 3, _ => exact cube_unique (by decide +kernel) (by decide +kernel) d.1 d.2
    | 4, _ => rw [h0]; rfl
  · intro h
    refine ⟨BitVec.eq_of_toNat_eq (h 4 (by omega)).symm, fun n hn => ?_⟩
    rw [← h n (by omega)]
    match n, hn with
    | 0, _ => rw [p0]; decide +kernel
    | 1, _ => rw [p1]; decide +kernel
    | 2, _ => rw [p2]; decide +kernel
    | 3, _ => rw [p3]; decide +kernel

/-- The words of a block, least significant byte first. -/
theorem rmd_words (padded : Bytes) (n : Nat) (h : (n + 1) * 64 ≤ padded.length) (i : Nat) (hi : i < 16) :
    (Sha2.forceAll ((Sha2.chunks 4 16 ((padded.drop (n * 64)).take 64)).map fun b => beVal b.reverse)).getD i 0 =
      (word little 32 padded (16 * n + i)).toNat := by
  rw [Nat.add_mul, Nat.one_mul] at h
  rw [forceAll_id, chunks_eq 4 (by omega) 16 _ 16 (by rw [List.length_take, List.length_drop]; omega) (le_refl _), List.map_map]
  rw [List.getD_eq_getElem _ _ (by simpa using hi), List.getElem_map, List.getElem_range]
  simp only [Function.comp, word]
  have e : ((((padded.drop (n * 64)).take 64).drop (i * 4)).take 4) = (padded.drop ((16 * n + i) * (32 / 8))).take (32 / 8) := by
    rw [List.drop_take, List.take_take, List.drop_drop]
    congr 1
    · omega
    · congr 1; omega
  rw [e, little_eq, BitVec.toNat_ofNat, Nat.mod_eq_of_lt]
  refine lt_of_lt_of_le (beVal_lt _) ?_
  show _ ≤ 256 ^ 4
  refine Nat.pow_le_pow_right (by omega) ?_
  rw [List.length_reverse, List.length_take]
  omega

theorem rmdBlock_eq {K K' : Nat → BitVec 32} (hK : LeftConstants K) (hK' : RightConstants K') (padded : Bytes) (n : Nat)
    (h : (n + 1) * 64 ≤ padded.length) :
    rmdBlock (lnats (lines K K' padded n)) ((padded.drop (n * 64)).take 64) = lnats (lines K K' padded (n + 1)) := by
  rw [lines]
  generalize lines K K' padded n = H
  have hws := rmd_words padded n h
  unfold rmdBlock
  simp only []
  generalize Sha2.forceAll ((Sha2.chunks 4 16 ((padded.drop (n * 64)).take 64)).map fun b => beVal b.reverse) = ws at hws
  generalize hX : (fun i => word little 32 padded (16 * n + i)) = X
  have hwsX : ∀ i < 16, ws.getD i 0 = (X i).toNat := fun i hi => by rw [hws i hi, ← hX]
  have hl := rmdLine_eq ws rmdK false X K leftWord (left K X H) hwsX ((leftConstants_iff K).1 hK)
    (fun j hj => (leftWord_lt j hj).1) (fun j hj => (leftWord_lt j hj).2) (fun j _ => rfl) 80 0 (by omega)
  have hr := rmdLine_eq ws rmdK' true X K' rightWord (right K' X H) hwsX ((rightConstants_iff K').1 hK')
    (fun j hj => (rightWord_lt j hj).1) (fun j hj => (rightWord_lt j hj).2)
    (fun j hj => by rw [if_pos rfl, show (79 - j) / 16 = 4 - j / 16 by omega]; rfl) 80 0 (by omega)
  rw [leftWord_table, leftRotation_table, Nat.zero_add] at hl
  rw [rightWord_table, rightRotation_table, Nat.zero_add] at hr
  rw [show left K X H 0 = H from rfl] at hl
  rw [show right K' X H 0 = H from rfl] at hr
  generalize left K X H 80 = l at hl ⊢
  generalize right K' X H 80 = r at hr ⊢
  simp only [lnats, Line.words, List.map_cons, List.map_nil] at hl hr ⊢
  rw [hl, hr]
  simp only [forceAll_id, BitVec.toNat_add, Nat.mod_add_mod]

theorem rmdBlocks_eq {K K' : Nat → BitVec 32} (hK : LeftConstants K) (hK' : RightConstants K') (padded : Bytes) (N : Nat)
    (h : padded.length = N * 64) : ∀ (m n fuel : Nat), n + m = N → m ≤ fuel →
    rmdBlocks (Sha2.chunks 64 fuel (padded.drop (n * 64))) (lnats (lines K K' padded n)) = lnats (lines K K' padded N)
  | 0, n, fuel, hn, _ => by
    rw [Nat.add_zero] at hn
    subst hn
    rw [← h, List.drop_length]
    cases fuel <;> rfl
  | m + 1, n, 0, _, hf => by omega
  | m + 1, n, fuel + 1, hn, hf => by
    have hle : (n + 1) * 64 ≤ padded.length := by rw [h]; exact Nat.mul_le_mul_right _ (by omega)
    have he : (padded.drop (n * 64)).isEmpty = false := by
      rw [List.isEmpty_eq_false_iff, ← List.length_pos_iff, List.length_drop]
      omega
    rw [Sha2.chunks, he]
    simp only [Bool.false_eq_true, if_false]
    rw [rmdBlocks, rmdBlock_eq hK hK' padded n hle, List.drop_drop]
    have := rmdBlocks_eq hK hK' padded N h m (n + 1) fuel (by omega) (by omega)
    rw [← this, Nat.add_mul, Nat.one_mul]

theorem rmd_iff (msg digest : Bytes) (hm : 8 * msg.length < 2 ^ 64) :
    IsRipemd160 msg digest ↔ digest = (ripemd160 msg).1 := by
  have hpads : ∀ padded, Pads little 64 8 msg padded ↔ padded = rmdPad msg := by
    intro padded
    have := pads_iff (read := little) (write := fun n x => (beBytes n x).reverse) (block := 64) (field := 8) (by omega) msg padded
      (fun x => by simp) (by rw [little_eq, List.reverse_reverse, beVal_beBytes hm]) little_inj
    exact this
  have hwrites : ∀ (words : List (BitVec 32)) (bs : Bytes),
      Writes little bs words ↔ bs = words.flatMap fun x => (beBytes 4 x.toNat).reverse :=
    writes_iff (write := fun n x => (beBytes n x).reverse) rfl (fun x => by simp)
      (fun bs => by rw [little_eq, ← List.length_reverse]; exact beVal_lt _)
      (fun x hx => by rw [little_eq, List.reverse_reverse, beVal_beBytes]; exact hx) little_inj
  have hrun : ∀ K K', LeftConstants K → RightConstants K' →
      (ripemd160 msg).1 = (lines K K' (rmdPad msg) ((rmdPad msg).length / 64)).words.flatMap
        fun x => (beBytes 4 x.toNat).reverse := by
    intro K K' hK hK'
    obtain ⟨_, _, _, _, _, hmod, _⟩ := (hpads _).2 rfl
    unfold ripemd160
    simp only []
    generalize rmdPad msg = padded at hmod
    have hb := rmdBlocks_eq hK hK' padded (padded.length / 64) (by omega) (padded.length / 64) 0 padded.length (by omega)
      (Nat.div_le_self _ _)
    rw [Nat.zero_mul, List.drop_zero] at hb
    rw [show [0x67452301, 0xefcdab89, 0x98badcfe, 0x10325476, 0xc3d2e1f0] = lnats (lines K K' padded 0) from rfl, hb, lnats,
      List.flatMap_map, fit_val]
    simp [Line.words]
  constructor
  · rintro ⟨K, K', padded, h1, h2, h3, h4⟩
    rw [hpads] at h3
    subst h3
    rw [hwrites] at h4
    rw [h4, hrun K K' h1 h2]
  · intro h
    have h1 : LeftConstants fun i => BitVec.ofNat 32 (rmdK.getD i 0) :=
      (leftConstants_iff _).2 (by decide +kernel)
    have h2 : RightConstants fun i => BitVec.ofNat 32 (rmdK'.getD i 0) :=
      (rightConstants_iff _).2 (by decide +kernel)
    exact ⟨_, _, _, h1, h2, (hpads _).2 rfl, (hwrites _ _).2 (by rw [h, hrun _ _ h1 h2])⟩

end Stacks.Concrete

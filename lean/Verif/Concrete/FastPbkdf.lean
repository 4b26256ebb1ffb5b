import Verif.Concrete.FastPbkdfDef
import Verif.Concrete.Bip32
import Verif.Props.Bip32

/-! # PBKDF2 for the kernel: it computes the same -/

namespace Stacks.Concrete.FastPbkdf
open Stacks.Concrete

theorem ks_eq : ks = Bip32.sha512P.rounds := by decide +kernel

/-! ## The words of a number -/

/-- The number with these words, the first one lowest. -/
def pack : List Nat → Nat
  | [] => 0
  | x :: xs => x + 2 ^ 64 * pack xs

/-- All are words. -/
def Words (l : List Nat) : Prop := ∀ x ∈ l, x < 2 ^ 64

theorem Words.cons {x : Nat} {l : List Nat} : Words (x :: l) ↔ x < 2 ^ 64 ∧ Words l := by
  simp [Words]

theorem pack_shift : ∀ (i : Nat) (l : List Nat), Words l → pack l >>> (64 * i) = pack (l.drop i)
  | 0, l, _ => by simp
  | i + 1, [], _ => by simp [pack]
  | i + 1, x :: l, h => by
    rw [Words.cons] at h
    rw [List.drop_succ_cons, ← pack_shift i l h.2, Nat.mul_add, Nat.mul_one, Nat.add_comm, Nat.shiftRight_add, pack,
      Nat.shiftRight_eq_div_pow _ 64, Nat.add_mul_div_left _ _ (by decide), Nat.div_eq_of_lt h.1, Nat.zero_add]

theorem pack_mod (l : List Nat) (h : Words l) : pack l % 2 ^ 64 = l.getD 0 0 := by
  cases l with
  | nil => rfl
  | cons x l =>
    rw [Words.cons] at h
    rw [pack, Nat.add_mul_mod_self_left, Nat.mod_eq_of_lt h.1]
    rfl

theorem pack_get (i : Nat) (l : List Nat) (h : Words l) : pack l >>> (64 * i) % 2 ^ 64 = l.getD i 0 := by
  rw [pack_shift i l h, pack_mod _ fun x hx => h x (List.mem_of_mem_drop hx)]
  simp [List.getD_eq_getElem?_getD]

theorem pack_append (l m : List Nat) : pack (l ++ m) = pack l + 2 ^ (64 * l.length) * pack m := by
  induction l with
  | nil => simp [pack]
  | cons x l ih =>
    rw [List.cons_append, pack, pack, ih, List.length_cons, show 64 * (l.length + 1) = 64 * l.length + 64 by omega, Nat.pow_add]
    ring

theorem pack_lt (l : List Nat) (h : Words l) : pack l < 2 ^ (64 * l.length) := by
  induction l with
  | nil => simp [pack]
  | cons x l ih =>
    rw [Words.cons] at h
    have := ih h.2
    rw [pack, List.length_cons, Nat.mul_add, Nat.mul_one, Nat.pow_add]
    have h1 := h.1
    generalize 2 ^ (64 * l.length) = q at *
    have : 2 ^ 64 * pack l + 2 ^ 64 ≤ 2 ^ 64 * q := by
      rw [← Nat.mul_succ]; exact Nat.mul_le_mul_left _ this
    rw [Nat.mul_comm q]
    omega

/-! ## The functions of a round -/

theorem rot (x n : Nat) (hx : x < 2 ^ 64) (hn : n ≤ 64) :
    (x * 18446744073709551617) >>> n % 2 ^ 64 = Bip32.sha512P.rotr x n := by
  apply Nat.eq_of_testBit_eq
  intro i
  show _ = ((x >>> n) ||| ((x <<< (64 - n)) % 2 ^ 64)).testBit i
  have e : x * 18446744073709551617 = 2 ^ 64 * x + x := by omega
  rw [e, Nat.testBit_mod_two_pow, Nat.testBit_shiftRight, Nat.testBit_two_pow_mul_add _ hx, Nat.testBit_or,
    Nat.testBit_shiftRight, Nat.testBit_mod_two_pow, Nat.testBit_shiftLeft]
  have hb : ∀ j, 64 ≤ j → x.testBit j = false := fun j hj =>
    Nat.testBit_lt_two_pow (lt_of_lt_of_le hx (Nat.pow_le_pow_right (by decide) hj))
  by_cases h1 : i < 64
  · by_cases h2 : n + i < 64
    · simp [h1, h2, show ¬ 64 - n ≤ i by omega]
    · simp [h1, h2, hb (n + i) (by omega), show 64 - n ≤ i by omega, show n + i - 64 = i - (64 - n) by omega]
  · simp [h1, hb (n + i) (by omega)]

theorem rot3_eq (x a b c : Nat) (hx : x < 2 ^ 64) (ha : a ≤ 64) (hb : b ≤ 64) (hc : c ≤ 64) :
    ((x * 18446744073709551617) >>> a ^^^ (x * 18446744073709551617) >>> b ^^^ (x * 18446744073709551617) >>> c) % 2 ^ 64 =
      Bip32.sha512P.big (a, b, c) x := by
  rw [Nat.xor_mod_two_pow, Nat.xor_mod_two_pow, rot x a hx ha, rot x b hx hb, rot x c hx hc]
  rfl

theorem rot2_eq (x a b c : Nat) (hx : x < 2 ^ 64) (ha : a ≤ 64) (hb : b ≤ 64) :
    ((x * 18446744073709551617) >>> a ^^^ (x * 18446744073709551617) >>> b ^^^ x >>> c) % 2 ^ 64 =
      Bip32.sha512P.small (a, b, c) x := by
  rw [Nat.xor_mod_two_pow, Nat.xor_mod_two_pow, rot x a hx ha, rot x b hx hb,
    Nat.mod_eq_of_lt (a := x >>> c) (lt_of_le_of_lt (Nat.shiftRight_le ..) hx)]
  rfl

theorem ch_eq (e f g : Nat) (he : e < 2 ^ 64) (hg : g < 2 ^ 64) :
    g ^^^ (e &&& (f ^^^ g)) = (e &&& f) ^^^ ((2 ^ 64 - 1 - e) &&& g) := by
  apply Nat.eq_of_testBit_eq
  intro i
  have h : 2 ^ 64 - 1 - e = 2 ^ 64 - (e + 1) := by omega
  rw [h]
  simp only [Nat.testBit_xor, Nat.testBit_and, Nat.testBit_two_pow_sub_succ he]
  by_cases hi : i < 64
  · simp only [hi, decide_true, Bool.true_and]
    cases e.testBit i <;> cases f.testBit i <;> cases g.testBit i <;> rfl
  · have hb : g.testBit i = false :=
      Nat.testBit_lt_two_pow (lt_of_lt_of_le hg (Nat.pow_le_pow_right (by decide) (by omega)))
    rw [hb]
    cases e.testBit i <;> cases f.testBit i <;> simp

theorem maj_eq (a b c : Nat) : (a &&& b) ^^^ (c &&& (a ^^^ b)) = (a &&& b) ^^^ (a &&& c) ^^^ (b &&& c) := by
  apply Nat.eq_of_testBit_eq
  intro i
  simp only [Nat.testBit_xor, Nat.testBit_and]
  cases a.testBit i <;> cases b.testBit i <;> cases c.testBit i <;> rfl

/-! ## The rounds -/

/-- One round, in the usual operations. -/
theorem rounds_cons (fin : Nat → Nat → Nat → Nat → Nat → Nat → Nat → Nat → Nat) (k : Nat) (ks : List Nat)
    (W a b c d e f g h t V x y w : Nat)
    (ht : h + ((e * 18446744073709551617) >>> 14 ^^^ (e * 18446744073709551617) >>> 18 ^^^
      (e * 18446744073709551617) >>> 41) + (g ^^^ (e &&& (f ^^^ g))) + k + W = t)
    (hV : W >>> 64 = V) (hx : V % 18446744073709551616 = x) (hy : V >>> 832 % 18446744073709551616 = y)
    (hw : (W + V >>> 512 + ((x * 18446744073709551617) >>> 1 ^^^ (x * 18446744073709551617) >>> 8 ^^^ x >>> 7) +
      ((y * 18446744073709551617) >>> 19 ^^^ (y * 18446744073709551617) >>> 61 ^^^ y >>> 6)) %
      18446744073709551616 = w) :
    rounds fin (k :: ks) W a b c d e f g h = rounds fin ks (V + w <<< 960)
      ((t + ((a * 18446744073709551617) >>> 28 ^^^ (a * 18446744073709551617) >>> 34 ^^^
          (a * 18446744073709551617) >>> 39) + ((a &&& b) ^^^ (c &&& (a ^^^ b)))) % 18446744073709551616) a b c
      ((d + t) % 18446744073709551616) e f g := by
  rw [← hw, ← hy, ← hx, ← hV, ← ht]
  unfold rounds
  simp only [frc_eq]
  rfl

/-- The result of the rounds, as words. -/
theorem rounds_eq (fin : Nat → Nat → Nat → Nat → Nat → Nat → Nat → Nat → Nat) : ∀ (ks ws : List Nat)
    (a b c d e f g h : Nat), ws.length = 16 → Words ws → Words [a, b, c, d, e, f, g, h] →
    ∃ a' b' c' d' e' f' g' h', Words [a', b', c', d', e', f', g', h'] ∧
      Bip32.sha512P.compress ks ws a b c d e f g h = [a', b', c', d', e', f', g', h'] ∧
      rounds fin ks (pack ws) a b c d e f g h = fin a' b' c' d' e' f' g' h'
  | [], ws, a, b, c, d, e, f, g, h, _, _, hs => ⟨a, b, c, d, e, f, g, h, hs, rfl, rfl⟩
  | k :: ks, [], a, b, c, d, e, f, g, h, hl, _, _ => by simp at hl
  | k :: ks, w :: ws, a, b, c, d, e, f, g, h, hl, hw, hs => by
    have hl' : ws.length = 15 := by simpa using hl
    have hw' := (Words.cons.1 hw).2
    have hw0 := (Words.cons.1 hw).1
    have hs' : a < 2 ^ 64 ∧ b < 2 ^ 64 ∧ c < 2 ^ 64 ∧ d < 2 ^ 64 ∧ e < 2 ^ 64 ∧ f < 2 ^ 64 ∧ g < 2 ^ 64 ∧ h < 2 ^ 64 := by
      simpa [Words] using hs
    obtain ⟨ha, hb, hc, hd, he, hf, hg, hh⟩ := hs'
    have hget : ∀ i, ws.getD i 0 < 2 ^ 64 := by
      intro i
      rw [List.getD_eq_getElem?_getD]
      cases hi : ws[i]? with
      | none => decide
      | some x => exact hw' x (List.mem_of_getElem? hi)
    -- the words
    have hV : pack (w :: ws) >>> 64 = pack ws := pack_shift 1 (w :: ws) hw
    have hx : pack ws % 2 ^ 64 = ws.getD 0 0 := pack_mod ws hw'
    have hy : pack ws >>> 832 % 2 ^ 64 = ws.getD 13 0 := pack_get 13 ws hw'
    have h8 : pack ws >>> 512 % 2 ^ 64 = ws.getD 8 0 := pack_get 8 ws hw'
    have hW : pack (w :: ws) % 2 ^ 64 = w := pack_mod _ hw
    have happ : ∀ v, pack (ws ++ [v]) = pack ws + v <<< 960 := by
      intro v
      rw [pack_append, hl', Nat.shiftLeft_eq]
      simp only [pack, Nat.mul_zero, Nat.add_zero]
      rw [Nat.mul_comm]
    -- what is hashed on
    generalize hw16 : (w + Bip32.sha512P.small (1, 8, 7) (ws.getD 0 0) + ws.getD 8 0 +
      Bip32.sha512P.small (19, 61, 6) (ws.getD 13 0)) % 2 ^ 64 = w16
    generalize ht1 : h + Bip32.sha512P.big (14, 18, 41) e + ((e &&& f) ^^^ ((2 ^ 64 - 1 - e) &&& g)) + k + w = t1
    generalize ha' : (t1 + Bip32.sha512P.big (28, 34, 39) a + ((a &&& b) ^^^ (a &&& c) ^^^ (b &&& c))) % 2 ^ 64 = a'
    generalize he' : (d + t1) % 2 ^ 64 = e'
    have hc : Bip32.sha512P.compress (k :: ks) (w :: ws) a b c d e f g h =
        Bip32.sha512P.compress ks (ws ++ [w16]) a' a b c e' e f g := by
      rw [Sha2.compress]
      simp only [Ecdsa.force_eq]
      rw [← hw16, ← ha', ← he', ← ht1]
      rfl
    have hlt : ∀ x : Nat, x % 2 ^ 64 < 2 ^ 64 := fun x => Nat.mod_lt _ (by decide)
    have key : rounds fin (k :: ks) (pack (w :: ws)) a b c d e f g h =
        rounds fin ks (pack (ws ++ [w16])) a' a b c e' e f g := by
      generalize ht : h + ((e * 18446744073709551617) >>> 14 ^^^ (e * 18446744073709551617) >>> 18 ^^^
        (e * 18446744073709551617) >>> 41) + (g ^^^ (e &&& (f ^^^ g))) + k + pack (w :: ws) = t
      have htt : t % 2 ^ 64 = t1 % 2 ^ 64 := by
        rw [← ht, ← ht1, ch_eq e f g he hg, ← rot3_eq e 14 18 41 he (by decide) (by decide) (by decide)]
        omega
      have e1 : (t + ((a * 18446744073709551617) >>> 28 ^^^ (a * 18446744073709551617) >>> 34 ^^^
          (a * 18446744073709551617) >>> 39) + ((a &&& b) ^^^ (c &&& (a ^^^ b)))) % 2 ^ 64 = a' := by
        rw [← ha', maj_eq, ← rot3_eq a 28 34 39 ha (by decide) (by decide) (by decide)]
        omega
      have e2 : (d + t) % 2 ^ 64 = e' := by rw [← he']; omega
      have e3 : (pack (w :: ws) + pack ws >>> 512 +
          ((ws.getD 0 0 * 18446744073709551617) >>> 1 ^^^ (ws.getD 0 0 * 18446744073709551617) >>> 8 ^^^
            ws.getD 0 0 >>> 7) +
          ((ws.getD 13 0 * 18446744073709551617) >>> 19 ^^^ (ws.getD 13 0 * 18446744073709551617) >>> 61 ^^^
            ws.getD 13 0 >>> 6)) % 2 ^ 64 = w16 := by
        rw [← hw16, ← rot2_eq _ 1 8 7 (hget 0) (by decide) (by decide),
          ← rot2_eq _ 19 61 6 (hget 13) (by decide) (by decide)]
        omega
      rw [happ, rounds_cons fin k ks (pack (w :: ws)) a b c d e f g h t (pack ws) _ _ w16 ht hV hx hy e3]
      exact congrArg₂ (fun x y => rounds fin ks (pack ws + w16 <<< 960) x a b c y e f g) e1 e2
    rw [hc, key]
    refine rounds_eq fin ks (ws ++ [w16]) a' a b c e' e f g (by simp [hl']) ?_ ?_
    · intro x hx
      rcases List.mem_append.1 hx with hx | hx
      · exact hw' x hx
      · rw [List.mem_singleton.1 hx, ← hw16]; exact hlt _
    · have h1 : a' < 2 ^ 64 := by rw [← ha']; exact hlt _
      have h2 : e' < 2 ^ 64 := by rw [← he']; exact hlt _
      simp only [Words.cons]
      exact ⟨h1, ha, hb, by assumption, h2, he, hf, hg, by simp [Words]⟩

/-! ## A block -/

set_option exponentiation.threshold 512 in
theorem pack8 (a b c d e f g h : Nat) :
    a + (b <<< 64 + (c <<< 128 + (d <<< 192 + (e <<< 256 + (f <<< 320 + (g <<< 384 + h <<< 448)))))) =
      pack [a, b, c, d, e, f, g, h] := by
  have h2 : (2 : Nat) ^ 128 = (2 ^ 64) ^ 2 := (Nat.pow_mul 2 64 2)
  have h3 : (2 : Nat) ^ 192 = (2 ^ 64) ^ 3 := (Nat.pow_mul 2 64 3)
  have h4 : (2 : Nat) ^ 256 = (2 ^ 64) ^ 4 := (Nat.pow_mul 2 64 4)
  have h5 : (2 : Nat) ^ 320 = (2 ^ 64) ^ 5 := (Nat.pow_mul 2 64 5)
  have h6 : (2 : Nat) ^ 384 = (2 ^ 64) ^ 6 := (Nat.pow_mul 2 64 6)
  have h7 : (2 : Nat) ^ 448 = (2 ^ 64) ^ 7 := (Nat.pow_mul 2 64 7)
  simp only [pack, Nat.shiftLeft_eq]
  rw [h2, h3, h4, h5, h6, h7]
  generalize (2 : Nat) ^ 64 = q
  ring

/-- The bytes of words. -/
def bytes (ws : List Nat) : Bytes := ws.flatMap (beBytes 8)

/-- The words of a digest. -/
def Digest (ws : List Nat) : Prop := ws.length = 8 ∧ Words ws

/-- The words of the padding of a message of 192 bytes. -/
def padWords : List Nat := [2 ^ 63, 0, 0, 0, 0, 0, 0, 1536]

theorem bytes_length (ws : List Nat) : (bytes ws).length = 8 * ws.length := by
  unfold bytes
  induction ws with
  | nil => rfl
  | cons x xs ih => rw [List.flatMap_cons, List.length_append, ih, beBytes_length, List.length_cons]; omega

theorem chunks_bytes : ∀ (ws : List Nat) (n : Nat), ws.length ≤ n → Words ws →
    (Sha2.chunks 8 n (bytes ws)).map beVal = ws
  | [], n, _, _ => by cases n <;> rfl
  | x :: xs, 0, h, _ => by simp at h
  | x :: xs, n + 1, h, hw => by
    rw [Words.cons] at hw
    have e : bytes (x :: xs) = beBytes 8 x ++ bytes xs := rfl
    have hl : (beBytes 8 x).length = 8 := beBytes_length ..
    have hne : (bytes (x :: xs)).isEmpty = false := by
      rw [e]
      cases hb : beBytes 8 x with
      | nil => rw [hb] at hl; simp at hl
      | cons => rfl
    rw [Sha2.chunks, hne, e, if_neg (by decide), List.map_cons, List.take_left' hl, List.drop_left' hl,
      beVal_beBytes (by have := hw.1; omega), chunks_bytes xs n (by simpa using h) hw.2]

theorem comp_eq (H us : List Nat) (hu : Digest us) (h0 h1 h2 h3 h4 h5 h6 h7 : Nat)
    (hH : H = [h0, h1, h2, h3, h4, h5, h6, h7]) (hw : Words H) :
    Digest (Bip32.sha512P.block H (bytes us ++ bytes padWords)) ∧
    comp h0 h1 h2 h3 h4 h5 h6 h7 (pack us) = pack (Bip32.sha512P.block H (bytes us ++ bytes padWords)) := by
  subst hH
  have hwords : Words (us ++ padWords) := by
    intro x hx
    rcases List.mem_append.1 hx with hx | hx
    · exact hu.2 x hx
    · have : Words padWords := by unfold padWords Words; decide
      exact this x hx
  have hlen : (us ++ padWords).length = 16 := by rw [List.length_append, hu.1]; rfl
  have hb : bytes us ++ bytes padWords = bytes (us ++ padWords) := by simp [bytes]
  have hpack : pack us + 0x600000000000000000000000000000000000000000000000000000000000000000000000000000000000000000000000000800000000000000000000000000000000000000000000000000000000000000000000000000000000000000000000000000000000000000000000000000000000000000000000000 = pack (us ++ padWords) := by
    rw [pack_append, hu.1]
    have : 2 ^ (64 * 8) * pack padWords = 0x600000000000000000000000000000000000000000000000000000000000000000000000000000000000000000000000000800000000000000000000000000000000000000000000000000000000000000000000000000000000000000000000000000000000000000000000000000000000000000000000000 := by decide +kernel
    rw [this]
  obtain ⟨a, b, c, d, e, f, g, h, hs, hc, hr⟩ := rounds_eq (fun a b c d e f g h =>
    (h0 + a) % 18446744073709551616 + (((h1 + b) % 18446744073709551616) <<< 64 +
    (((h2 + c) % 18446744073709551616) <<< 128 + (((h3 + d) % 18446744073709551616) <<< 192 +
    (((h4 + e) % 18446744073709551616) <<< 256 + (((h5 + f) % 18446744073709551616) <<< 320 +
    (((h6 + g) % 18446744073709551616) <<< 384 + ((h7 + h) % 18446744073709551616) <<< 448)))))))
    ks (us ++ padWords) h0 h1 h2 h3 h4 h5 h6 h7 hlen hwords hw
  have hblock : Bip32.sha512P.block [h0, h1, h2, h3, h4, h5, h6, h7] (bytes us ++ bytes padWords) =
      [(h0 + a) % 2 ^ 64, (h1 + b) % 2 ^ 64, (h2 + c) % 2 ^ 64, (h3 + d) % 2 ^ 64,
        (h4 + e) % 2 ^ 64, (h5 + f) % 2 ^ 64, (h6 + g) % 2 ^ 64, (h7 + h) % 2 ^ 64] := by
    rw [Sha2.block, hb]
    show Sha2.forceAll (List.zipWith _ _ (Bip32.sha512P.compress Bip32.sha512P.rounds
      (Sha2.forceAll ((Sha2.chunks 8 16 (bytes (us ++ padWords))).map beVal)) _ _ _ _ _ _ _ _)) = _
    rw [forceAll_id, forceAll_id, chunks_bytes _ _ (by omega) hwords, ← ks_eq, hc]
    rfl
  have hlt : ∀ x : Nat, x % 2 ^ 64 < 2 ^ 64 := fun x => Nat.mod_lt _ (by decide)
  rw [hblock]
  refine ⟨⟨rfl, by simp only [Words.cons]; exact ⟨hlt _, hlt _, hlt _, hlt _, hlt _, hlt _, hlt _, hlt _, by simp [Words]⟩⟩, ?_⟩
  have hcomp : comp h0 h1 h2 h3 h4 h5 h6 h7 (pack us) =
    rounds (fun a b c d e f g h =>
    (h0 + a) % 18446744073709551616 + (((h1 + b) % 18446744073709551616) <<< 64 +
    (((h2 + c) % 18446744073709551616) <<< 128 + (((h3 + d) % 18446744073709551616) <<< 192 +
    (((h4 + e) % 18446744073709551616) <<< 256 + (((h5 + f) % 18446744073709551616) <<< 320 +
    (((h6 + g) % 18446744073709551616) <<< 384 + ((h7 + h) % 18446744073709551616) <<< 448))))))) ks
    (pack us + 0x600000000000000000000000000000000000000000000000000000000000000000000000000000000000000000000000000800000000000000000000000000000000000000000000000000000000000000000000000000000000000000000000000000000000000000000000000000000000000000000000000) h0 h1 h2 h3 h4 h5 h6 h7 := rfl
  rw [hcomp, hpack, hr]
  exact pack8 ..

/-! ## HMAC and the iterations -/

/-- The digest of a block and a digest. -/
theorem sha512_two (blk : Bytes) (us : List Nat) (hb : blk.length = 128) (hu : us.length = 8) :
    Bip32.sha512 (blk ++ bytes us) =
      bytes (Bip32.sha512P.block (Bip32.sha512P.block Bip32.sha512P.iv blk) (bytes us ++ bytes padWords)) := by
  have hl : (bytes us).length = 64 := by rw [bytes_length, hu]
  have hlen : (blk ++ bytes us).length = 192 := by rw [List.length_append, hb, hl]
  have hpadB : [0x80] ++ List.replicate 47 0 ++ beBytes 16 1536 = bytes padWords := by decide +kernel
  have hpl : (bytes padWords).length = 64 := by rw [bytes_length]; rfl
  have hpad : Bip32.sha512P.pad (blk ++ bytes us) = blk ++ (bytes us ++ bytes padWords) := by
    unfold Sha2.pad
    simp only [hlen]
    rw [← hpadB]
    show blk ++ bytes us ++ [0x80] ++ List.replicate 47 0 ++ beBytes 16 1536 = _
    simp only [List.append_assoc]
  have hrest : (bytes us ++ bytes padWords).length = 128 := by rw [List.length_append, hl, hpl]
  unfold Bip32.sha512
  simp only [hpad]
  have hch : Sha2.chunks 128 (blk ++ (bytes us ++ bytes padWords)).length (blk ++ (bytes us ++ bytes padWords)) =
      [blk, bytes us ++ bytes padWords] := by
    generalize bytes us ++ bytes padWords = rest at hrest
    rw [List.length_append, hb, hrest]
    have e1 : (blk ++ rest).isEmpty = false := by
      cases h : blk with
      | nil => rw [h] at hb; simp at hb
      | cons => rfl
    have e2 : rest.isEmpty = false := by
      cases h : rest with
      | nil => rw [h] at hrest; simp at hrest
      | cons => rfl
    show Sha2.chunks 128 (255 + 1) _ = _
    rw [Sha2.chunks, e1, if_neg (by decide), List.take_left' hb, List.drop_left' hb]
    show _ :: Sha2.chunks 128 (254 + 1) _ = _
    rw [Sha2.chunks, e2, if_neg (by decide), List.take_of_length_le (by omega), List.drop_eq_nil_of_le (by omega)]
    rfl
  rw [hch]
  rfl

/-- The block of a key with a constant added to its bytes. -/
def keyBlock (key : Bytes) (c : UInt8) : Bytes :=
  let key := if 128 < key.length then Bip32.sha512 key else key
  (key ++ List.replicate (128 - key.length) 0).map (· ^^^ c)

theorem keyBlock_length (key : Bytes) (c : UInt8) : (keyBlock key c).length = 128 := by
  unfold keyBlock
  simp only [List.length_map, List.length_append, List.length_replicate]
  split
  · rw [sha512_length]
  · omega

/-- The state of the hash function after the block of the key. -/
def start (key : Bytes) (c : UInt8) : List Nat := Bip32.sha512P.block Bip32.sha512P.iv (keyBlock key c)

theorem hmac_eq (key : Bytes) (us : List Nat) (hu : us.length = 8)
    (hv : (Bip32.sha512P.block (start key 0x36) (bytes us ++ bytes padWords)).length = 8) :
    Bip32.hmac512 key (bytes us) = bytes (Bip32.sha512P.block (start key 0x5c)
      (bytes (Bip32.sha512P.block (start key 0x36) (bytes us ++ bytes padWords)) ++ bytes padWords)) := by
  show Bip32.sha512 (keyBlock key 0x5c ++ Bip32.sha512 (keyBlock key 0x36 ++ bytes us)) = _
  rw [sha512_two _ us (keyBlock_length ..) hu]
  exact sha512_two _ _ (keyBlock_length ..) hv

theorem xor_beBytes : ∀ (n x y : Nat), x < 256 ^ n → y < 256 ^ n →
    beBytes n (x ^^^ y) = List.zipWith (· ^^^ ·) (beBytes n x) (beBytes n y)
  | 0, _, _, _, _ => rfl
  | n + 1, x, y, hx, hy => by
    have e : (256 : Nat) ^ n = 2 ^ (8 * n) := by rw [Nat.pow_mul]
    have hm : 0 < 256 ^ n := Nat.pow_pos (by decide)
    rw [beBytes, beBytes, beBytes, List.zipWith_cons_cons,
      ← xor_beBytes n _ _ (Nat.mod_lt x hm) (Nat.mod_lt y hm)]
    rw [e, ← Nat.xor_mod_two_pow, Nat.xor_div_two_pow]
    congr 1
    apply UInt8.toNat.inj
    have h1 : x / 2 ^ (8 * n) < 256 := by
      rw [← e]; apply Nat.div_lt_of_lt_mul; rwa [Nat.pow_succ] at hx
    have h2 : y / 2 ^ (8 * n) < 256 := by
      rw [← e]; apply Nat.div_lt_of_lt_mul; rwa [Nat.pow_succ] at hy
    rw [UInt8.toNat_xor]
    simp only [UInt8.toNat_ofNat']
    exact Nat.xor_mod_two_pow

theorem bytes_xor : ∀ (us vs : List Nat), us.length = vs.length → Words us → Words vs →
    bytes (List.zipWith (· ^^^ ·) us vs) = List.zipWith (· ^^^ ·) (bytes us) (bytes vs)
  | [], [], _, _, _ => rfl
  | x :: us, y :: vs, h, hu, hv => by
    rw [Words.cons] at hu hv
    show beBytes 8 (x ^^^ y) ++ bytes (List.zipWith (· ^^^ ·) us vs) =
      List.zipWith (· ^^^ ·) (beBytes 8 x ++ bytes us) (beBytes 8 y ++ bytes vs)
    rw [List.zipWith_append (by rw [beBytes_length, beBytes_length]), bytes_xor us vs (by simpa using h) hu.2 hv.2,
      xor_beBytes 8 x y (by have := hu.1; omega) (by have := hv.1; omega)]
  | [], _ :: _, h, _, _ => by simp at h
  | _ :: _, [], h, _, _ => by simp at h

theorem pack_xor : ∀ (us vs : List Nat), us.length = vs.length → Words us → Words vs →
    pack (List.zipWith (· ^^^ ·) us vs) = pack us ^^^ pack vs
  | [], [], _, _, _ => rfl
  | x :: us, y :: vs, h, hu, hv => by
    rw [Words.cons] at hu hv
    have hxy : x ^^^ y < 2 ^ 64 := Nat.xor_lt_two_pow hu.1 hv.1
    show (x ^^^ y) + 2 ^ 64 * pack (List.zipWith (· ^^^ ·) us vs) = (x + 2 ^ 64 * pack us) ^^^ (y + 2 ^ 64 * pack vs)
    rw [pack_xor us vs (by simpa using h) hu.2 hv.2]
    apply Nat.eq_of_testBit_eq
    intro i
    rw [Nat.testBit_xor, Nat.add_comm, Nat.add_comm x, Nat.add_comm y, Nat.testBit_two_pow_mul_add _ hxy,
      Nat.testBit_two_pow_mul_add _ hu.1, Nat.testBit_two_pow_mul_add _ hv.1]
    split <;> simp
  | [], _ :: _, h, _, _ => by simp at h
  | _ :: _, [], h, _, _ => by simp at h

theorem pack_inj : ∀ (us vs : List Nat), us.length = vs.length → Words us → Words vs → pack us = pack vs → us = vs
  | [], [], _, _, _, _ => rfl
  | x :: us, y :: vs, h, hu, hv, he => by
    rw [Words.cons] at hu hv
    simp only [pack] at he
    have h1 := hu.1
    have h2 := hv.1
    have e1 : x = y := by omega
    have e2 : pack us = pack vs := by omega
    rw [e1, pack_inj us vs (by simpa using h) hu.2 hv.2 e2]
  | [], _ :: _, h, _, _, _ => by simp at h
  | _ :: _, [], h, _, _, _ => by simp at h

/-- From one digest and sum to another in a number of iterations. -/
def Reaches (key : Bytes) (n u acc u' acc' : Nat) : Prop :=
  ∀ us as, Digest us → Digest as → pack us = u → pack as = acc →
    ∃ us' as', Digest us' ∧ Digest as' ∧ pack us' = u' ∧ pack as' = acc' ∧
      ∀ m, Bip32.pbkdfLoop key (n + m) (bytes us) (bytes as) = Bip32.pbkdfLoop key m (bytes us') (bytes as')

theorem Reaches.trans {key : Bytes} {n m u a u' a' u'' a'' : Nat} (h : Reaches key n u a u' a')
    (h' : Reaches key m u' a' u'' a'') : Reaches key (n + m) u a u'' a'' := by
  intro us as hu ha eu ea
  obtain ⟨us', as', hu', ha', eu', ea', e⟩ := h us as hu ha eu ea
  obtain ⟨us'', as'', hu'', ha'', eu'', ea'', e'⟩ := h' us' as' hu' ha' eu' ea'
  exact ⟨us'', as'', hu'', ha'', eu'', ea'', fun k => by rw [Nat.add_assoc, e, e']⟩

/-- What the fast form computes is what PBKDF2 computes. -/
theorem reaches_of_iter (key : Bytes) (i0 i1 i2 i3 i4 i5 i6 i7 o0 o1 o2 o3 o4 o5 o6 o7 : Nat)
    (hi : start key 0x36 = [i0, i1, i2, i3, i4, i5, i6, i7]) (hiw : Words (start key 0x36))
    (ho : start key 0x5c = [o0, o1, o2, o3, o4, o5, o6, o7]) (how : Words (start key 0x5c)) (u' acc' : Nat) :
    ∀ (n u acc : Nat), iter (comp i0 i1 i2 i3 i4 i5 i6 i7) (comp o0 o1 o2 o3 o4 o5 o6 o7) u' acc' n u acc = true →
      Reaches key n u acc u' acc'
  | 0, u, acc, h => by
    intro us as hu ha eu ea
    have h' : (Nat.beq u u' && Nat.beq acc acc') = true := h
    rw [Bool.and_eq_true] at h'
    exact ⟨us, as, hu, ha, eu.trans (Nat.eq_of_beq_eq_true h'.1), ea.trans (Nat.eq_of_beq_eq_true h'.2),
      fun m => by rw [Nat.zero_add]⟩
  | n + 1, u, acc, h => by
    intro us as hu ha eu ea
    have hstep : iter (comp i0 i1 i2 i3 i4 i5 i6 i7) (comp o0 o1 o2 o3 o4 o5 o6 o7) u' acc' (n + 1) u acc =
        iter (comp i0 i1 i2 i3 i4 i5 i6 i7) (comp o0 o1 o2 o3 o4 o5 o6 o7) u' acc' n
          (comp o0 o1 o2 o3 o4 o5 o6 o7 (comp i0 i1 i2 i3 i4 i5 i6 i7 u))
          (acc ^^^ comp o0 o1 o2 o3 o4 o5 o6 o7 (comp i0 i1 i2 i3 i4 i5 i6 i7 u)) := by
      unfold iter
      simp only [frc_eq]
      rfl
    rw [hstep] at h
    obtain ⟨hv, ev⟩ := comp_eq _ us hu i0 i1 i2 i3 i4 i5 i6 i7 hi hiw
    generalize hvs : Bip32.sha512P.block (start key 0x36) (bytes us ++ bytes padWords) = vs at hv ev
    obtain ⟨hw, ew⟩ := comp_eq _ vs hv o0 o1 o2 o3 o4 o5 o6 o7 ho how
    have hm := hmac_eq key us hu.1 (by rw [hvs]; exact hv.1)
    rw [hvs] at hm
    generalize Bip32.sha512P.block (start key 0x5c) (bytes vs ++ bytes padWords) = ws at hw ew hm
    rw [← eu, ev, ew, ← ea] at h
    have hl : as.length = ws.length := by rw [ha.1, hw.1]
    have hx : Digest (List.zipWith (· ^^^ ·) as ws) := by
      refine ⟨by rw [List.length_zipWith, ha.1, hw.1]; rfl, fun x hx => ?_⟩
      obtain ⟨i, hi, rfl⟩ := List.mem_iff_getElem.1 hx
      rw [List.getElem_zipWith]
      exact Nat.xor_lt_two_pow (ha.2 _ (List.getElem_mem _)) (hw.2 _ (List.getElem_mem _))
    rw [← pack_xor as ws hl ha.2 hw.2] at h
    obtain ⟨us', as', g1, g2, g3, g4, g5⟩ := reaches_of_iter key i0 i1 i2 i3 i4 i5 i6 i7 o0 o1 o2 o3 o4 o5 o6 o7
      hi hiw ho how u' acc' n _ _ h ws _ hw hx rfl rfl
    refine ⟨us', as', g1, g2, g3, g4, fun m => ?_⟩
    rw [show n + 1 + m = n + m + 1 by omega, Bip32.pbkdfLoop]
    simp only [hm]
    rw [← bytes_xor as ws hl ha.2 hw.2, g5]

/-- The key of PBKDF2 from its first and its last sum. -/
theorem pbkdf2_of_reaches (key salt : Bytes) (n : Nat) (us as : List Nat) (u' : Nat) (hu : Digest us) (ha : Digest as)
    (h1 : Bip32.hmac512 key (salt ++ [0, 0, 0, 1]) = bytes us)
    (h : Reaches key n (pack us) (pack us) u' (pack as)) : Bip32.pbkdf2 key salt (n + 1) = bytes as := by
  obtain ⟨us', as', _, g2, _, g4, g5⟩ := h us us hu hu rfl rfl
  have := pack_inj as' as (by rw [g2.1, ha.1]) g2.2 ha.2 g4
  unfold Bip32.pbkdf2
  simp only [Nat.add_sub_cancel, h1]
  rw [show n = n + 0 from rfl, g5, this]
  rfl

end Stacks.Concrete.FastPbkdf

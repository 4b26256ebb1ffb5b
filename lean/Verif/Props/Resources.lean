import Verif.Proofs.Cost
import Verif.Proofs.Depth
import Verif.Props.Clarity

/-! # C84: depth of recursion. C85: work of decoding. C86: room asked for -/

namespace Stacks.Clarity
open Stacks.Spec

section
variable [Hashes]

/-! ## C84 -/

/-- **C84** Decoding a value uses exactly as many nested calls as the value is deep: with the calls
below depth `d` replaced by anything at all, the result is the same if and only if `d` is at least the
depth of the value. -/
theorem C84_recursion_depth (bytes : Bytes) (v : CV) (h : decode bytes = .ok v) (d : Nat) :
    (∀ stop, decodeAt stop d bytes = .ok v) ↔ depth v ≤ d :=
  ⟨fun hs => decodeAt_depth d _ _ (hs .panic), fun hd stop => decodeAt_enough stop d _ _ _ h hd⟩

/-- **C84** The depth is at most the number of bytes. -/
theorem C84_depth_le (bytes : Bytes) (v : CV) (h : decode bytes = .ok v) : depth v ≤ bytes.length := by
  obtain ⟨ha, r, rfl⟩ := (C24_decode_exact bytes v).1 h
  have := depth_le_length v ha
  rw [List.length_append]; omega

omit [Hashes] in
theorem depth_some (k : Nat) : depth (CV.optSome^[k] .optNone) = k + 1 := by
  induction k with
  | zero => rfl
  | succ k ih => rw [Function.iterate_succ_apply', depth, ih]; omega

theorem decode_some (k : Nat) :
    Accepted (CV.optSome^[k] .optNone) ∧ sip005 (CV.optSome^[k] .optNone) = List.replicate k 0x0a ++ [0x09] := by
  induction k with
  | zero => exact ⟨trivial, rfl⟩
  | succ k ih => rw [Function.iterate_succ_apply']; exact ⟨ih.1, by rw [sip005, ih.2]; rfl⟩

/-- **C84** And this is reached: there is no limit on the depth, every byte can be one more call. -/
theorem C84_depth_unbounded (k : Nat) :
    ∃ v, decode (List.replicate k 0x0a ++ [0x09]) = .ok v ∧
      depth v = (List.replicate k (0x0a : UInt8) ++ [0x09]).length := by
  obtain ⟨h1, h2⟩ := decode_some k
  exact ⟨_, (C24_decode_exact _ _).2 ⟨h1, [], by rw [h2]; simp⟩, by rw [depth_some]; simp⟩

/-! ## C85 -/

/-- **C85** The counting decoder and encoder are the decoder and encoder. -/
theorem C85_same_results (bytes : Bytes) (v : CV) :
    (decodeCost bytes).2 = decode bytes ∧ v.encodeCost.2 = v.encode ∧
      (fnArgsDecodeCost bytes).2 = fnArgsDecode bytes := by
  refine ⟨decodeCost_snd bytes, encodeCost_snd v, ?_⟩
  unfold fnArgsDecodeCost fnArgsDecode
  split
  · rfl
  · exact fnArgsLoopCost_snd _ _

/-- **C85** Encoding writes at most the square of the bytes it returns. -/
theorem C85_encode_work (v : CV) (bs : Bytes) (h : v.encode = .ok bs) : v.encodeCost.1 ≤ bs.length ^ 2 := by
  obtain ⟨_, rfl⟩ := encode_eq_ok.1 h
  exact encodeCost_le v

/-- **C85** Decoding writes at most the cube of the number of input bytes, whether it succeeds or not. -/
theorem C85_decode_work (bytes : Bytes) :
    (decodeCost bytes).1 ≤ bytes.length ^ 3 ∧ (fnArgsDecodeCost bytes).1 ≤ bytes.length ^ 3 := by
  refine ⟨(decodeCost_le bytes).1, ?_⟩
  unfold fnArgsDecodeCost
  split
  · exact Nat.zero_le _
  · have := fnArgsLoopCost_le (beVal (bytes.take 4)) (bytes.drop 4)
    rw [List.length_drop] at this
    exact le_trans this (cube_room (k := 4) (by omega) (by decide))

omit [Hashes] in
theorem nestedBytes_length (k : Nat) : (nestedBytes k).length = 5 * k + 1 := by
  induction k with
  | zero => rfl
  | succ k ih => simp only [nestedBytes, List.length_append, ih, List.length_cons, List.length_nil]; omega

/-- `k` lists around `none`. -/
def nestedValue : Nat → CV
  | 0 => .optNone
  | k + 1 => .list [nestedValue k]

theorem nested_sip (k : Nat) : sip005 (nestedValue k) = nestedBytes k ∧ WellFormed (nestedValue k) := by
  induction k with
  | zero => exact ⟨rfl, trivial⟩
  | succ k ih =>
    refine ⟨?_, by show 1 < 2 ^ 32; decide, ih.2, trivial⟩
    simp only [nestedValue, sip005, sip005All, ih.1, nestedBytes, List.append_nil]
    rw [show beBytes 4 [nestedValue k].length = [0, 0, 0, 1] from (by decide : beBytes 4 1 = [0, 0, 0, 1])]
    rfl

theorem nested_encode (k : Nat) : 2 * (nestedValue k).encodeCost.1 = (k + 1) * (5 * k + 2) := by
  induction k with
  | zero => rfl
  | succ k ih =>
    have he : (nestedValue k).encode = .ok (nestedBytes k) := by
      obtain ⟨h1, h2⟩ := nested_sip k
      exact encode_eq_ok.2 ⟨wf_encodable _ h2, h1.symm⟩
    have : (nestedValue (k + 1)).encodeCost.1 = 5 + ((nestedValue k).encodeCost.1 + (5 * k + 1)) := by
      rw [nestedValue, CV.encodeCost]
      have hl : (lenBytes [nestedValue k].length : Outcome Error Bytes) = .ok [0, 0, 0, 1]  :=
        (by decide : (lenBytes 1 : Outcome Error Bytes) = .ok [0, 0, 0, 1])
      rw [hl, ok_bind_cost, bind_fst, write_fst, write_snd]
      simp only []
      rw [bind_pure_fst, CV.encodeAllCost, bind_fst, encodeCost_snd, he]
      simp only []
      rw [bind_fst, write_fst, write_snd]
      simp only []
      rw [bind_pure_fst, nestedBytes_length]
      rfl
    rw [this]
    nlinarith

theorem nested_decode (stop : Outcome Error CV) (k : Nat) : ∀ f, k < f →
    (decodeAtCost stop f (nestedBytes k)).1 = k * (k + 1) * (5 * k - 2) / 6 ∧
      (decodeAtCost stop f (nestedBytes k)).2 = .ok (nestedValue k) := by
  induction k with
  | zero =>
    intro f hf
    obtain ⟨f, rfl⟩ := Nat.exists_eq_succ_of_ne_zero (by omega : f ≠ 0)
    exact ⟨rfl, rfl⟩
  | succ k ih =>
    intro f hf
    obtain ⟨f, rfl⟩ := Nat.exists_eq_succ_of_ne_zero (by omega : f ≠ 0)
    obtain ⟨hr1, hr2⟩ := ih f (by omega)
    have he : (nestedValue k).encode = .ok (nestedBytes k) := by
      obtain ⟨h1, h2⟩ := nested_sip k
      exact encode_eq_ok.2 ⟨wf_encodable _ h2, h1.symm⟩
    have hc := nested_encode k
    have hs : (sliceFrom (0x0b :: 0 :: 0 :: 0 :: 1 :: nestedBytes k) 5 : Outcome Error Bytes) = .ok (nestedBytes k) :=
      sliceFrom_append [0x0b, 0, 0, 0, 1] (nestedBytes k) rfl
    rw [nestedBytes]
    simp only [List.cons_append, List.nil_append]
    rw [stepCost, if_neg (by decide), if_neg (by decide), if_neg (by decide), if_pos rfl, listDecodeCost,
      show idList = 11 from rfl, checkId_self, ok_bind_cost,
      show readLen (11 :: 0 :: 0 :: 0 :: 1 :: nestedBytes k) = .ok 1 from rfl, ok_bind_cost, listLoopCost, hs,
      ok_bind_cost]
    constructor
    · rw [bind_pure_fst, bind_fst, hr1, hr2]
      simp only []
      rw [bind_fst, encodeCost_snd, he]
      simp only []
      rw [bind_pure_fst]
      show k * (k + 1) * (5 * k - 2) / 6 + ((nestedValue k).encodeCost.1 + 0) = _
      rw [Nat.add_zero]
      have key : ∀ j : Nat, ∃ q, j * (j + 1) * (5 * j - 2) = 6 * q ∧
          (j + 1) * (j + 1 + 1) * (5 * (j + 1) - 2) = 6 * q + 3 * ((j + 1) * (5 * j + 2)) := by
        intro j
        induction j with
        | zero => exact ⟨0, rfl, rfl⟩
        | succ j ih =>
          obtain ⟨q, h1, h2⟩ := ih
          obtain ⟨m, hm⟩ : ∃ m, (j + 1) * (5 * j + 2) = 2 * m := by
            rcases Nat.even_or_odd' j with ⟨a, rfl | rfl⟩
            · exact ⟨(2 * a + 1) * (5 * a + 1), by ring⟩
            · exact ⟨(a + 1) * (10 * a + 7), by ring⟩
          refine ⟨q + m, by rw [h2, hm]; ring, ?_⟩
          have e1 : 5 * (j + 1 + 1) - 2 = 5 * j + 8 := by omega
          have e2 : 5 * (j + 1) - 2 = 5 * j + 3 := by omega
          rw [e2] at h2
          rw [e1]
          nlinarith
      obtain ⟨q, h1, h2⟩ := key k
      rw [h1, h2, ← hc]
      omega
    · rw [bind_snd, bind_snd, hr2, Outcome.ok_bind, bind_snd, encodeCost_snd, he]
      rfl

/-- **C85** The cube is attained, but for a constant: `k` lists of one element each, `5 k + 1` bytes,
cost `k (k + 1) (5 k − 2) / 6` bytes of writing to decode. -/
theorem C85_cubic (k : Nat) :
    (nestedBytes k).length = 5 * k + 1 ∧ (∃ v, decode (nestedBytes k) = .ok v ∧ depth v = k + 1) ∧
      6 * (decodeCost (nestedBytes k)).1 = k * (k + 1) * (5 * k - 2) := by
  have hd := nested_decode .panic k ((nestedBytes k).length + 1) (by rw [nestedBytes_length]; omega)
  refine ⟨nestedBytes_length k, ⟨nestedValue k, ?_, ?_⟩, ?_⟩
  · rw [← decodeCost_snd]; exact hd.2
  · clear hd
    induction k with
    | zero => rfl
    | succ k ih => simp only [nestedValue, depth, depthAll, ih]; omega
  · rw [show (decodeCost (nestedBytes k)).1 = _ from hd.1]
    refine Nat.mul_div_cancel' ?_
    have key : ∀ j : Nat, 6 ∣ j * (j + 1) * (5 * j - 2) := by
      intro j
      rcases Nat.eq_zero_or_pos j with rfl | hj
      · exact ⟨0, rfl⟩
      obtain ⟨i, rfl⟩ := Nat.exists_eq_add_of_lt hj
      have e : 5 * (0 + i + 1) - 2 = 5 * i + 3 := by omega
      rw [e]
      refine Nat.dvd_of_mod_eq_zero ?_
      have h6 : i % 6 = 0 ∨ i % 6 = 1 ∨ i % 6 = 2 ∨ i % 6 = 3 ∨ i % 6 = 4 ∨ i % 6 = 5 := by omega
      rcases h6 with h | h | h | h | h | h <;> simp [Nat.add_mod, Nat.mul_mod, h]
    exact key k

/-! ## C86 -/

/-- **C86** When arguments are accepted, the room asked for is exactly what they need, and less than
the number of input bytes. -/
theorem C86_accepted (bytes : Bytes) (vs : List CV) (h : fnArgsDecode bytes = .ok vs) :
    fnArgsCapacity bytes = some vs.length ∧ vs.length + 4 ≤ bytes.length := by
  obtain ⟨hl, hv, bs, he, r, rfl⟩ := (C35_fn_arguments_exact bytes vs).1 h
  obtain ⟨henc, rfl⟩ := encode_eq_ok.1 he
  have hle : vs.length ≤ (sip005All vs).length := by
    clear h he hl henc
    induction vs with
    | nil => simp
    | cons v vs ih =>
      have hih : vs.length ≤ (sip005All vs).length := ih (fun w hw => hv w (by simp [hw]))
      have := depth_pos v
      have := depth_le_length v (wf_accepted v (hv v (by simp)))
      simp only [sip005All, List.length_append, List.length_cons]; omega
  constructor
  · rw [fnArgsCapacity, if_neg (by simp [sip005]), sip005, List.append_assoc,
      List.take_left' (beBytes_length 4 _), beVal_beBytes (by norm_num; omega)]
  · simp only [sip005, List.length_append, beBytes_length]; omega

/-- **C86** Before anything is checked, though, it asks for as much room as the first four bytes say:
four bytes are enough to make it ask for any number of elements below 2³², after which it panics. -/
theorem C86_unchecked (n : Nat) (h0 : 0 < n) (h : n < 2 ^ 32) :
    ∃ bytes : Bytes, bytes.length = 4 ∧ fnArgsCapacity bytes = some n ∧ fnArgsDecode bytes = .panic := by
  have e : beVal ((beBytes 4 n).take 4) = n := by
    rw [List.take_of_length_le (by simp), beVal_beBytes (by norm_num; omega)]
  refine ⟨beBytes 4 n, by simp, ?_, ?_⟩
  · rw [fnArgsCapacity, if_neg (by simp), e]
  · rw [fnArgsDecode, if_neg (by simp), e, List.drop_of_length_le (by simp)]
    obtain ⟨m, rfl⟩ := Nat.exists_eq_succ_of_ne_zero (by omega : n ≠ 0)
    rfl

/-! ## The hypotheses are satisfiable -/

example : decode (nestedBytes 3) = .ok (.list [.list [.list [.optNone]]]) := by
  obtain ⟨_, _, _⟩ := C85_cubic 3
  have := nested_decode .panic 3 17 (by decide)
  rw [← decodeCost_snd]; exact this.2

/-- 26 bytes cost 115 bytes of writing; 5001 bytes cost more than 800 million. -/
example : (decodeCost (nestedBytes 5)).1 = 115 ∧ (decodeCost (nestedBytes 1000)).1 = 833833000 := by
  have h1 : 6 * (decodeCost (nestedBytes 5)).1 = 690 := (C85_cubic 5).2.2
  have h2 : 6 * (decodeCost (nestedBytes 1000)).1 = 5002998000 := (C85_cubic 1000).2.2
  omega

/-- Four bytes, 2³² − 1 elements (64 GiB). -/
example : ∃ bytes : Bytes, bytes.length = 4 ∧ fnArgsCapacity bytes = some 4294967295 ∧ fnArgsDecode bytes = .panic :=
  C86_unchecked _ (by decide) (by decide)

end

end Stacks.Clarity

import Verif.Model.Hash
import Verif.Proofs.Basic

/-! # `stacks/src/crypto/b58.rs` -/

namespace Stacks.B58

/-- b58.rs:12-13 `B58_ALPHABET`. -/
def alphabet : Bytes :=
  "123456789ABCDEFGHJKLMNPQRSTUVWXYZabcdefghijkmnopqrstuvwxyz".toList.map fun c => UInt8.ofNat c.toNat

/-- b58.rs:16-28 `B58_BYTE_MAP`, 256 entries. -/
def byteMap : List Int := [
  -1, -1, -1, -1, -1, -1, -1, -1, -1, -1, -1, -1, -1, -1, -1, -1, -1, -1, -1, -1, -1, -1, -1, -1,
  -1, -1, -1, -1, -1, -1, -1, -1, -1, -1, -1, -1, -1, -1, -1, -1, -1, -1, -1, -1, -1, -1, -1, -1,
  -1, 0, 1, 2, 3, 4, 5, 6, 7, 8, -1, -1, -1, -1, -1, -1, -1, 9, 10, 11, 12, 13, 14, 15, 16, -1,
  17, 18, 19, 20, 21, -1, 22, 23, 24, 25, 26, 27, 28, 29, 30, 31, 32, -1, -1, -1, -1, -1, -1, 33,
  34, 35, 36, 37, 38, 39, 40, 41, 42, 43, -1, 44, 45, 46, 47, 48, 49, 50, 51, 52, 53, 54, 55, 56,
  57, -1, -1, -1, -1, -1, -1, -1, -1, -1, -1, -1, -1, -1, -1, -1, -1, -1, -1, -1, -1, -1, -1, -1,
  -1, -1, -1, -1, -1, -1, -1, -1, -1, -1, -1, -1, -1, -1, -1, -1, -1, -1, -1, -1, -1, -1, -1, -1,
  -1, -1, -1, -1, -1, -1, -1, -1, -1, -1, -1, -1, -1, -1, -1, -1, -1, -1, -1, -1, -1, -1, -1, -1,
  -1, -1, -1, -1, -1, -1, -1, -1, -1, -1, -1, -1, -1, -1, -1, -1, -1, -1, -1, -1, -1, -1, -1, -1,
  -1, -1, -1, -1, -1, -1, -1, -1, -1, -1, -1, -1, -1, -1, -1, -1, -1, -1, -1, -1, -1, -1, -1, -1,
  -1, -1, -1, -1, -1, -1, -1, -1, -1, -1, -1, -1, -1, -1]

/-- b58.rs:32-45 `enum Error`. -/
inductive Error where
  | badChar (c : Char)
  | badChecksum (a b : Str)
  | unknownAddressVersion (v : UInt8)
  | tryFromInt
deriving DecidableEq, Repr

/-- b58.rs:49-58 `enum Version`. -/
inductive Version where
  | mainnetP2PKH | mainnetP2SH | testnetP2PKH | testnetP2SH
deriving DecidableEq, Repr

/-- b58.rs:51-57: `version as u8`. -/
def Version.toU8 : Version → UInt8
  | .mainnetP2PKH => 0
  | .mainnetP2SH => 5
  | .testnetP2PKH => 111
  | .testnetP2SH => 196

/-- b58.rs:67-70 and 111-114: how many leading bytes equal `z`. -/
def countLeading (z : UInt8) : Bytes → Nat
  | [] => 0
  | b :: rest => if b == z then countLeading z rest + 1 else 0

/-- A `u32` result; a panic on overflow. -/
def u32 (n : Nat) : Outcome Error Nat := if n < 2 ^ 32 then .ok n else .panic

/-- b58.rs:79-87: one long division by 58. `rem << 8` drops bits beyond 32, the addition is
checked. -/
def divLoop : Bytes → Nat → Bytes → Outcome Error (Bytes × Nat)
  | [], rem, temp => .ok (temp, rem)
  | b :: rest, rem, temp => do
    let cur ← u32 ((rem * 256) % 2 ^ 32 + b.toNat)
    let div := cur / 58
    let rem := cur % 58
    divLoop rest rem (if !temp.isEmpty || div != 0 then temp ++ [UInt8.ofNat div] else temp)

theorem divLoop_spec : ∀ (l : Bytes) (rem : Nat) (temp : Bytes), rem < 58 → temp.head? ≠ some 0 →
    ∃ temp', divLoop l rem temp = .ok (temp', (rem * 256 ^ l.length + beVal l) % 58) ∧
      temp'.head? ≠ some 0 ∧
      beVal temp' = beVal temp * 256 ^ l.length + (rem * 256 ^ l.length + beVal l) / 58 := by
  intro l
  induction l with
  | nil =>
    intro rem temp hr ht
    refine ⟨temp, ?_, ht, ?_⟩
    · simp [divLoop, Nat.mod_eq_of_lt hr]
    · simp [Nat.div_eq_of_lt hr]
  | cons b rest ih =>
    intro rem temp hr ht
    have hb := b.toNat_lt
    have hm : (rem * 256) % 2 ^ 32 = rem * 256 := Nat.mod_eq_of_lt (by omega)
    have hdiv : (rem * 256 + b.toNat) / 58 < 256 := by omega
    have hof : (UInt8.ofNat ((rem * 256 + b.toNat) / 58)).toNat = (rem * 256 + b.toNat) / 58 := by
      rw [UInt8.toNat_ofNat', Nat.mod_eq_of_lt hdiv]
    have hnum : rem * 256 ^ (rest.length + 1) + (b.toNat * 256 ^ rest.length + beVal rest) =
        ((rem * 256 + b.toNat) % 58) * 256 ^ rest.length + beVal rest +
          58 * (((rem * 256 + b.toNat) / 58) * 256 ^ rest.length) := by
      have := Nat.div_add_mod (rem * 256 + b.toNat) 58
      calc _ = (rem * 256 + b.toNat) * 256 ^ rest.length + beVal rest := by rw [pow_succ]; ring
        _ = (58 * ((rem * 256 + b.toNat) / 58) + (rem * 256 + b.toNat) % 58) * 256 ^ rest.length +
            beVal rest := by rw [this]
        _ = _ := by ring
    rw [divLoop, hm, u32, if_pos (by omega), Outcome.ok_bind]
    simp only []
    generalize htq : (if (!temp.isEmpty || (rem * 256 + b.toNat) / 58 != 0) = true then
      temp ++ [UInt8.ofNat ((rem * 256 + b.toNat) / 58)] else temp) = temp1
    have h1 : temp1.head? ≠ some 0 ∧ beVal temp1 = beVal temp * 256 + (rem * 256 + b.toNat) / 58 := by
      rcases temp with _ | ⟨t, ts⟩
      · by_cases h0 : (rem * 256 + b.toNat) / 58 = 0
        · rw [← htq, h0]; simp
        · rw [if_pos (by simpa using h0)] at htq
          rw [← htq]
          refine ⟨?_, ?_⟩
          · simp only [List.nil_append, List.head?_cons, ne_eq, Option.some.injEq]
            intro h
            rw [h] at hof
            exact h0 hof.symm
          · rw [List.nil_append, beVal_cons, hof]; simp
      · rw [if_pos (by simp)] at htq
        rw [← htq]
        refine ⟨by simpa using ht, ?_⟩
        rw [beVal_append, beVal_cons (UInt8.ofNat _), hof]; simp
    obtain ⟨temp', e1, e2, e3⟩ := ih ((rem * 256 + b.toNat) % 58) temp1 (Nat.mod_lt _ (by omega)) h1.1
    refine ⟨temp', ?_, e2, ?_⟩
    · rw [e1, List.length_cons, beVal_cons, hnum, Nat.add_mul_mod_self_left]
    · rw [e3, List.length_cons, beVal_cons, hnum, Nat.add_mul_div_left _ _ (by omega : 0 < 58), h1.2]
      rw [pow_succ]; ring

/-- The termination measure of the loop of `b58_encode`: each iteration divides the number by
58, and a number 0 written with at least one byte becomes the empty buffer. -/
def loopMeasure (buff : Bytes) : Nat := 2 * beVal buff + (if buff.isEmpty then 0 else 1)

theorem loopMeasure_lt {buff temp : Bytes} {rem : Nat} (hb : buff ≠ [])
    (h : divLoop buff 0 [] = .ok (temp, rem)) : loopMeasure temp < loopMeasure buff := by
  obtain ⟨t, h1, h2, h3⟩ := divLoop_spec buff 0 [] (by omega) (by simp)
  rw [h] at h1
  simp only [Outcome.ok.injEq, Prod.mk.injEq] at h1
  obtain ⟨rfl, _⟩ := h1
  simp only [beVal_nil, Nat.zero_mul, Nat.zero_add] at h3
  unfold loopMeasure
  have hbe : buff.isEmpty = false := by cases buff <;> simp_all
  rw [hbe]
  rcases temp with _ | ⟨t, ts⟩
  · simp
  · have ht : t ≠ 0 := by simpa using h2
    have ht' : t.toNat ≠ 0 := fun h0 => ht (UInt8.toNat_inj.1 h0)
    have hpos : 0 < beVal (t :: ts) := by
      rw [beVal_cons]
      have : 0 < t.toNat * 256 ^ ts.length := Nat.mul_pos (by omega) (by positivity)
      omega
    simp only [List.isEmpty_cons, Bool.false_eq_true, if_false]
    omega

/-- b58.rs:75-90, `while !buff.is_empty() { .. }`; the accepted recursion is a proof that it
terminates. -/
def encodeLoop (buff : Bytes) (result : Str) : Outcome Error Str :=
  if _hb : buff = [] then .ok result
  else
    match _h : divLoop buff 0 [] with
    | .ok (temp, rem) =>
      match (idx alphabet rem : Outcome Error UInt8) with
      | .ok ch => encodeLoop temp (result ++ [Char.ofNat ch.toNat])
      | .err e => .err e
      | .panic => .panic
    | .err e => .err e
    | .panic => .panic
termination_by loopMeasure buff
decreasing_by exact loopMeasure_lt _hb _h

/-- b58.rs:61-98 `b58_encode`. -/
def b58Encode (data : Bytes) : Outcome Error Str := do
  let zeros := countLeading 0 data
  let result ← encodeLoop data []
  let one ← idx alphabet 0
  let result := result ++ List.replicate zeros (Char.ofNat one.toNat)
  pure result.reverse

/-- b58.rs:127-131: multiply the buffer by 58 and add the carry; the argument is the reversed
buffer (`iter_mut().rev()`). The sum is a checked `u32` addition. A final carry is dropped. -/
def mulAdd : Bytes → Nat → Outcome Error Bytes
  | [], _ => .ok []
  | byte :: rest, carry => do
    let carry ← u32 (carry + byte.toNat * 58)
    let tl ← mulAdd rest (carry / 256)
    pure (UInt8.ofNat (carry % 256) :: tl)

/-- b58.rs:118-132, the loop over the characters. -/
def decodeLoop (buff : Bytes) : Str → Outcome Error Bytes
  | [] => .ok buff
  | c :: rest => do
    let index ← Outcome.orPanic byteMap[c.toNat]?
    if index = -1 then .err (.badChar c)
    else do
      let carry ← (if 0 ≤ index then .ok index.toNat else .err .tryFromInt : Outcome Error Nat)
      let buff ← mulAdd buff.reverse carry
      decodeLoop buff.reverse rest

/-- b58.rs:101-142 `b58_decode`. -/
def b58Decode (s : Str) : Outcome Error Bytes := do
  if s.bytes.isEmpty then pure []
  else do
    let zeros := countLeading 0x31 s.bytes
    let buff := List.replicate (s.len * 733 / 1000 + 1) (0 : UInt8)
    let buff ← decodeLoop buff s
    let buff := buff.dropWhile (· == 0)
    pure (List.replicate zeros 0 ++ buff)

/-- `format!("{bytes:?}")` of a byte slice. -/
def debugBytes (bs : Bytes) : Str :=
  '[' :: (List.intercalate ", ".toList (bs.map fun b => Nat.toDigits 10 b.toNat)) ++ [']']

variable [Hashes]

/-- b58.rs:145-166 `base58check_encode`. -/
def base58checkEncode (hash : Bytes) (version : UInt8) : Outcome Error Str := do
  let payload := [version] ++ hash
  let bytes := dsha256Hash payload
  let checksum ← slice bytes.1 0 4
  let data := [version] ++ hash ++ checksum
  b58Encode data

/-- b58.rs:184-191, the comparison loop `for i in 0..4`. -/
def checksumLoop (checksum bytes : Bytes) : List Nat → Outcome Error Unit
  | [] => .ok ()
  | i :: is => do
    let a ← idx checksum i
    let b ← idx bytes i
    if a ≠ b then .err (.badChecksum (debugBytes checksum) (debugBytes bytes))
    else checksumLoop checksum bytes is

/-- b58.rs:169-194 `base58check_decode`. -/
def base58checkDecode (s : Str) : Outcome Error (Bytes × UInt8) := do
  let buff ← b58Decode s
  let max := buff.length
  let m ← (if 4 ≤ max then .ok (max - 4) else .panic : Outcome Error Nat)
  let checksum ← sliceFrom buff m
  let data ← slice buff 1 m
  let head ← slice buff 0 m
  let bytes := dsha256Hash head
  checksumLoop checksum bytes.1 [0, 1, 2, 3]
  let v ← idx buff 0
  pure (data, v)

end Stacks.B58

import Verif.Model.Basic
import Mathlib.Data.List.Basic
import Mathlib.Tactic.Ring
import Mathlib.Tactic.Linarith

/-! Helper lemmas about strings, slices and big-endian numbers. -/

namespace Stacks

/-! ## UTF-8 -/

@[simp] theorem Str.bytes_nil : Str.bytes [] = [] := rfl
@[simp] theorem Str.bytes_cons (c : Char) (s : Str) :
    Str.bytes (c :: s) = String.utf8EncodeChar c ++ Str.bytes s := by
  simp [Str.bytes]
@[simp] theorem Str.bytes_append (s t : Str) : Str.bytes (s ++ t) = Str.bytes s ++ Str.bytes t := by
  simp [Str.bytes]

theorem encChar_ascii {c : Char} (h : c.toNat < 128) :
    String.utf8EncodeChar c = [UInt8.ofNat c.toNat] := by
  have h' : c.val.toNat ≤ 127 := by
    have : c.toNat = c.val.toNat := rfl
    omega
  unfold String.utf8EncodeChar
  simp only []
  rw [if_pos h']
  rfl

theorem encChar_nonascii {c : Char} (h : 128 ≤ c.toNat) :
    ∀ b ∈ String.utf8EncodeChar c, 128 ≤ b.toNat := by
  have h' : ¬ c.val.toNat ≤ 127 := by
    have : c.toNat = c.val.toNat := rfl
    omega
  intro b hb
  unfold String.utf8EncodeChar at hb
  simp only [] at hb
  rw [if_neg h'] at hb
  split at hb
  · simp only [List.mem_cons, List.not_mem_nil, or_false] at hb
    rcases hb with rfl | rfl <;> simp only [UInt8.toNat_ofNat'] <;> omega
  · split at hb
    · simp only [List.mem_cons, List.not_mem_nil, or_false] at hb
      rcases hb with rfl | rfl | rfl <;> simp only [UInt8.toNat_ofNat'] <;> omega
    · simp only [List.mem_cons, List.not_mem_nil, or_false] at hb
      rcases hb with rfl | rfl | rfl | rfl <;> simp only [UInt8.toNat_ofNat'] <;> omega

theorem encChar_length_pos (c : Char) : 0 < (String.utf8EncodeChar c).length := by
  rw [String.length_utf8EncodeChar]; exact Char.utf8Size_pos c

theorem encChar_length_le (c : Char) : (String.utf8EncodeChar c).length ≤ 4 := by
  rw [String.length_utf8EncodeChar]; exact Char.utf8Size_le_four c

theorem Str.len_eq_utf8ByteSize (s : Str) : s.len = (String.ofList s).utf8ByteSize := by
  simp [Str.len, Str.bytes, String.utf8ByteSize, List.utf8Encode]

theorem fromUtf8_bytes (s : Str) : fromUtf8 s.bytes = some s := by
  have h : ByteArray.utf8Decode? (List.utf8Encode s) = some s.toArray := List.utf8Decode?_utf8Encode
  unfold List.utf8Encode at h
  unfold fromUtf8 Str.bytes
  rw [h]; simp

theorem charOfNat_toNat {n : Nat} (h : n < 55296) : (Char.ofNat n).toNat = n := by
  have hv : n.isValidChar := Or.inl h
  unfold Char.ofNat
  rw [dif_pos hv]
  rfl

theorem bytes_of_fromUtf8 {bs : Bytes} {s : Str} (h : fromUtf8 bs = some s) : s.bytes = bs := by
  unfold fromUtf8 at h
  rw [Option.map_eq_some_iff] at h
  obtain ⟨a, ha, rfl⟩ := h
  have hs : (bs.toByteArray.utf8Decode?).isSome := by rw [ha]; rfl
  have := ByteArray.utf8Encode_get_utf8Decode? (b := bs.toByteArray) (h := hs)
  simp only [ha, Option.get_some] at this
  unfold List.utf8Encode at this
  have h2 := congrArg (fun x => x.data.toList) this
  simpa [Str.bytes] using h2

theorem fromUtf8_eq_some {bs : Bytes} {s : Str} : fromUtf8 bs = some s ↔ s.bytes = bs :=
  ⟨bytes_of_fromUtf8, fun h => h ▸ fromUtf8_bytes s⟩

theorem Str.bytes_injective {s t : Str} (h : s.bytes = t.bytes) : s = t := by
  have := fromUtf8_bytes s
  rw [h, fromUtf8_bytes] at this
  exact (Option.some.inj this).symm

theorem Str.bytes_of_ascii {s : Str} (h : ∀ c ∈ s, c.toNat < 128) :
    s.bytes = s.map (fun c => UInt8.ofNat c.toNat) := by
  induction s with
  | nil => rfl
  | cons c s ih =>
    rw [Str.bytes_cons, encChar_ascii (h c (by simp)), ih (fun d hd => h d (by simp [hd]))]
    rfl

theorem Str.isAscii_iff {s : Str} : s.isAscii = true ↔ ∀ c ∈ s, c.toNat < 128 := by
  unfold Str.isAscii
  rw [List.all_eq_true]
  constructor
  · intro h c hc
    by_contra hn
    obtain ⟨b, hb⟩ := List.exists_mem_of_length_pos (encChar_length_pos c)
    have h1 := encChar_nonascii (by omega : 128 ≤ c.toNat) b hb
    have h2 := h b (by unfold Str.bytes; exact List.mem_flatMap.2 ⟨c, hc, hb⟩)
    simp only [decide_eq_true_eq] at h2
    have h3 := UInt8.lt_iff_toNat_lt.1 h2
    have h4 : (128 : UInt8).toNat = 128 := rfl
    omega
  · intro h b hb
    rw [Str.bytes_of_ascii h, List.mem_map] at hb
    obtain ⟨c, hc, rfl⟩ := hb
    have := h c hc
    simp only [decide_eq_true_eq]
    apply UInt8.lt_iff_toNat_lt.2
    rw [UInt8.toNat_ofNat']
    have h4 : (128 : UInt8).toNat = 128 := rfl
    omega

theorem Str.len_of_ascii {s : Str} (h : ∀ c ∈ s, c.toNat < 128) : s.len = s.length := by
  unfold Str.len; rw [Str.bytes_of_ascii h, List.length_map]

theorem Str.length_le_len (s : Str) : s.length ≤ s.len := by
  unfold Str.len
  induction s with
  | nil => simp
  | cons c s ih => have := encChar_length_pos c; simp only [Str.bytes_cons, List.length_append, List.length_cons] at *; omega

@[simp] theorem Str.len_nil : Str.len [] = 0 := rfl
theorem Str.len_cons (c : Char) (s : Str) :
    Str.len (c :: s) = (String.utf8EncodeChar c).length + Str.len s := by simp [Str.len]
theorem Str.len_append (s t : Str) : Str.len (s ++ t) = Str.len s + Str.len t := by simp [Str.len]

/-- Decoding a concatenation of a valid and an arbitrary part is not used; but decoding the
UTF-8 of an ASCII byte list is: every byte below 128 is its own character. -/
theorem fromUtf8_ascii {bs : Bytes} (h : ∀ b ∈ bs, b.toNat < 128) :
    fromUtf8 bs = some (bs.map fun b => Char.ofNat b.toNat) := by
  rw [fromUtf8_eq_some, Str.bytes_of_ascii]
  · rw [List.map_map]
    conv_rhs => rw [← List.map_id bs]
    apply List.map_congr_left
    intro b hb
    have h1 := h b hb
    simp only [Function.comp, id]
    rw [charOfNat_toNat (by omega)]; simp
  · intro c hc
    rw [List.mem_map] at hc
    obtain ⟨b, hb, rfl⟩ := hc
    have h1 := h b hb
    rw [charOfNat_toNat (by omega)]; exact h1

/-! ## Big-endian numbers -/

@[simp] theorem beBytes_length (n x : Nat) : (beBytes n x).length = n := by
  induction n generalizing x with
  | zero => rfl
  | succ n ih => simp [beBytes, ih]

theorem beVal_foldl (bs : Bytes) (a : Nat) :
    bs.foldl (fun a b => a * 256 + b.toNat) a = a * 256 ^ bs.length + beVal bs := by
  induction bs generalizing a with
  | nil => simp [beVal]
  | cons b bs ih =>
    unfold beVal
    rw [List.foldl_cons, List.foldl_cons, ih, ih (0 * 256 + b.toNat), List.length_cons]
    ring

@[simp] theorem beVal_nil : beVal [] = 0 := rfl
theorem beVal_cons (b : UInt8) (bs : Bytes) :
    beVal (b :: bs) = b.toNat * 256 ^ bs.length + beVal bs := by
  show (b :: bs).foldl (fun a b => a * 256 + b.toNat) 0 = _
  rw [List.foldl_cons, beVal_foldl]; ring

theorem beVal_append (xs ys : Bytes) :
    beVal (xs ++ ys) = beVal xs * 256 ^ ys.length + beVal ys := by
  show (xs ++ ys).foldl (fun a b => a * 256 + b.toNat) 0 = _
  rw [List.foldl_append, beVal_foldl]; rfl

theorem beVal_lt (bs : Bytes) : beVal bs < 256 ^ bs.length := by
  induction bs with
  | nil => simp
  | cons b bs ih =>
    rw [beVal_cons, List.length_cons, Nat.pow_succ]
    have := b.toNat_lt
    have h2 : b.toNat * 256 ^ bs.length ≤ 255 * 256 ^ bs.length := Nat.mul_le_mul_right _ (by omega)
    omega

theorem beVal_beBytes {n x : Nat} (h : x < 256 ^ n) : beVal (beBytes n x) = x := by
  induction n generalizing x with
  | zero => simp at h; subst h; rfl
  | succ n ih =>
    rw [beBytes, beVal_cons, ih (Nat.mod_lt _ (by positivity)), beBytes_length, UInt8.toNat_ofNat',
      Nat.mod_eq_of_lt, Nat.mul_comm, Nat.div_add_mod]
    rw [Nat.div_lt_iff_lt_mul (by positivity)]
    rw [Nat.pow_succ] at h
    omega

theorem beBytes_beVal (bs : Bytes) : beBytes bs.length (beVal bs) = bs := by
  induction bs with
  | nil => rfl
  | cons b bs ih =>
    have h := beVal_lt bs
    rw [List.length_cons, beBytes, beVal_cons]
    congr 1
    · rw [Nat.mul_comm, Nat.mul_add_div (by positivity), Nat.div_eq_of_lt h]
      simp
    · rw [Nat.mul_comm, Nat.mul_add_mod, Nat.mod_eq_of_lt h, ih]

theorem beBytes_beVal' {bs : Bytes} {n : Nat} (h : bs.length = n) : beBytes n (beVal bs) = bs :=
  h ▸ beBytes_beVal bs

theorem beBytes_inj {n x y : Nat} (hx : x < 256 ^ n) (hy : y < 256 ^ n)
    (h : beBytes n x = beBytes n y) : x = y := by
  have := congrArg beVal h
  rwa [beVal_beBytes hx, beVal_beBytes hy] at this

@[simp] theorem be64_length (x : UInt64) : (be64 x).length = 8 := beBytes_length ..

theorem be64_inj {x y : UInt64} (h : be64 x = be64 y) : x = y := by
  apply UInt64.toNat_inj.1
  have hx := x.toNat_lt
  have hy := y.toNat_lt
  exact beBytes_inj (n := 8) (by norm_num; omega) (by norm_num; omega) h

theorem beVal_be64 (x : UInt64) : beVal (be64 x) = x.toNat := by
  have hx := x.toNat_lt
  exact beVal_beBytes (n := 8) (by norm_num; omega)

theorem u32Bytes_eq_some {n : Nat} {bs : Bytes} (h : u32Bytes n = some bs) :
    n < 2 ^ 32 ∧ bs = beBytes 4 n := by
  unfold u32Bytes at h
  split at h
  · exact ⟨‹_›, (Option.some.inj h).symm⟩
  · simp at h

/-! ## Indexing and slicing -/

section
variable {ε : Type}

theorem idx_eq_ok {bs : Bytes} {i : Nat} {b : UInt8} :
    (idx bs i : Outcome ε UInt8) = .ok b ↔ bs[i]? = some b := by
  unfold idx
  cases bs[i]? <;> simp

theorem slice_eq_ok {bs r : Bytes} {a b : Nat} :
    (slice bs a b : Outcome ε Bytes) = .ok r ↔ a ≤ b ∧ b ≤ bs.length ∧ r = (bs.take b).drop a := by
  unfold slice
  split <;> simp [*, eq_comm]
  omega

theorem sliceFrom_eq_ok {bs r : Bytes} {a : Nat} :
    (sliceFrom bs a : Outcome ε Bytes) = .ok r ↔ a ≤ bs.length ∧ r = bs.drop a := by
  unfold sliceFrom
  split <;> simp [*, eq_comm]

theorem copyFromSlice_eq_ok {n : Nat} {bs : Bytes} {r : Arr n} :
    (copyFromSlice n bs : Outcome ε (Arr n)) = .ok r ↔ r.1 = bs := by
  unfold copyFromSlice
  constructor
  · intro h
    split at h
    · cases h; rfl
    · cases h
  · rintro h
    subst h
    rw [dif_pos r.2]

theorem slice_append {xs ys zs : Bytes} {a b : Nat} (ha : xs.length = a) (hb : a + ys.length = b) :
    (slice (xs ++ (ys ++ zs)) a b : Outcome ε Bytes) = .ok ys := by
  subst ha hb
  rw [slice_eq_ok]
  refine ⟨by omega, by simp, ?_⟩
  rw [← List.append_assoc, List.take_append_of_le_length (by simp), List.take_of_length_le (by simp)]
  simp

end

end Stacks

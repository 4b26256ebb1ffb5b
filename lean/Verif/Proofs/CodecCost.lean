import Verif.Model.CodecCost
import Verif.Proofs.B58

/-! Helper lemmas about the counting versions of the Base58 and C32 codecs. -/

namespace Stacks
namespace Steps
variable {ε α β : Type}

theorem bind_snd (x : Steps ε α) (f : α → Steps ε β) : (x >>= f).2 = x.2 >>= fun a => (f a).2 := by
  obtain ⟨c, o⟩ := x; cases o <;> rfl

/-- The steps taken after a result. -/
def after (o : Outcome ε α) (f : α → Nat) : Nat :=
  match o with
  | .ok a => f a
  | _ => 0

@[simp] theorem after_ok (a : α) (f : α → Nat) : after (.ok a : Outcome ε α) f = f a := rfl
@[simp] theorem after_err (e : ε) (f : α → Nat) : after (.err e) f = 0 := rfl
@[simp] theorem after_panic (f : α → Nat) : after (.panic : Outcome ε α) f = 0 := rfl

theorem bind_fst (x : Steps ε α) (f : α → Steps ε β) :
    (x >>= f).1 = x.1 + after x.2 fun a => (f a).1 := by
  obtain ⟨c, o⟩ := x; cases o <;> rfl

@[simp] theorem free_snd (o : Outcome ε α) : (free o).2 = o := rfl
@[simp] theorem free_fst (o : Outcome ε α) : (free o).1 = 0 := rfl
@[simp] theorem tick_snd (n : Nat) : (tick n : Steps ε Unit).2 = .ok () := rfl
@[simp] theorem tick_fst (n : Nat) : (tick n : Steps ε Unit).1 = n := rfl
@[simp] theorem pure_snd (a : α) : (pure a : Steps ε α).2 = .ok a := rfl
@[simp] theorem pure_fst (a : α) : (pure a : Steps ε α).1 = 0 := rfl

end Steps

open Steps Spec

/-! ## C32 -/

namespace C32

theorem encodeDrainS_snd (encoded : Bytes) (buff : UInt32) (bits : Nat) :
    (encodeDrainS encoded buff bits).2 = encodeDrain encoded buff bits := by
  induction bits using Nat.strong_induction_on generalizing encoded buff with
  | _ bits ih =>
    unfold encodeDrainS encodeDrain
    by_cases h : bits ≥ 5
    · rw [if_pos h, if_pos h]
      simp only [bind_snd, tick_snd, free_snd, Outcome.ok_bind]
      simp only [ih (bits - 5) (by omega)]
    · rw [if_neg h, if_neg h]; rfl

theorem encodeLoopS_snd (l : Bytes) : ∀ (encoded : Bytes) (buff : UInt32) (bits : Nat),
    (encodeLoopS encoded buff bits l).2 = encodeLoop encoded buff bits l := by
  induction l with
  | nil => intros; rfl
  | cons b l ih =>
    intro encoded buff bits
    simp only [encodeLoopS, encodeLoop, bind_snd, tick_snd, free_snd, Outcome.ok_bind, encodeDrainS_snd, ih]

theorem pushPerLeadingZeroS_eq (z : UInt8) (l : Bytes) :
    (pushPerLeadingZeroS z l).2 = .ok (pushPerLeadingZero z l) ∧ (pushPerLeadingZeroS z l).1 ≤ l.length := by
  induction l with
  | nil => exact ⟨rfl, Nat.le_refl _⟩
  | cons b l ih =>
    unfold pushPerLeadingZeroS pushPerLeadingZero
    obtain ⟨h1, h2⟩ := ih
    by_cases hb : b == 0
    · simp only [hb, if_true, bind_snd, bind_fst, after_ok, tick_snd, tick_fst, Outcome.ok_bind, h1, pure_snd,
        pure_fst, List.length_cons]
      exact ⟨trivial, by omega⟩
    · simp only [hb, bind_snd, bind_fst, after_ok, tick_snd, tick_fst, Outcome.ok_bind, List.length_cons]
      exact ⟨rfl, by simp⟩

theorem c32EncodeS_snd (data : Bytes) : (c32EncodeS data).2 = c32Encode data := by
  unfold c32EncodeS c32Encode
  simp only [bind_snd, encodeLoopS_snd, free_snd, popWhileEqS, tick_snd, pure_snd, Outcome.ok_bind,
    (pushPerLeadingZeroS_eq _ _).1]

theorem decodeLookupS_snd (l : Bytes) : (decodeLookupS l).2 = decodeLookup l := by
  induction l with
  | nil => rfl
  | cons b l ih =>
    unfold decodeLookupS decodeLookup
    simp only [bind_snd, tick_snd, Outcome.ok_bind]
    split
    · rfl
    · split
      · simp only [bind_snd, ih, pure_snd]; rfl
      · rfl

theorem decodeDrainS_snd (decoded : Bytes) (carry : UInt16) (bits : Nat) :
    (decodeDrainS decoded carry bits).2 = .ok (decodeDrain decoded carry bits) := by
  induction bits using Nat.strong_induction_on generalizing decoded carry with
  | _ bits ih =>
    unfold decodeDrainS decodeDrain
    by_cases h : bits ≥ 8
    · rw [if_pos h, if_pos h]
      simp only [bind_snd, tick_snd, Outcome.ok_bind]
      rw [ih (bits - 8) (by omega)]
    · rw [if_neg h, if_neg h]; rfl

theorem decodeLoopS_snd (l : Bytes) : ∀ (decoded : Bytes) (carry : UInt16) (bits : Nat),
    (decodeLoopS decoded carry bits l).2 = decodeLoop decoded carry bits l := by
  induction l with
  | nil => intros; rfl
  | cons b l ih =>
    intro decoded carry bits
    simp only [decodeLoopS, decodeLoop, bind_snd, tick_snd, free_snd, Outcome.ok_bind, decodeDrainS_snd, ih]

theorem c32DecodeS_snd (s : Str) : (c32DecodeS s).2 = c32Decode s := by
  unfold c32DecodeS c32Decode
  split
  · rfl
  · simp only [bind_snd, decodeLookupS_snd, decodeLoopS_snd, free_snd, popWhileEqS, tick_snd, pure_snd,
      Outcome.ok_bind, (pushPerLeadingZeroS_eq _ _).1]
    rfl

/-! ### Steps -/

theorem encodeDrainS_fst {encoded : Bytes} {buff : UInt32} {bits : Nat} {e : Bytes} {b : UInt32} {n : Nat}
    (h : encodeDrain encoded buff bits = .ok (e, b, n)) :
    5 * (encodeDrainS encoded buff bits).1 + n = bits ∧
      e.length = encoded.length + (encodeDrainS encoded buff bits).1 := by
  induction bits using Nat.strong_induction_on generalizing encoded buff with
  | _ bits ih =>
    unfold encodeDrain at h
    unfold encodeDrainS
    by_cases hb : bits ≥ 5
    · rw [if_pos hb] at h ⊢
      obtain ⟨ch, h1, h2⟩ := Outcome.bind_eq_ok.1 h
      obtain ⟨h3, h4⟩ := ih (bits - 5) (by omega) h2
      simp only [bind_fst, after_ok, tick_fst, tick_snd, free_fst, free_snd, h1]
      simp only [List.length_append, List.length_singleton] at h4
      omega
    · rw [if_neg hb] at h ⊢
      simp only [Outcome.ok.injEq, Prod.mk.injEq] at h
      obtain ⟨rfl, rfl, rfl⟩ := h
      simp

theorem encodeLoopS_fst {l : Bytes} : ∀ {encoded : Bytes} {buff : UInt32} {bits : Nat} {e : Bytes} {b : UInt32}
    {n : Nat}, encodeLoop encoded buff bits l = .ok (e, b, n) →
    5 * (encodeLoopS encoded buff bits l).1 + n = bits + 13 * l.length ∧
      e.length + l.length = encoded.length + (encodeLoopS encoded buff bits l).1 := by
  induction l with
  | nil =>
    intro encoded buff bits e b n h
    simp only [encodeLoop, Outcome.ok.injEq, Prod.mk.injEq] at h
    obtain ⟨rfl, rfl, rfl⟩ := h
    simp [encodeLoopS]
  | cons x l ih =>
    intro encoded buff bits e b n h
    unfold encodeLoop at h
    obtain ⟨sh, h1, h2⟩ := Outcome.bind_eq_ok.1 h
    obtain ⟨⟨e', b', n'⟩, h3, h4⟩ := Outcome.bind_eq_ok.1 h2
    obtain ⟨g1, g2⟩ := encodeDrainS_fst h3
    obtain ⟨g3, g4⟩ := ih h4
    unfold encodeLoopS
    simp only [bind_fst, after_ok, tick_fst, tick_snd, free_fst, free_snd, h1, encodeDrainS_snd, h3, List.length_cons]
    omega

theorem popWhileEq_length_le (z : UInt8) (v : Bytes) : (popWhileEq z v).length ≤ v.length := by
  unfold popWhileEq
  rw [List.length_reverse]
  have := (List.dropWhile_suffix (l := v.reverse) (· == z)).length_le
  simpa using this

theorem c32EncodeS_fst (data : Bytes) :
    data.length ≤ (c32EncodeS data).1 ∧ (c32EncodeS data).1 ≤ 6 * data.length + 2 := by
  obtain ⟨ds, buff, bits, h1, h2, h3, h4, h5, h6⟩ := encodeLoop_spec data.reverse [] 0 0 (by omega) (by decide)
  have hbuff : buff.toNat < 32 := by
    have : 2 ^ bits ≤ 2 ^ 5 := Nat.pow_le_pow_right (by omega) (by omega)
    omega
  obtain ⟨g1, g2⟩ := encodeLoopS_fst h1
  simp only [List.length_reverse, List.length_nil, Nat.zero_add] at g1 g2
  obtain ⟨e, he, hel⟩ : ∃ e : Bytes, (if bits > 0 then do
          let ch ← idx alphabet (buff &&& 0x1F).toNat
          pure (([] ++ ds.map alph) ++ [ch])
        else pure ([] ++ ds.map alph) : Outcome Error Bytes) = .ok e ∧
      e.length ≤ ([] ++ ds.map alph).length + 1 := by
    by_cases hb : bits > 0
    · have hm : (buff &&& 0x1F).toNat = buff.toNat := by rw [and31, Nat.mod_eq_of_lt hbuff]
      rw [if_pos hb, hm, idx_alphabet hbuff]
      exact ⟨_, rfl, by simp⟩
    · rw [if_neg hb]; exact ⟨_, rfl, by simp⟩
  have hz := (pushPerLeadingZeroS_eq (alph 0) data).2
  have hp := popWhileEq_length_le (alph 0) e
  unfold c32EncodeS
  simp only [bind_fst, after_ok, bind_snd, encodeLoopS_snd, h1, free_fst, free_snd, he,
    idx_alphabet (by omega : 0 < 32), popWhileEqS, tick_fst, tick_snd, pure_fst, pure_snd, Outcome.ok_bind,
    (pushPerLeadingZeroS_eq _ _).1]
  omega

theorem decodeLookupS_fst (l : Bytes) : (decodeLookupS l).1 ≤ l.length := by
  induction l with
  | nil => exact Nat.le_refl _
  | cons b l ih =>
    unfold decodeLookupS
    simp only [bind_fst, after_ok, tick_fst, tick_snd, List.length_cons]
    split
    · simp
    · split
      · simp only [bind_fst]
        cases (decodeLookupS l).2 <;> simp <;> omega
      · simp

theorem decodeLookupS_fst_ok {l r : Bytes} (h : decodeLookup l = .ok r) :
    (decodeLookupS l).1 = l.length ∧ r.length = l.length := by
  induction l generalizing r with
  | nil => simp only [decodeLookup, Outcome.ok.injEq] at h; subst h; exact ⟨rfl, rfl⟩
  | cons b l ih =>
    unfold decodeLookup at h
    unfold decodeLookupS
    simp only [bind_fst, after_ok, tick_fst, tick_snd, List.length_cons]
    simp only [] at h
    split at h
    · cases h
    · rename_i h0
      split at h
      · rename_i h1
        obtain ⟨tl, h2, h3⟩ := Outcome.bind_eq_ok.1 h
        simp only [Outcome.pure_def, Outcome.ok.injEq] at h3
        subst h3
        obtain ⟨g1, g2⟩ := ih h2
        rw [if_neg h0, if_pos h1]
        simp only [bind_fst, after_ok, decodeLookupS_snd, h2, pure_fst, List.length_cons]
        omega
      · cases h

theorem decodeDrainS_fst (decoded : Bytes) (carry : UInt16) (bits : Nat) :
    8 * (decodeDrainS decoded carry bits).1 + (decodeDrain decoded carry bits).2.2 = bits ∧
      (decodeDrain decoded carry bits).1.length = decoded.length + (decodeDrainS decoded carry bits).1 := by
  induction bits using Nat.strong_induction_on generalizing decoded carry with
  | _ bits ih =>
    unfold decodeDrain decodeDrainS
    by_cases hb : bits ≥ 8
    · rw [if_pos hb, if_pos hb]
      obtain ⟨h3, h4⟩ := ih (bits - 8) (by omega) (decoded ++ [(carry &&& 0xFF).toUInt8]) (carry >>> 8)
      simp only [bind_fst, after_ok, tick_fst, tick_snd]
      simp only [List.length_append, List.length_singleton] at h4
      omega
    · rw [if_neg hb, if_neg hb]; simp

theorem decodeLoopS_fst {l : Bytes} : ∀ {decoded : Bytes} {carry : UInt16} {bits : Nat} {d : Bytes} {c : UInt16}
    {n : Nat}, decodeLoop decoded carry bits l = .ok (d, c, n) →
    8 * (decodeLoopS decoded carry bits l).1 + n = bits + 13 * l.length ∧
      d.length + l.length = decoded.length + (decodeLoopS decoded carry bits l).1 := by
  induction l with
  | nil =>
    intro decoded carry bits e b n h
    simp only [decodeLoop, Outcome.ok.injEq, Prod.mk.injEq] at h
    obtain ⟨rfl, rfl, rfl⟩ := h
    simp [decodeLoopS]
  | cons x l ih =>
    intro decoded carry bits e b n h
    unfold decodeLoop at h
    obtain ⟨sh, h1, h2⟩ := Outcome.bind_eq_ok.1 h
    obtain ⟨g1, g2⟩ := decodeDrainS_fst decoded (carry ||| sh) (bits + 5)
    unfold decodeLoopS
    simp only [bind_fst, after_ok, tick_fst, tick_snd, free_fst, free_snd, h1, decodeDrainS_snd, List.length_cons]
    generalize decodeDrain decoded (carry ||| sh) (bits + 5) = D at g1 g2 h2 ⊢
    obtain ⟨D1, D2, D3⟩ := D
    simp only [] at g1 g2 h2 ⊢
    obtain ⟨g3, g4⟩ := ih h2
    omega

/-- On accepted strings every character is looked at twice. -/
theorem c32DecodeS_fst_ok {s : Str} {data : Bytes} (h : c32Decode s = .ok data) :
    2 * s.length ≤ (c32DecodeS s).1 ∧ (c32DecodeS s).1 ≤ 5 * s.length + 2 := by
  have hall := c32Decode_ok_iff.1 ⟨data, h⟩
  have hasc := ascii_of_c32 hall
  have hlook := decodeLookup_ok (r := s.reverse) (fun c hc => hall c (List.mem_reverse.1 hc))
  have hlt : ∀ v ∈ s.filterMap c32Value, v < 32 := by
    intro v hv
    obtain ⟨c, _, hc⟩ := List.mem_filterMap.1 hv
    exact c32Value_lt hc
  rw [List.filterMap_reverse] at hlook
  generalize s.filterMap c32Value = vs at hlook hlt
  have hlt' : ∀ v ∈ vs.reverse, v < 32 := fun v hv => hlt v (List.mem_reverse.1 hv)
  obtain ⟨ds, carry, bits, h1, h2, h3, h4, h5, h6⟩ := decodeLoop_spec vs.reverse [] 0 0 (by omega) (by decide) hlt'
  have hcarry : carry.toNat < 256 := by
    have : 2 ^ bits ≤ 2 ^ 8 := Nat.pow_le_pow_right (by omega) (by omega)
    omega
  obtain ⟨k1, k2⟩ := decodeLookupS_fst_ok hlook
  simp only [List.length_map, List.length_reverse] at k1 k2
  obtain ⟨g1, g2⟩ := decodeLoopS_fst h1
  simp only [List.length_map, List.length_reverse, List.length_nil, Nat.zero_add] at g1 g2
  obtain ⟨e, he, hel⟩ : ∃ e : Bytes, (if bits > 0 then do
          let b ← u8FromU16 carry
          pure (([] ++ ds.map UInt8.ofNat) ++ [b])
        else pure ([] ++ ds.map UInt8.ofNat) : Outcome Error Bytes) = .ok e ∧
      e.length ≤ ([] ++ ds.map UInt8.ofNat).length + 1 := by
    by_cases hb : bits > 0
    · rw [if_pos hb, u8FromU16, if_pos hcarry]; exact ⟨_, rfl, by simp⟩
    · rw [if_neg hb]; exact ⟨_, rfl, by simp⟩
  have hz := (pushPerLeadingZeroS_eq 0 ((vs.reverse.map UInt8.ofNat).reverse)).2
  have hp := popWhileEq_length_le 0 e
  unfold c32DecodeS
  rw [Str.isAscii_iff.2 hasc]
  simp only [Bool.not_true, Bool.false_eq_true, if_false]
  rw [Str.bytes_of_ascii hasc, ← List.map_reverse]
  simp only [bind_fst, after_ok, bind_snd, decodeLookupS_snd, hlook, decodeLoopS_snd, h1, free_fst, free_snd, he,
    popWhileEqS, tick_fst, tick_snd, pure_fst, pure_snd, Outcome.ok_bind, (pushPerLeadingZeroS_eq _ _).1, k1]
  simp only [List.length_append, List.length_map, List.length_nil, List.length_reverse] at g2 hel hz ⊢
  omega

theorem c32DecodeS_fst (s : Str) : (c32DecodeS s).1 ≤ 5 * s.length + 2 := by
  rcases h : c32Decode s with data | e | _
  · exact (c32DecodeS_fst_ok h).2
  · by_cases hasc : ∀ c ∈ s, c.toNat < 128
    · have hn : ¬ ∀ c ∈ s, (c32Value c).isSome := by
        intro hall
        obtain ⟨bs, hbs⟩ := c32Decode_ok_iff.2 hall
        rw [h] at hbs; cases hbs
      obtain ⟨c, hc⟩ : ∃ c, s.reverse.find? (fun c => (c32Value c).isNone) = some c := by
        rw [← Option.isSome_iff_exists, List.find?_isSome]
        by_contra hcon
        apply hn
        intro c hc
        by_contra hcs
        exact hcon ⟨c, List.mem_reverse.2 hc, by simpa using hcs⟩
      have hbad := decodeLookup_bad (fun c hc => hasc c (List.mem_reverse.1 hc)) hc
      have hl := decodeLookupS_fst (s.reverse.map fun c => UInt8.ofNat c.toNat)
      unfold c32DecodeS
      rw [Str.isAscii_iff.2 hasc]
      simp only [Bool.not_true, Bool.false_eq_true, if_false]
      rw [Str.bytes_of_ascii hasc, ← List.map_reverse]
      simp only [bind_fst, after_err, decodeLookupS_snd, hbad]
      simp only [List.length_map, List.length_reverse] at hl
      omega
    · have : s.isAscii = false := by
        rcases hs : s.isAscii with _ | _
        · rfl
        · exact absurd (Str.isAscii_iff.1 hs) hasc
      unfold c32DecodeS
      rw [this]; simp
  · exact absurd h (c32Decode_not_panic s)

end C32

/-! ## Base58 -/

namespace B58

theorem encodeLoopS_step {buff temp : Bytes} {rem : Nat} {ch : UInt8} (hb : buff ≠ []) (result : Str)
    (h1 : divLoop buff 0 [] = .ok (temp, rem)) (h2 : (idx alphabet rem : Outcome Error UInt8) = .ok ch) :
    (encodeLoopS buff result).1 = 1 + (divLoopS buff 0 []).1 +
        (encodeLoopS temp (result ++ [Char.ofNat ch.toNat])).1 ∧
      (encodeLoopS buff result).2 = (encodeLoopS temp (result ++ [Char.ofNat ch.toNat])).2 := by
  rw [← divLoopS_snd] at h1
  rw [encodeLoopS, dif_neg hb]
  simp only [bind_fst, bind_snd, tick_fst, tick_snd, after_ok, Outcome.ok_bind]
  split
  · rename_i t r ht
    rw [h1] at ht
    simp only [Outcome.ok.injEq, Prod.mk.injEq] at ht
    obtain ⟨rfl, rfl⟩ := ht
    simp only [bind_fst, bind_snd, free_fst, free_snd, h2, after_ok, Outcome.ok_bind, and_true]
    omega
  · rename_i e ht; rw [h1] at ht; cases ht
  · rename_i ht; rw [h1] at ht; cases ht

theorem divLoop_ok (buff : Bytes) : ∃ temp rem ch, divLoop buff 0 [] = .ok (temp, rem) ∧
    (idx alphabet rem : Outcome Error UInt8) = .ok ch ∧ temp.head? ≠ some 0 ∧
    beVal temp = beVal buff / 58 := by
  obtain ⟨temp, h1, h2, h3⟩ := divLoop_spec buff 0 [] (by omega) (by simp)
  simp only [beVal_nil, Nat.zero_mul, Nat.zero_add] at h1 h3
  obtain ⟨ch, e1, e2⟩ := idx_alphabet (Nat.mod_lt (beVal buff) (by omega : 0 < 58))
  exact ⟨temp, _, ch, h1, e1, h2, h3⟩

theorem encodeLoop_step' {buff temp : Bytes} {rem : Nat} {ch : UInt8} (hb : buff ≠ []) (result : Str)
    (h1 : divLoop buff 0 [] = .ok (temp, rem)) (h2 : (idx alphabet rem : Outcome Error UInt8) = .ok ch) :
    encodeLoop buff result = encodeLoop temp (result ++ [Char.ofNat ch.toNat]) := by
  rw [encodeLoop, dif_neg hb]
  split
  · rename_i t r ht
    rw [h1] at ht
    simp only [Outcome.ok.injEq, Prod.mk.injEq] at ht
    obtain ⟨rfl, rfl⟩ := ht
    rw [h2]
  · rename_i e ht; rw [h1] at ht; cases ht
  · rename_i ht; rw [h1] at ht; cases ht

theorem encodeLoopS_snd (n : Nat) : ∀ (buff : Bytes) (result : Str), loopMeasure buff = n →
    (encodeLoopS buff result).2 = encodeLoop buff result := by
  induction n using Nat.strong_induction_on with
  | _ n ih =>
    intro buff result hn
    by_cases hb : buff = []
    · subst hb
      rw [encodeLoopS, encodeLoop, dif_pos rfl, dif_pos rfl]; rfl
    · obtain ⟨temp, rem, ch, h1, h2, _, _⟩ := divLoop_ok buff
      rw [(encodeLoopS_step hb result h1 h2).2, encodeLoop_step' hb result h1 h2]
      exact ih _ (hn ▸ loopMeasure_lt hb h1) temp _ rfl

theorem b58EncodeS_snd (data : Bytes) : (b58EncodeS data).2 = b58Encode data := by
  unfold b58EncodeS b58Encode
  simp only [bind_snd, tick_snd, free_snd, pure_snd, Outcome.ok_bind, encodeLoopS_snd _ data [] rfl]
  rfl

theorem mulAddS_snd (l : Bytes) : ∀ carry, (mulAddS l carry).2 = mulAdd l carry := by
  induction l with
  | nil => intro _; rfl
  | cons b l ih =>
    intro carry
    simp only [mulAddS, mulAdd, bind_snd, tick_snd, free_snd, pure_snd, Outcome.ok_bind, ih]
    rfl

theorem decodeLoopS_snd (s : Str) : ∀ buff, (decodeLoopS buff s).2 = decodeLoop buff s := by
  induction s with
  | nil => intro _; rfl
  | cons c s ih =>
    intro buff
    simp only [decodeLoopS, decodeLoop, bind_snd, tick_snd, free_snd, Outcome.ok_bind]
    congr 1
    funext index
    split
    · rfl
    · simp only [bind_snd, free_snd, mulAddS_snd, ih]

theorem trimS_snd (l : Bytes) : (trimS l).2 = .ok (l.dropWhile (· == 0)) := by
  induction l with
  | nil => rfl
  | cons b l ih =>
    unfold trimS
    by_cases hb : (b == 0) = true
    · rw [if_pos hb, List.dropWhile_cons_of_pos (p := fun x => x == 0) hb]
      simp only [bind_snd, tick_snd, Outcome.ok_bind, ih]
    · rw [if_neg hb, List.dropWhile_cons_of_neg (p := fun x => x == 0) hb]; rfl

theorem b58DecodeS_snd (s : Str) : (b58DecodeS s).2 = b58Decode s := by
  unfold b58DecodeS b58Decode
  split
  · rfl
  · simp only [bind_snd, tick_snd, Outcome.ok_bind, decodeLoopS_snd, trimS_snd, pure_snd]
    rfl

/-! ### Steps -/

theorem divLoopS_fst {l : Bytes} : ∀ {rem : Nat} {temp t : Bytes} {r : Nat}, divLoop l rem temp = .ok (t, r) →
    (divLoopS l rem temp).1 = l.length ∧ t.length ≤ temp.length + l.length := by
  induction l with
  | nil =>
    intro rem temp t r h
    simp only [divLoop, Outcome.ok.injEq, Prod.mk.injEq] at h
    obtain ⟨rfl, rfl⟩ := h
    simp [divLoopS]
  | cons b l ih =>
    intro rem temp t r h
    unfold divLoop at h
    obtain ⟨cur, h1, h2⟩ := Outcome.bind_eq_ok.1 h
    obtain ⟨g1, g2⟩ := ih h2
    unfold divLoopS
    simp only [bind_fst, tick_fst, tick_snd, free_fst, free_snd, h1, after_ok, g1, List.length_cons]
    refine ⟨by omega, ?_⟩
    have : (if (!temp.isEmpty || cur / 58 != 0) = true then temp ++ [UInt8.ofNat (cur / 58)] else temp).length ≤
        temp.length + 1 := by
      split <;> simp
    omega

/-- With `k` base-58 digits to produce, at most `k` (at least one) divisions of the buffer. -/
theorem encodeLoopS_le (k : Nat) : ∀ (buff : Bytes) (result : Str), beVal buff < 58 ^ (k + 1) →
    (encodeLoopS buff result).1 ≤ (buff.length + 1) * (k + 1) := by
  induction k with
  | zero =>
    intro buff result h
    by_cases hb : buff = []
    · subst hb; rw [encodeLoopS, dif_pos rfl]; simp
    · obtain ⟨temp, rem, ch, h1, h2, h3, h4⟩ := divLoop_ok buff
      have h0 : temp = [] := by
        by_contra hne
        have := head_ne_zero_pos hne h3
        rw [h4, Nat.div_eq_of_lt (by simpa using h)] at this
        omega
      rw [(encodeLoopS_step hb result h1 h2).1, (divLoopS_fst h1).1, h0, encodeLoopS, dif_pos rfl]
      simp only [pure_fst]; omega
  | succ k ih =>
    intro buff result h
    by_cases hb : buff = []
    · subst hb; rw [encodeLoopS, dif_pos rfl]; simp
    · obtain ⟨temp, rem, ch, h1, h2, h3, h4⟩ := divLoop_ok buff
      obtain ⟨g1, g2⟩ := divLoopS_fst h1
      have hi := ih temp (result ++ [Char.ofNat ch.toNat]) (by
        rw [h4]; apply Nat.div_lt_of_lt_mul; rw [pow_succ] at h; omega)
      rw [(encodeLoopS_step hb result h1 h2).1, g1]
      have : (temp.length + 1) * (k + 1) ≤ (buff.length + 1) * (k + 1) := Nat.mul_le_mul_right _ (by simpa using g2)
      calc _ ≤ 1 + buff.length + (buff.length + 1) * (k + 1) := by omega
        _ = _ := by ring

/-- A number of at least `m + 1` bytes: every division removes at most one of them. -/
theorem encodeLoopS_ge (m : Nat) : ∀ (buff : Bytes) (result : Str), 256 ^ m ≤ beVal buff →
    (m + 1) * (m + 4) ≤ 2 * (encodeLoopS buff result).1 := by
  induction m with
  | zero =>
    intro buff result h
    have hb : buff ≠ [] := by intro h0; simp [h0] at h
    have hl := List.length_pos_iff.2 hb
    obtain ⟨temp, rem, ch, h1, h2, h3, h4⟩ := divLoop_ok buff
    rw [(encodeLoopS_step hb result h1 h2).1, (divLoopS_fst h1).1]
    omega
  | succ m ih =>
    intro buff result h
    have hb : buff ≠ [] := by
      intro h0; rw [h0] at h
      have : 0 < 256 ^ (m + 1) := by positivity
      simp at h
    have hl : m + 1 < buff.length := by
      by_contra hle
      have h1 := beVal_lt buff
      have h2 : 256 ^ buff.length ≤ 256 ^ (m + 1) := Nat.pow_le_pow_right (by omega) (by omega)
      omega
    obtain ⟨temp, rem, ch, h1, h2, h3, h4⟩ := divLoop_ok buff
    have hi := ih temp (result ++ [Char.ofNat ch.toNat]) (by
      rw [h4, Nat.le_div_iff_mul_le (by omega)]
      calc 256 ^ m * 58 ≤ 256 ^ m * 256 := Nat.mul_le_mul_left _ (by omega)
        _ = 256 ^ (m + 1) := by rw [pow_succ]
        _ ≤ _ := h)
    rw [(encodeLoopS_step hb result h1 h2).1, (divLoopS_fst h1).1]
    have e : (m + 1 + 1) * (m + 1 + 4) = (m + 1) * (m + 4) + 2 * (m + 3) := by ring
    omega

theorem countLeading_le (z : UInt8) (l : Bytes) : countLeading z l ≤ l.length := by
  induction l with
  | nil => exact Nat.le_refl _
  | cons b l ih =>
    unfold countLeading
    split
    · simpa using ih
    · exact Nat.zero_le _

/-- The characters reserved by `b58_encode` suffice. -/
theorem reserve (n : Nat) : 256 ^ n < 58 ^ (n * 138 / 100 + 1) := by
  have h1 : 256 ^ 100 ≤ 58 ^ 138 := by decide +kernel
  have h2 : (256 ^ n) ^ 100 < (58 ^ (n * 138 / 100 + 1)) ^ 100 := by
    calc (256 ^ n) ^ 100 = (256 ^ 100) ^ n := by rw [← pow_mul, ← pow_mul, Nat.mul_comm]
      _ ≤ (58 ^ 138) ^ n := Nat.pow_le_pow_left h1 n
      _ = 58 ^ (138 * n) := by rw [← pow_mul]
      _ < 58 ^ ((n * 138 / 100 + 1) * 100) := Nat.pow_lt_pow_right (by norm_num) (by omega)
      _ = _ := by rw [pow_mul]
  exact lt_of_pow_lt_pow_left₀ 100 (by positivity) h2

theorem b58EncodeS_fst (data : Bytes) :
    (b58EncodeS data).1 = (encodeLoopS data []).1 + 2 * countLeading 0 data := by
  obtain ⟨r, hr⟩ : ∃ r, encodeLoop data [] = .ok r := by
    by_cases h : 0 < beVal data
    · exact ⟨_, encodeLoop_pos [] h⟩
    · by_cases hd : data = []
      · exact ⟨[], by rw [hd, encodeLoop, dif_pos rfl]⟩
      · exact ⟨_, encodeLoop_zero [] hd (by omega)⟩
  obtain ⟨ch, e1, _⟩ := idx_alphabet (by omega : 0 < 58)
  unfold b58EncodeS
  simp only [bind_fst, tick_fst, tick_snd, free_fst, free_snd, pure_fst, after_ok,
    encodeLoopS_snd _ data [] rfl, hr, e1]
  omega

theorem b58EncodeS_le (data : Bytes) : (b58EncodeS data).1 ≤ 2 * (data.length + 1) ^ 2 := by
  have h1 := encodeLoopS_le (data.length * 138 / 100) data [] ((beVal_lt data).trans (reserve _))
  have h2 := countLeading_le 0 data
  rw [b58EncodeS_fst]
  generalize data.length = n at h1 h2 ⊢
  have hq : 100 * (n * 138 / 100) ≤ 138 * n := by omega
  generalize n * 138 / 100 = q at h1 hq
  have h3 : 100 * ((n + 1) * (q + 1)) ≤ (n + 1) * (138 * n + 100) := by nlinarith
  nlinarith [sq_nonneg (n : ℤ), Nat.le_mul_self n]

theorem b58EncodeS_ge {b : UInt8} (rest : Bytes) (hb : b ≠ 0) :
    (rest.length + 1) * (rest.length + 4) ≤ 2 * (b58EncodeS (b :: rest)).1 := by
  have hb' : b.toNat ≠ 0 := fun h0 => hb (UInt8.toNat_inj.1 h0)
  have h := encodeLoopS_ge rest.length (b :: rest) [] (by
    rw [beVal_cons]
    have : 1 * 256 ^ rest.length ≤ b.toNat * 256 ^ rest.length := Nat.mul_le_mul_right _ (by omega)
    omega)
  rw [b58EncodeS_fst]
  omega

theorem mulAddS_fst {l : Bytes} : ∀ {carry : Nat} {l' : Bytes}, mulAdd l carry = .ok l' →
    (mulAddS l carry).1 = l.length ∧ l'.length = l.length := by
  induction l with
  | nil =>
    intro carry l' h
    simp only [mulAdd, Outcome.ok.injEq] at h
    subst h; exact ⟨rfl, rfl⟩
  | cons b l ih =>
    intro carry l' h
    unfold mulAdd at h
    obtain ⟨c, h1, h2⟩ := Outcome.bind_eq_ok.1 h
    obtain ⟨tl, h3, h4⟩ := Outcome.bind_eq_ok.1 h2
    simp only [Outcome.pure_def, Outcome.ok.injEq] at h4
    subst h4
    obtain ⟨g1, g2⟩ := ih h3
    unfold mulAddS
    simp only [bind_fst, tick_fst, tick_snd, free_fst, free_snd, h1, mulAddS_snd, h3, after_ok, pure_fst, g1,
      List.length_cons, g2]
    exact ⟨by omega, trivial⟩

theorem decodeLoopS_le (s : Str) : ∀ buff, (decodeLoopS buff s).1 ≤ s.length * (buff.length + 1) ∧
    ∀ b, decodeLoop buff s = .ok b → b.length = buff.length ∧
      (decodeLoopS buff s).1 = s.length * (buff.length + 1) := by
  induction s with
  | nil =>
    intro buff
    refine ⟨by simp [decodeLoopS], ?_⟩
    intro b h
    simp only [decodeLoop, Outcome.ok.injEq] at h
    subst h; simp [decodeLoopS]
  | cons c s ih =>
    intro buff
    have hexp : (s.length + 1) * (buff.length + 1) = s.length * (buff.length + 1) + buff.length + 1 := by ring
    rcases hv : b58Value c with _ | v
    · have hd := decodeLoop_bad [] buff c s (by simp) hv
      rw [List.nil_append] at hd
      refine ⟨?_, ?_⟩
      · unfold decodeLoopS
        simp only [bind_fst, tick_fst, tick_snd, free_fst, free_snd, after_ok, List.length_cons]
        by_cases hc : c.toNat < 256
        · rw [lookup hc, hv]
          simp only [Outcome.orPanic_some, after_ok]
          simp only [if_true, free_fst]; omega
        · rw [lookup_none (by omega)]
          simp only [Outcome.orPanic_none, after_panic]; omega
      · intro b h
        rw [hd] at h
        split at h <;> cases h
    · have hv58 := b58Value_lt hv
      have hc := b58Value_ascii hv
      obtain ⟨l', c', h1, h2, _⟩ := mulAdd_spec buff.reverse v hv58
      obtain ⟨g1, g2⟩ := mulAddS_fst h1
      obtain ⟨i1, i2⟩ := ih l'.reverse
      simp only [List.length_reverse] at g1 g2 i1 i2
      rw [g2] at i1 i2
      have hS : (decodeLoopS buff (c :: s)).1 = 1 + (buff.length + (decodeLoopS l'.reverse s).1) := by
        rw [decodeLoopS]
        simp only [bind_fst, tick_fst, tick_snd, free_fst, free_snd, after_ok]
        rw [lookup (by omega), hv]
        simp only [Outcome.orPanic_some, after_ok]
        rw [if_neg (by omega)]
        simp only [bind_fst, free_fst, free_snd, mulAddS_snd]
        rw [if_pos (by omega)]
        simp only [Int.toNat_natCast, after_ok, h1, g1]
        omega
      have hD : decodeLoop buff (c :: s) = decodeLoop l'.reverse s := by
        rw [decodeLoop, lookup (by omega), hv]
        simp only [Outcome.orPanic_some, Outcome.ok_bind]
        rw [if_neg (by omega), if_pos (by omega), Outcome.ok_bind]
        simp only [Int.toNat_natCast, h1, Outcome.ok_bind]
      rw [hS, hD, List.length_cons, hexp]
      refine ⟨by omega, ?_⟩
      intro b hb
      obtain ⟨k1, k2⟩ := i2 b hb
      exact ⟨k1, by omega⟩

theorem trimS_le (l : Bytes) : 2 * (trimS l).1 ≤ l.length * (l.length + 1) := by
  induction l with
  | nil => exact Nat.le_refl _
  | cons b l ih =>
    unfold trimS
    have e : (l.length + 1) * (l.length + 1 + 1) = l.length * (l.length + 1) + 2 * (1 + l.length) := by ring
    split
    · simp only [bind_fst, tick_fst, tick_snd, after_ok, List.length_cons]
      omega
    · simp

theorem trimS_fst (l : Bytes) : ∃ z, z + (l.dropWhile (· == 0)).length = l.length ∧
    2 * (trimS l).1 + z * z = z * (2 * l.length + 1) := by
  induction l with
  | nil => exact ⟨0, rfl, rfl⟩
  | cons b l ih =>
    unfold trimS
    by_cases hb : (b == 0) = true
    · obtain ⟨z, h1, h2⟩ := ih
      rw [if_pos hb, List.dropWhile_cons_of_pos (p := fun x => x == 0) hb]
      refine ⟨z + 1, by rw [List.length_cons]; omega, ?_⟩
      simp only [bind_fst, tick_fst, tick_snd, after_ok, List.length_cons]
      nlinarith
    · rw [if_neg hb, List.dropWhile_cons_of_neg (p := fun x => x == 0) hb]
      exact ⟨0, by omega, by simp⟩

theorem length_le_len (s : Str) : s.length ≤ s.len := by
  unfold Str.len
  induction s with
  | nil => simp
  | cons c s ih =>
    have := encChar_length_pos c
    rw [Str.bytes_cons, List.length_append, List.length_cons]
    omega

theorem b58DecodeS_le (s : Str) : (b58DecodeS s).1 ≤ 2 * (s.len + 1) ^ 2 := by
  unfold b58DecodeS
  split
  · simp
  · have hz := countLeading_le 0x31 s.bytes
    have hn := length_le_len s
    change _ ≤ s.len at hz
    obtain ⟨h1, h2⟩ := decodeLoopS_le s (List.replicate (s.len * 733 / 1000 + 1) 0)
    simp only [List.length_replicate] at h1 h2
    simp only [bind_fst, tick_fst, tick_snd, after_ok, decodeLoopS_snd]
    have htail : 2 * after (decodeLoop (List.replicate (s.len * 733 / 1000 + 1) 0) s) (fun a => (trimS a).1 +
        after (trimS a).2 fun a => (pure (List.replicate (countLeading 0x31 s.bytes) 0 ++ a) : Steps Error Bytes).1) ≤
        (s.len * 733 / 1000 + 1) * (s.len * 733 / 1000 + 1 + 1) := by
      rcases hd : decodeLoop (List.replicate (s.len * 733 / 1000 + 1) 0) s with b | e | _
      · have := trimS_le b
        rw [(h2 b hd).1] at this
        simp only [after_ok, trimS_snd, pure_fst]
        omega
      · simp
      · simp
    generalize after (decodeLoop (List.replicate (s.len * 733 / 1000 + 1) 0) s) (fun a => (trimS a).1 +
        after (trimS a).2 fun a =>
          (pure (List.replicate (countLeading 0x31 s.bytes) 0 ++ a) : Steps Error Bytes).1) = t at htail ⊢
    generalize (decodeLoopS (List.replicate (s.len * 733 / 1000 + 1) 0) s).1 = d at h1 ⊢
    generalize countLeading 0x31 s.bytes = z at hz ⊢
    have hq : 1000 * (s.len * 733 / 1000) ≤ 733 * s.len := by omega
    generalize s.len = n at *
    generalize n * 733 / 1000 = q at *
    generalize s.length = m at *
    have a1 : m * (q + 1 + 1) ≤ n * (q + 2) := Nat.mul_le_mul_right _ hn
    have a2 : 1000 * (n * q) ≤ 733 * (n * n) := by nlinarith
    have a3 : 1000 * (q * q) ≤ 733 * (n * q) := by nlinarith
    have a4 : n ≤ n * n := Nat.le_mul_self n
    have hgoal : 2 * (z + (d + t)) ≤ 4 * (n * n) + 8 * n + 4 := by nlinarith
    calc z + (d + t) ≤ 2 * (n * n) + 4 * n + 2 := by omega
      _ = _ := by ring

theorem b58DecodeS_ge {s : Str} {data : Bytes} (h : b58Decode s = .ok data) :
    733 * s.length ^ 2 ≤ 1000 * (b58DecodeS s).1 := by
  by_cases hs : s = []
  · subst hs; simp
  have hne : s.bytes.isEmpty = false := by
    rcases s with _ | ⟨c, s⟩
    · exact absurd rfl hs
    · have := encChar_length_pos c
      rw [Str.bytes_cons, List.isEmpty_eq_false_iff]
      intro h0
      rw [(List.append_eq_nil_iff.1 h0).1] at this
      simp at this
  unfold b58Decode at h
  rw [hne] at h
  simp only [Bool.false_eq_true, if_false] at h
  obtain ⟨b, hb, _⟩ := Outcome.bind_eq_ok.1 h
  have hl := ((decodeLoopS_le s _).2 b hb).2
  simp only [List.length_replicate] at hl
  unfold b58DecodeS
  rw [hne]
  simp only [Bool.false_eq_true, if_false, bind_fst, tick_fst, tick_snd, after_ok, hl]
  have hn := length_le_len s
  have hq : 733 * s.length ≤ 1000 * (s.len * 733 / 1000 + 1 + 1) := by omega
  have : s.length * (733 * s.length) ≤ s.length * (1000 * (s.len * 733 / 1000 + 1 + 1)) := Nat.mul_le_mul_left _ hq
  calc 733 * s.length ^ 2 = s.length * (733 * s.length) := by ring
    _ ≤ 1000 * (s.length * (s.len * 733 / 1000 + 1 + 1)) := by
        rw [Nat.mul_left_comm s.length 1000] at this; exact this
    _ ≤ _ := by omega

theorem bytes_nonempty {s : Str} (hs : s ≠ []) : s.bytes.isEmpty = false := by
  rcases s with _ | ⟨c, s⟩
  · exact absurd rfl hs
  · have := encChar_length_pos c
    rw [Str.bytes_cons, List.isEmpty_eq_false_iff]
    intro h0
    rw [(List.append_eq_nil_iff.1 h0).1] at this
    simp at this

theorem leadingOnes {s : Str} (h : ∀ c ∈ s, (b58Value c).isSome) :
    leadingZeros (s.filterMap b58Value) = (s.takeWhile (· == '1')).length := by
  induction s with
  | nil => rfl
  | cons c s ih =>
    obtain ⟨v, hv⟩ := Option.isSome_iff_exists.1 (h c (List.mem_cons_self ..))
    have hlt := b58Value_lt hv
    have hch := b58Char_of_value hv
    have key : ∀ v : Fin 58, (b58Char v.1 == '1') = (v.1 == 0) := by decide +kernel
    have hk := key ⟨v, hlt⟩
    simp only [hch] at hk
    have ih := ih (fun c hc => h c (List.mem_cons_of_mem _ hc))
    unfold leadingZeros at ih ⊢
    rw [List.filterMap_cons, hv]
    simp only [List.takeWhile_cons, hk]
    cases v == 0
    · rfl
    · simpa using ih

theorem b58DecodeS_fst_ok {s : Str} {data : Bytes} (hs : s ≠ []) (hall : ∀ c ∈ s, (b58Value c).isSome)
    (h : b58Decode s = .ok data) :
    ∃ z, z + data.length = s.length * 733 / 1000 + 1 + (s.takeWhile (· == '1')).length ∧
      2 * (b58DecodeS s).1 + z * z = 2 * (s.takeWhile (· == '1')).length +
        2 * (s.length * (s.length * 733 / 1000 + 2)) + z * (2 * (s.length * 733 / 1000 + 1) + 1) := by
  have hne := bytes_nonempty hs
  have hlen : s.len = s.length := by
    rw [Str.len, Str.bytes_of_ascii (ascii_of_b58 hall), List.length_map]
  unfold b58Decode at h
  rw [hne] at h
  simp only [Bool.false_eq_true, if_false] at h
  obtain ⟨b, hb, h2⟩ := Outcome.bind_eq_ok.1 h
  simp only [Outcome.pure_def, Outcome.ok.injEq] at h2
  obtain ⟨hl, hl'⟩ := (decodeLoopS_le s _).2 b hb
  simp only [List.length_replicate] at hl hl'
  obtain ⟨z, hz, hz'⟩ := trimS_fst b
  have hd := congrArg List.length h2
  rw [List.length_append, List.length_replicate, countLeading_ones hall, leadingOnes hall] at hd
  rw [hlen] at hl hl' hb
  refine ⟨z, by omega, ?_⟩
  unfold b58DecodeS
  rw [hne]
  simp only [Bool.false_eq_true, if_false, bind_fst, tick_fst, tick_snd, after_ok, decodeLoopS_snd, hb, hl', trimS_snd,
    pure_fst, countLeading_ones hall, leadingOnes hall, hlen]
  rw [hl] at hz'
  rw [show s.length * 733 / 1000 + 1 + 1 = s.length * 733 / 1000 + 2 from rfl]
  omega

end B58

/-! ## Lengths -/

namespace Spec

/-- Leading zeros, then a number that fits in the remaining digits. -/
theorem rebase_length {b c : Nat} (hb : 1 < b) (hc : 1 < c) {ds : List Nat} (hd : ∀ d ∈ ds, d < b) (f : Nat → Nat)
    (hf : ∀ n, b ^ n ≤ c ^ f n) :
    ∃ z, z ≤ ds.length ∧ (rebase b c ds).length ≤ z + f (ds.length - z) ∧ z = leadingZeros ds := by
  have h1 := replicate_leadingZeros ds
  have h2 : numValue b ds < b ^ (ds.dropWhile (· == 0)).length := by
    conv_lhs => rw [h1]
    rw [numValue_replicate_zero_append]
    apply numValue_lt (by omega)
    intro d h
    exact hd d ((List.dropWhile_sublist _).subset h)
  have h3 := numDigits_length_le hc (lt_of_lt_of_le h2 (hf _))
  have h4 := congrArg List.length h1
  rw [List.length_append, List.length_replicate] at h4
  refine ⟨leadingZeros ds, by omega, ?_, rfl⟩
  unfold rebase
  rw [List.length_append, List.length_replicate]
  have : ds.length - leadingZeros ds = (ds.dropWhile (· == 0)).length := by omega
  rw [this]
  omega

theorem rebase_length_ge {b c : Nat} (hc : 1 < c) (hbc : c ≤ b) {ds : List Nat}
    (hd : ∀ d ∈ ds, d < b) : ds.length ≤ (rebase b c ds).length := by
  have h := rebase_length_le_of_le hc hbc (ds := rebase b c ds) (fun d hd => rebase_lt hc hd)
  rwa [rebase_rebase c (by omega) hd] at h

end Spec

theorem pow_fits (n : Nat) : 256 ^ n ≤ 32 ^ ((8 * n + 4) / 5) := by
  calc 256 ^ n = 2 ^ (8 * n) := by rw [pow_mul]; norm_num
    _ ≤ 2 ^ (5 * ((8 * n + 4) / 5)) := Nat.pow_le_pow_right (by omega) (by omega)
    _ = _ := by rw [pow_mul]; norm_num

theorem pow_fits_back (n : Nat) : 32 ^ n ≤ 256 ^ ((5 * n + 7) / 8) := by
  calc 32 ^ n = 2 ^ (5 * n) := by rw [pow_mul]; norm_num
    _ ≤ 2 ^ (8 * ((5 * n + 7) / 8)) := Nat.pow_le_pow_right (by omega) (by omega)
    _ = _ := by rw [pow_mul]; norm_num

theorem c32Encode_length {data : Bytes} {s : Str} (h : C32.c32Encode data = .ok s) :
    data.length ≤ s.length ∧ s.length ≤ (8 * data.length + 4) / 5 := by
  rw [C32.c32Encode_eq] at h
  cases h
  obtain ⟨z, h1, h2, _⟩ := rebase_length (by omega : 1 < 256) (by omega : 1 < 32) (C32.u8_digits_lt data) _ pow_fits
  have h3 := rebase_length_ge (b := 256) (c := 32) (by omega) (by omega) (C32.u8_digits_lt data)
  rw [List.length_map] at h1 h2 h3
  rw [List.length_map]
  omega

theorem reserve' (n : Nat) : 256 ^ n ≤ 58 ^ (if n = 0 then 0 else n * 138 / 100 + 1) := by
  split
  · simp_all
  · exact (B58.reserve n).le

theorem b58Encode_length {data : Bytes} {s : Str} (h : B58.b58Encode data = .ok s) :
    data.length ≤ s.length ∧ s.length ≤ data.length * 138 / 100 + 1 := by
  by_cases hd : data = [] ∨ ∃ b ∈ data, b ≠ 0
  · rw [B58.b58Encode_eq hd] at h
    cases h
    obtain ⟨z, h1, h2, _⟩ := rebase_length (by omega : 1 < 256) (by omega : 1 < 58) (C32.u8_digits_lt data) _ reserve'
    have h3 := rebase_length_ge (b := 256) (c := 58) (by omega) (by omega) (C32.u8_digits_lt data)
    rw [List.length_map] at h1 h2 h3
    rw [List.length_map]
    refine ⟨h3, ?_⟩
    split at h2 <;> omega
  · have hne : data ≠ [] := fun h0 => hd (.inl h0)
    have hz : ∀ b ∈ data, b = 0 := by
      intro b hb
      by_contra h0
      exact hd (.inr ⟨b, hb, h0⟩)
    have hl := List.length_pos_iff.2 hne
    have he : data = List.replicate (data.length - 1 + 1) 0 :=
      List.eq_replicate_iff.2 ⟨by omega, hz⟩
    rw [he, B58.b58Encode_zeros] at h
    cases h
    rw [List.length_replicate]
    omega

end Stacks

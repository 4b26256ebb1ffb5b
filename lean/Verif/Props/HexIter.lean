import Verif.Proofs.HexIter
import Verif.Props.Hex

/-! # Property C89: the hexadecimal iterator -/

namespace Stacks.Hex
open Stacks.Spec

/-- **C89** `hex_to_bytes`, which collects the iterator up to its first error, is the function of C01 -
C03. -/
theorem C89_hex_to_bytes (s : Str) : hexToBytesLoop s = hexToBytes s := by
  unfold hexToBytesLoop HexIterator.new hexToBytes
  split
  · rfl
  · simp only [Outcome.ok_bind]
    rw [forLoop_eq s.bytes.length _ _ (Nat.le_refl _)]
    simp only [List.nil_append]
    cases decodeLoop s.bytes <;> rfl

/-- **C89** `HexIterator::new` refuses exactly the strings with an odd number of bytes. -/
theorem C89_new (s : Str) :
    ((String.ofList s).utf8ByteSize % 2 = 1 →
      HexIterator.new s = .err (.unpaddedHex s (String.ofList s).utf8ByteSize)) ∧
    ((String.ofList s).utf8ByteSize % 2 = 0 → ∃ it, HexIterator.new s = .ok it) := by
  rw [← Str.len_eq_utf8ByteSize]
  unfold HexIterator.new
  exact ⟨fun h => if_pos (by omega), fun h => ⟨_, if_neg (by omega)⟩⟩

/-- **C89** On a string of digit pairs the calls of `next` return the bytes in order, and `None` from
then on. -/
theorem C89_items (s : Str) (ns : List Nat) (h : hexBytes? s = some ns) :
    ∃ it, HexIterator.new s = .ok it ∧ ∀ n, it.call n = ns[n]?.map fun v => .ok (UInt8.ofNat v) := by
  have hl : s.len % 2 = 0 := by
    rw [Str.len_of_ascii (hexBytes?_ascii h)]
    exact hexBytes?_even h
  refine ⟨⟨s.bytes⟩, by unfold HexIterator.new; exact if_neg (by omega), fun n => ?_⟩
  have hc := HexIterator.call_hexBytes? [] h n
  rw [List.append_nil, ← Str.bytes_of_ascii (hexBytes?_ascii h)] at hc
  rw [hc]
  split
  · rfl
  · rw [HexIterator.call_nil, List.getElem?_eq_none (by omega)]; rfl

/-- **C89** On any other string of even length the calls return the bytes of the digit pairs before the
first bad pair, and then the error. -/
theorem C89_first_error (s : Str) (he : (String.ofList s).utf8ByteSize % 2 = 0) (h : hexBytes? s = none) :
    ∃ (it : HexIterator) (bs : Bytes), HexIterator.new s = .ok it ∧
      (∀ n < bs.length, it.call n = bs[n]?.map .ok) ∧ it.call bs.length = some (.error .badChar) ∧
      hexBytes? (s.take (2 * bs.length)) = some (bs.map UInt8.toNat) ∧
      hexBytes? ((s.drop (2 * bs.length)).take 2) = none := by
  rw [← Str.len_eq_utf8ByteSize] at he
  have key : ∀ s : Str, s.len % 2 = 0 → hexBytes? s = none → ∃ bs : Bytes,
      (∀ n < bs.length, HexIterator.call ⟨s.bytes⟩ n = bs[n]?.map .ok) ∧
      HexIterator.call ⟨s.bytes⟩ bs.length = some (.error .badChar) ∧
      hexBytes? (s.take (2 * bs.length)) = some (bs.map UInt8.toNat) ∧
      hexBytes? ((s.drop (2 * bs.length)).take 2) = none := by
    intro s
    induction s using hexBytes?.induct with
    | case1 => intro _ h; simp [hexBytes?] at h
    | case2 a =>
      intro he _
      have ha : 128 ≤ a.toNat := by
        by_contra hlt
        rw [Str.len_of_ascii (by simpa using hlt)] at he
        simp at he
      have hb : ∃ b rest, Str.bytes [a] = b :: rest ∧ nibble b = none := by
        have := encChar_length_pos a
        rcases hu : String.utf8EncodeChar a with _ | ⟨b, rest⟩
        · rw [hu] at this; simp at this
        · refine ⟨b, rest, by simp [Str.bytes, hu], nibble_nonascii (encChar_nonascii ha b (by rw [hu]; simp))⟩
      obtain ⟨b, rest, h1, h2⟩ := hb
      refine ⟨[], by simp, ?_, by simp [hexBytes?], by simp [hexBytes?]⟩
      rw [h1, List.length_nil, HexIterator.call_zero, HexIterator.next_bad _ h2]
    | case3 a b rest ih =>
      intro he hn
      have hcons : ∀ (c : Char) (t : Str), c.toNat < 128 → Str.bytes (c :: t) = UInt8.ofNat c.toNat :: t.bytes := by
        intro c t hc
        have := Str.bytes_of_ascii (s := [c]) (by simpa using hc)
        simp only [Str.bytes, List.flatMap_cons, List.flatMap_nil, List.append_nil, List.map_cons, List.map_nil] at this ⊢
        rw [this]; rfl
      have hbad : ∀ (c : Char) (t : Str), hexValue c = none →
          ∃ x r, Str.bytes (c :: t) = x :: r ∧ nibble x = none := by
        intro c t hc
        by_cases ha : c.toNat < 128
        · refine ⟨_, _, hcons c t ha, ?_⟩
          have := nibble_eq_hexValue ha
          rw [hc] at this
          simpa using this
        · have hp := encChar_length_pos c
          rcases hu : String.utf8EncodeChar c with _ | ⟨x, r⟩
          · rw [hu] at hp; simp at hp
          · exact ⟨x, r ++ Str.bytes t, by simp [Str.bytes, hu],
              nibble_nonascii (encChar_nonascii (Nat.le_of_not_lt ha) x (by rw [hu]; simp))⟩
      have hgood : ∀ (c : Char) (t : Str) (v : Nat), hexValue c = some v →
          ∃ x w, Str.bytes (c :: t) = x :: Str.bytes t ∧ nibble x = some w ∧ w.toNat = v := by
        intro c t v hc
        have ha := hexValue_ascii hc
        have := nibble_eq_hexValue ha
        rw [hc] at this
        rcases hx : nibble (UInt8.ofNat c.toNat) with _ | w
        · rw [hx] at this; cases this
        · rw [hx] at this
          exact ⟨_, w, hcons c t ha, hx, by simpa using this⟩
      rcases hv : hexValue a with _ | v
      · obtain ⟨x, r, h1, h2⟩ := hbad a (b :: rest) hv
        refine ⟨[], by simp, ?_, by simp [hexBytes?], by simp [hexBytes?, hv]⟩
        rw [h1, List.length_nil, HexIterator.call_zero, HexIterator.next_bad _ h2]
      · obtain ⟨x, w, h1, h2, h3⟩ := hgood a (b :: rest) v hv
        rcases hv' : hexValue b with _ | v'
        · obtain ⟨y, r, h4, h5⟩ := hbad b rest hv'
          refine ⟨[], by simp, ?_, by simp [hexBytes?], by simp [hexBytes?, hv, hv']⟩
          rw [h1, h4, List.length_nil, HexIterator.call_zero, HexIterator.next_bad_second _ h2 h5]
        · obtain ⟨y, w', h4, h5, h6⟩ := hgood b rest v' hv'
          have hrest : hexBytes? rest = none := by
            rcases hr : hexBytes? rest with _ | ns
            · rfl
            · simp [hexBytes?, hv, hv', hr] at hn
          have hlen : Str.len rest % 2 = 0 := by
            unfold Str.len at he ⊢
            rw [h1, h4] at he
            simp only [List.length_cons] at he
            omega
          obtain ⟨bs, g1, g2, g3, g4⟩ := ih hlen hrest
          have hnext := HexIterator.next_pair (Str.bytes rest) h2 h5
          refine ⟨(w <<< 4 ||| w') :: bs, ?_, ?_, ?_, ?_⟩
          · intro n hlt
            rw [h1, h4]
            cases n with
            | zero => rw [HexIterator.call_zero, hnext]; rfl
            | succ n =>
              rw [HexIterator.call_succ, hnext, List.getElem?_cons_succ]
              exact g1 n (by simpa using hlt)
          · rw [h1, h4, List.length_cons, HexIterator.call_succ, hnext]
            exact g2
          · rw [List.length_cons, show 2 * (bs.length + 1) = 2 * bs.length + 1 + 1 by ring, List.take_succ_cons,
              List.take_succ_cons]
            simp only [hexBytes?, hv, hv', g3, Option.bind_eq_bind, Option.bind_some, List.map_cons]
            rw [combine_nibbles (nibble_lt h2) (nibble_lt h5), h3, h6]
            rfl
          · rw [List.length_cons, show 2 * (bs.length + 1) = 2 * bs.length + 1 + 1 by ring, List.drop_succ_cons,
              List.drop_succ_cons]
            exact g4
  obtain ⟨bs, h1, h2, h3, h4⟩ := key s he h
  exact ⟨⟨s.bytes⟩, bs, by unfold HexIterator.new; exact if_neg (by omega), h1, h2, h3, h4⟩

/-- **C89** Iterating always ends, after at most as many items as the string has bytes, and stays ended. -/
theorem C89_ends (s : Str) (it : HexIterator) (h : HexIterator.new s = .ok it) :
    ∃ n ≤ (String.ofList s).utf8ByteSize, ∀ m, it.call m = none ↔ n ≤ m := by
  rw [← Str.len_eq_utf8ByteSize]
  unfold HexIterator.new at h
  split at h
  · cases h
  · cases h
    exact HexIterator.ends _ _ (Nat.le_refl _)

/-- **C89** What a caller who goes on after an error gets: behind a bad character in first position the
pairs are read one character off, and the last digit is dropped without an error. -/
theorem C89_after_error (c d : Char) (s : Str) (ns : List Nat) (hc : c.toNat < 128) (hv : hexValue c = none)
    (h : hexBytes? s = some ns) (hd : (hexValue d).isSome) :
    ∃ it, HexIterator.new (c :: s ++ [d]) = .ok it ∧ it.call 0 = some (.error .badChar) ∧
      ∀ n, it.call (n + 1) = ns[n]?.map fun v => .ok (UInt8.ofNat v) := by
  obtain ⟨v, hd⟩ := Option.isSome_iff_exists.1 hd
  have hda := hexValue_ascii hd
  have hall : ∀ x ∈ c :: s ++ [d], x.toNat < 128 := by
    intro x hx
    simp only [List.cons_append, List.mem_cons, List.mem_append, List.not_mem_nil, or_false] at hx
    rcases hx with rfl | hx | rfl
    · exact hc
    · exact hexBytes?_ascii h x hx
    · exact hda
  have hlen : Str.len (c :: s ++ [d]) % 2 = 0 := by
    rw [Str.len_of_ascii hall]
    have := hexBytes?_even h
    simp only [List.cons_append, List.length_cons, List.length_append, List.length_nil]
    omega
  refine ⟨⟨Str.bytes (c :: s ++ [d])⟩, by unfold HexIterator.new; exact if_neg (by omega), ?_⟩
  have hb : nibble (UInt8.ofNat c.toNat) = none := by
    have := nibble_eq_hexValue hc
    rw [hv] at this
    simpa using this
  have hg : ∃ w, nibble (UInt8.ofNat d.toNat) = some w := by
    have := nibble_eq_hexValue hda
    rw [hd] at this
    rcases hx : nibble (UInt8.ofNat d.toNat) with _ | w
    · rw [hx] at this; cases this
    · exact ⟨w, rfl⟩
  obtain ⟨w, hg⟩ := hg
  rw [Str.bytes_of_ascii hall]
  simp only [List.cons_append, List.map_cons, List.map_append, List.map_nil]
  have hnext := HexIterator.next_bad (s.map (fun c => UInt8.ofNat c.toNat) ++ [UInt8.ofNat d.toNat]) hb
  refine ⟨by rw [HexIterator.call_zero, hnext], fun n => ?_⟩
  rw [HexIterator.call_succ, hnext, HexIterator.call_hexBytes? _ h]
  split
  · rfl
  · rw [List.getElem?_eq_none (by omega), Option.map_none]
    cases n - ns.length with
    | zero => rw [HexIterator.call_zero, HexIterator.next_single hg]
    | succ m => rw [HexIterator.call_succ, HexIterator.next_single hg, HexIterator.call_nil]

example : hexToBytesLoop "2A6b".toList = .ok [0x2a, 0x6b] := by
  rw [C89_hex_to_bytes]; decide +kernel
example : hexBytes? "2A6b".toList = some [0x2a, 0x6b] := by decide +kernel
example : ("0aé1a1" : String).utf8ByteSize % 2 = 1 ∧ ("0aé1a" : String).utf8ByteSize % 2 = 0 ∧
    hexBytes? "0aé1a".toList = none ∧
    (List.range 4).map (HexIterator.call ⟨Str.bytes "0aé1a".toList⟩) =
      [some (.ok 0x0a), some (.error .badChar), some (.error .badChar), some (.ok 0x1a)] := by decide +kernel
example : hexValue 'g' = none ∧ hexBytes? "0a".toList = some [10] ∧ (hexValue '1').isSome ∧
    (List.range 4).map (HexIterator.call ⟨Str.bytes "g0a1".toList⟩) =
      [some (.error .badChar), some (.ok 0x0a), none, none] ∧
    (List.range 4).map (HexIterator.call ⟨Str.bytes "0ga1".toList⟩) =
      [some (.error .badChar), some (.ok 0xa1), none, none] := by decide +kernel

/-! ## Instances of the theorems with hypotheses -/

example := C89_items "0aFF".toList [10, 255] (by decide +kernel)
example := C89_first_error "0a0gff".toList (by decide +kernel) (by decide +kernel)
example := C89_ends "0a0gff".toList ⟨[0x30, 0x61, 0x30, 0x67, 0x66, 0x66]⟩ (by decide +kernel)
example := C89_after_error 'x' '0' "0aff".toList [10, 255] (by decide) (by decide +kernel) (by decide +kernel)
  (by decide +kernel)

end Stacks.Hex

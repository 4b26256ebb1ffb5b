import Verif.Props.Transaction

/-! # C43: the reader of Clarity values accepts exactly the serialised values -/

namespace Stacks.Tx
open Stacks.Spec Stacks.Clarity

theorem parsed_bind {α β : Type} {r : Reader α} {f : α → Reader β} {bs : Bytes} {y : β} {rest : Bytes}
    (h : (r >>= f) bs = some (y, rest)) : ∃ x mid, r bs = some (x, mid) ∧ f x mid = some (y, rest) := by
  obtain ⟨⟨x, mid⟩, h1, h2⟩ := Option.bind_eq_some_iff.1 h
  exact ⟨x, mid, h1, h2⟩

theorem parsed_pure {α : Type} {x y : α} {bs rest : Bytes} (h : (pure x : Reader α) bs = some (y, rest)) :
    x = y ∧ bs = rest := by
  cases h; exact ⟨rfl, rfl⟩

theorem parsed_byte {bs rest : Bytes} {b : UInt8} (h : readByte bs = some (b, rest)) : bs = b :: rest := by
  cases bs with
  | nil => cases h
  | cons c cs => cases h; rfl

theorem parsed_bytes {n : Nat} {bs rest x : Bytes} (h : readBytes n bs = some (x, rest)) :
    x.length = n ∧ bs = x ++ rest := by
  unfold readBytes at h
  split at h
  · rename_i hl
    cases h
    exact ⟨by simp [hl], (List.take_append_drop _ _).symm⟩
  · cases h

theorem parsed_nat {w n : Nat} {bs rest : Bytes} (h : readNat w bs = some (n, rest)) :
    n < 256 ^ w ∧ bs = beBytes w n ++ rest := by
  obtain ⟨x, mid, h1, h2⟩ := parsed_bind h
  obtain ⟨rfl, rfl⟩ := parsed_bytes h1
  obtain ⟨rfl, rfl⟩ := parsed_pure h2
  exact ⟨beVal_lt x, by rw [beBytes_beVal]⟩

theorem parsed_text {n : Nat} {bs rest : Bytes} {s : Str} (h : readText n bs = some (s, rest)) :
    s.bytes.length = n ∧ bs = s.bytes ++ rest := by
  obtain ⟨x, mid, h1, h2⟩ := parsed_bind h
  obtain ⟨rfl, rfl⟩ := parsed_bytes h1
  cases hf : fromUtf8 x with
  | none => rw [hf] at h2; cases h2
  | some s' =>
    rw [hf] at h2
    obtain ⟨rfl, rfl⟩ := parsed_pure h2
    rw [fromUtf8_eq_some.1 hf]
    exact ⟨rfl, rfl⟩

theorem parsed_name {bs rest : Bytes} {s : Str} (h : readName bs = some (s, rest)) :
    s.bytes.length ≤ 128 ∧ bs = sized8 s ++ rest := by
  obtain ⟨b, mid, h1, h2⟩ := parsed_bind h
  obtain rfl := parsed_byte h1
  by_cases hb : b.toNat ≤ 128
  · rw [if_pos hb] at h2
    obtain ⟨h3, rfl⟩ := parsed_text h2
    refine ⟨by omega, ?_⟩
    rw [sized8, h3, UInt8.ofNat_toNat]; rfl
  · rw [if_neg hb] at h2; cases h2

section
variable [Hashes]

theorem parsed_address {bs rest : Bytes} {a : Str} (h : readAddress bs = some (a, rest)) :
    CanonicalAddress a ∧ bs = addrBytes a ++ rest := by
  obtain ⟨v, mid, h1, h2⟩ := parsed_bind h
  obtain rfl := parsed_byte h1
  obtain ⟨x, mid', h3, h4⟩ := parsed_bind h2
  obtain ⟨hx, rfl⟩ := parsed_bytes h3
  by_cases hv : KnownVersion v
  · rw [if_pos hv] at h4
    obtain ⟨rfl, rfl⟩ := parsed_pure h4
    refine ⟨⟨⟨x, hx⟩, v, hv, rfl⟩, ?_⟩
    rw [addrBytes_canonical (C32.address_iff.2 ⟨hv, rfl⟩)]; rfl
  · rw [if_neg hv] at h4; cases h4

theorem parsed_values {d : Nat} (ih : ∀ {bs rest v}, readNested d bs = some (v, rest) → WellFormed v ∧ bs = sip005 v ++ rest) :
    ∀ {n : Nat} {bs rest : Bytes} {vs : List CV}, readMany (readNested d) n bs = some (vs, rest) →
      vs.length = n ∧ WellFormedAll vs ∧ bs = sip005All vs ++ rest
  | 0, bs, rest, vs, h => by
    obtain ⟨rfl, rfl⟩ := parsed_pure h
    exact ⟨rfl, trivial, rfl⟩
  | n + 1, bs, rest, vs, h => by
    obtain ⟨v, mid, h1, h2⟩ := parsed_bind h
    obtain ⟨w, rfl⟩ := ih h1
    obtain ⟨ws, mid', h3, h4⟩ := parsed_bind h2
    obtain ⟨e, w', rfl⟩ := parsed_values ih h3
    obtain ⟨rfl, rfl⟩ := parsed_pure h4
    exact ⟨by rw [List.length_cons, e], ⟨w, w'⟩, by rw [sip005All, List.append_assoc]⟩

theorem parsed_entries {d : Nat} (ih : ∀ {bs rest v}, readNested d bs = some (v, rest) → WellFormed v ∧ bs = sip005 v ++ rest) :
    ∀ {n : Nat} {bs rest : Bytes} {es : List (Str × CV)}, readMany (do
        let k ← readName
        let v ← readNested d
        pure (k, v)) n bs = some (es, rest) →
      es.length = n ∧ WellFormedEntries es ∧ bs = sip005Entries es ++ rest
  | 0, bs, rest, es, h => by
    obtain ⟨rfl, rfl⟩ := parsed_pure h
    exact ⟨rfl, trivial, rfl⟩
  | n + 1, bs, rest, es, h => by
    obtain ⟨e, mid, h1, h2⟩ := parsed_bind h
    obtain ⟨k, m1, g1, g2⟩ := parsed_bind h1
    obtain ⟨v, m2, g3, g4⟩ := parsed_bind g2
    obtain ⟨rfl, rfl⟩ := parsed_pure g4
    obtain ⟨hk, rfl⟩ := parsed_name g1
    obtain ⟨w, rfl⟩ := ih g3
    obtain ⟨ws, mid', h3, h4⟩ := parsed_bind h2
    obtain ⟨e, w', rfl⟩ := parsed_entries ih h3
    obtain ⟨rfl, rfl⟩ := parsed_pure h4
    exact ⟨by rw [List.length_cons, e], ⟨hk, w, w'⟩, by simp only [sip005Entries, List.append_assoc]⟩

theorem parsed_nested : ∀ (d : Nat) {bs rest : Bytes} {v : CV}, readNested d bs = some (v, rest) →
    WellFormed v ∧ bs = sip005 v ++ rest
  | 0, _, _, _, h => by cases h
  | d + 1, bs, rest, v, h0 => by
    obtain ⟨t, bs, h1, h⟩ := parsed_bind h0
    clear h0
    obtain rfl := parsed_byte h1
    have ht : t = UInt8.ofNat t.toNat := UInt8.ofNat_toNat.symm
    generalize t.toNat = k at h ht
    subst ht
    have h4 : (256 : Nat) ^ 4 = 2 ^ 32 := by norm_num
    split at h
    · obtain ⟨x, m, h1, h2⟩ := parsed_bind h
      obtain ⟨hx, rfl⟩ := parsed_nat h1
      obtain ⟨rfl, rfl⟩ := parsed_pure h2
      refine ⟨trivial, ?_⟩
      rw [sip005, toInt_emod, BitVec.toNat_ofNat, Nat.mod_eq_of_lt (by norm_num at hx ⊢; omega)]; rfl
    · obtain ⟨x, m, h1, h2⟩ := parsed_bind h
      obtain ⟨hx, rfl⟩ := parsed_nat h1
      obtain ⟨rfl, rfl⟩ := parsed_pure h2
      refine ⟨trivial, ?_⟩
      rw [sip005, BitVec.toNat_ofNat, Nat.mod_eq_of_lt (by norm_num at hx ⊢; omega)]; rfl
    · obtain ⟨n, m, h1, h2⟩ := parsed_bind h
      obtain ⟨hn, rfl⟩ := parsed_nat h1
      obtain ⟨x, m', h2, h3⟩ := parsed_bind h2
      obtain ⟨rfl, rfl⟩ := parsed_bytes h2
      obtain ⟨rfl, rfl⟩ := parsed_pure h3
      rw [h4] at hn
      exact ⟨hn, by simp [sip005, sized32]⟩
    · obtain ⟨rfl, rfl⟩ := parsed_pure h
      exact ⟨trivial, rfl⟩
    · obtain ⟨rfl, rfl⟩ := parsed_pure h
      exact ⟨trivial, rfl⟩
    · obtain ⟨a, m, h1, h2⟩ := parsed_bind h
      obtain ⟨ha, rfl⟩ := parsed_address h1
      obtain ⟨rfl, rfl⟩ := parsed_pure h2
      exact ⟨ha, rfl⟩
    · obtain ⟨a, m, h1, h2⟩ := parsed_bind h
      obtain ⟨ha, rfl⟩ := parsed_address h1
      obtain ⟨n, m', h2, h3⟩ := parsed_bind h2
      obtain ⟨hn, rfl⟩ := parsed_name h2
      obtain ⟨rfl, rfl⟩ := parsed_pure h3
      exact ⟨⟨ha, hn⟩, by simp [sip005]⟩
    · obtain ⟨v, m, h1, h2⟩ := parsed_bind h
      obtain ⟨hv, rfl⟩ := parsed_nested d h1
      obtain ⟨rfl, rfl⟩ := parsed_pure h2
      exact ⟨hv, rfl⟩
    · obtain ⟨v, m, h1, h2⟩ := parsed_bind h
      obtain ⟨hv, rfl⟩ := parsed_nested d h1
      obtain ⟨rfl, rfl⟩ := parsed_pure h2
      exact ⟨hv, rfl⟩
    · obtain ⟨rfl, rfl⟩ := parsed_pure h
      exact ⟨trivial, rfl⟩
    · obtain ⟨v, m, h1, h2⟩ := parsed_bind h
      obtain ⟨hv, rfl⟩ := parsed_nested d h1
      obtain ⟨rfl, rfl⟩ := parsed_pure h2
      exact ⟨hv, rfl⟩
    · obtain ⟨n, m, h1, h2⟩ := parsed_bind h
      obtain ⟨hn, rfl⟩ := parsed_nat h1
      obtain ⟨vs, m', h2, h3⟩ := parsed_bind h2
      obtain ⟨rfl, hv, rfl⟩ := parsed_values (parsed_nested d) h2
      obtain ⟨rfl, rfl⟩ := parsed_pure h3
      exact ⟨⟨h4 ▸ hn, hv⟩, by simp [sip005]⟩
    · obtain ⟨n, m, h1, h2⟩ := parsed_bind h
      obtain ⟨hn, rfl⟩ := parsed_nat h1
      obtain ⟨vs, m', h2, h3⟩ := parsed_bind h2
      obtain ⟨rfl, hv, rfl⟩ := parsed_entries (parsed_nested d) h2
      obtain ⟨rfl, rfl⟩ := parsed_pure h3
      exact ⟨⟨h4 ▸ hn, hv⟩, by simp [sip005]⟩
    · obtain ⟨n, m, h1, h2⟩ := parsed_bind h
      obtain ⟨hn, rfl⟩ := parsed_nat h1
      obtain ⟨s, m', h2, h3⟩ := parsed_bind h2
      obtain ⟨rfl, rfl⟩ := parsed_text h2
      split at h3
      · rename_i hs
        obtain ⟨rfl, rfl⟩ := parsed_pure h3
        exact ⟨⟨hs, h4 ▸ hn⟩, by simp [sip005, sized32]⟩
      · cases h3
    · obtain ⟨n, m, h1, h2⟩ := parsed_bind h
      obtain ⟨hn, rfl⟩ := parsed_nat h1
      obtain ⟨s, m', h2, h3⟩ := parsed_bind h2
      obtain ⟨rfl, rfl⟩ := parsed_text h2
      obtain ⟨rfl, rfl⟩ := parsed_pure h3
      rw [h4] at hn
      exact ⟨hn, by simp [sip005, sized32]⟩
    · cases h

/-- **C43** The reader of Clarity values, which is written without the crate's decoder, reads exactly
the well-formed values, from exactly the bytes SIP-005 prescribes for them. -/
theorem C43_value_reader (bs rest : Bytes) (v : CV) :
    readValue.run bs = some (v, rest) ↔ WellFormed v ∧ bs = sip005 v ++ rest := by
  constructor
  · exact fun h => parsed_nested _ h
  · rintro ⟨h, rfl⟩
    exact reads_value v h rest

/-- **C43** Whatever it reads the crate's decoder reads too, and the values the crate's decoder returns
and the reader does not are the ones that are not well-formed (a string-ascii with other characters, a
name longer than 128 bytes). -/
theorem C43_reader_and_decoder (bs : Bytes) (v : CV) :
    (∃ rest, readValue.run bs = some (v, rest)) ↔ Clarity.decode bs = .ok v ∧ WellFormed v := by
  rw [C24_decode_exact]
  constructor
  · rintro ⟨rest, h⟩
    obtain ⟨h1, rfl⟩ := (C43_value_reader bs rest v).1 h
    exact ⟨⟨wf_accepted v h1, rest, rfl⟩, h1⟩
  · rintro ⟨⟨_, rest, rfl⟩, h⟩
    exact ⟨rest, (C43_value_reader _ rest v).2 ⟨h, rfl⟩⟩

end

section
attribute [local instance] Concrete.realHashes

/-- A tuple of a list and a response, with nested names, is read back. -/
example : (readValue.run (sip005 (.tuple [("a".toList, .list [.int 1, .uint 2]), ("b".toList, .respOk (.optSome .tru))]) ++ [7])).map
    Prod.snd = some [7] := by decide +kernel

/-- A string-ascii with a byte above 127 is no value. -/
example : (readValue.run [0x0d, 0, 0, 0, 2, 0xc3, 0xa9]).isNone = true := by decide +kernel

end

end Stacks.Tx

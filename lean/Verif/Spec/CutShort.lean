import Verif.Spec.TransactionErrors

/-! # Inputs that end too early

`CutShort bytes` says that the bytes end before the value that they begin is complete, and that nothing
unacceptable comes before their end (compare `DecodeFails`). -/

namespace Stacks.Spec
open Stacks.Clarity (CV)

/-- A name of which the length byte or a part of the text is missing. -/
def NameCut (b : Bytes) : Prop := b = [] ∨ ∃ (n : UInt8) (r : Bytes), b = n :: r ∧ r.length < n.toNat

section
variable [Hashes]

/-- The bytes end too early for a Clarity value. -/
inductive CutShort : Bytes → Prop
  /-- There is nothing. -/
  | nothing : CutShort []
  /-- A number has 16 bytes. -/
  | number {t r} : t = 0x00 ∨ t = 0x01 → r.length < 16 → CutShort (t :: r)
  /-- The size of a buffer, list, tuple or string has four bytes. -/
  | size {t r} : t = 0x02 ∨ t = 0x0b ∨ t = 0x0c ∨ t = 0x0d ∨ t = 0x0e → r.length < 4 → CutShort (t :: r)
  /-- The bytes of a buffer or string are fewer than its size says. -/
  | body {t n r} : t = 0x02 ∨ t = 0x0d ∨ t = 0x0e → n < 2 ^ 32 → r.length < n → CutShort (t :: (beBytes 4 n ++ r))
  /-- A principal has a version and 20 bytes. -/
  | address {t r} : t = 0x05 ∨ t = 0x06 → r.length < 21 → CutShort (t :: r)
  /-- The name of a contract. -/
  | name {v h r} : h.length = 20 → KnownVersion v → NameCut r → CutShort (0x06 :: v :: (h ++ r))
  /-- A response or optional whose value is cut short. -/
  | inside {t b} : t = 0x07 ∨ t = 0x08 ∨ t = 0x0a → CutShort b → CutShort (t :: b)
  /-- A list of which some elements are there, and the next is cut short. -/
  | element {n vs b} : n < 2 ^ 32 → vs.length < n → (∀ v ∈ vs, WellFormed v) → CutShort b →
      CutShort (0x0b :: (beBytes 4 n ++ (sip005All vs ++ b)))
  /-- A tuple of which some entries are there, and the next key is cut short. -/
  | key {n es b} : n < 2 ^ 32 → es.length < n → (∀ e ∈ es, e.1.bytes.length < 256 ∧ WellFormed e.2) → NameCut b →
      CutShort (0x0c :: (beBytes 4 n ++ (sip005Entries es ++ b)))
  /-- A tuple of which some entries and the next key are there, and its value is cut short. -/
  | entry {n es k b} : n < 2 ^ 32 → es.length < n → (∀ e ∈ es, e.1.bytes.length < 256 ∧ WellFormed e.2) →
      k.bytes.length < 256 → CutShort b → CutShort (0x0c :: (beBytes 4 n ++ (sip005Entries es ++ (sized8 k ++ b))))

/-- The bytes end too early for function arguments. -/
inductive ArgumentsCut : Bytes → Prop
  | size {r} : r.length < 4 → ArgumentsCut r
  | argument {n vs b} : n < 2 ^ 32 → vs.length < n → (∀ v ∈ vs, WellFormed v) → CutShort b →
      ArgumentsCut (beBytes 4 n ++ (sip005All vs ++ b))

/-- The bytes end too early for a payload. -/
inductive PayloadCut : Bytes → Prop
  | nothing : PayloadCut []
  | recipient {r} : CutShort r → PayloadCut (0x00 :: r)
  /-- Amount and memo have 42 bytes. -/
  | transfer {v r} : WellFormed v → r.length < 42 → PayloadCut (0x00 :: (sip005 v ++ r))
  /-- The address has 21. -/
  | address {r} : r.length < 21 → PayloadCut (0x02 :: r)
  | contract {v h r} : h.length = 20 → NameCut r → PayloadCut (0x02 :: v :: (h ++ r))
  | function {v h c r} : h.length = 20 → c.bytes.length ≤ 128 → NameCut r →
      PayloadCut (0x02 :: v :: (h ++ (sized8 c ++ r)))
  | arguments {v h c n r} : h.length = 20 → c.bytes.length ≤ 128 → n.bytes.length ≤ 128 → ArgumentsCut r →
      PayloadCut (0x02 :: v :: (h ++ (sized8 c ++ (sized8 n ++ r))))

end

end Stacks.Spec

import Verif.Model.Hex

/-! # `HexIterator` of `stacks/src/crypto/hex.rs`, one call at a time -/

namespace Stacks.Hex

/-- hex.rs:23-26 `struct HexIterator`: the bytes of the string not yet consumed. -/
structure HexIterator where
  iter : Bytes
deriving DecidableEq, Repr

/-- hex.rs:28-36 `HexIterator::new`. -/
def HexIterator.new (s : Str) : Outcome Error HexIterator :=
  if s.len % 2 > 0 then .err (.unpaddedHex s s.len) else .ok ⟨s.bytes⟩

/-- hex.rs:42-58 `HexIterator::next`: what the call returns and the iterator afterwards. A `?` on
`self.iter.next()` returns `None`; the arms `_` return `Some(Err(BadChar))`. -/
def HexIterator.next (it : HexIterator) : Option (Except Error UInt8) × HexIterator :=
  match it.iter with
  | [] => (none, ⟨[]⟩)
  | a :: rest =>
    match nibble a with
    | none => (some (.error .badChar), ⟨rest⟩)
    | some hi =>
      match rest with
      | [] => (none, ⟨[]⟩)
      | b :: rest =>
        match nibble b with
        | none => (some (.error .badChar), ⟨rest⟩)
        | some lo => (some (.ok ((hi <<< 4) ||| lo)), ⟨rest⟩)

/-- The iterator after `n` calls of `next`. -/
def HexIterator.after (it : HexIterator) : Nat → HexIterator
  | 0 => it
  | n + 1 => HexIterator.after it.next.2 n

/-- What call number `n` (from 0) of `next` returns. -/
def HexIterator.call (it : HexIterator) (n : Nat) : Option (Except Error UInt8) := (it.after n).next.1

/-- A call of `next` that returns an item consumes something. -/
theorem HexIterator.next_shorter {it : HexIterator} {x : Except Error UInt8} (h : it.next.1 = some x) :
    it.next.2.iter.length < it.iter.length := by
  obtain ⟨l⟩ := it
  rcases l with _ | ⟨a, _ | ⟨b, rest⟩⟩
  · cases h
  · rcases ha : nibble a with _ | hi
    · simp [next, ha]
    · simp [next, ha] at h
  · rcases ha : nibble a with _ | hi
    · simp [next, ha]
    · rcases hb : nibble b with _ | lo
      · simp only [next, ha, hb, List.length_cons]; omega
      · simp only [next, ha, hb, List.length_cons]; omega

/-- hex.rs:70-74: the `for` loop of `hex_to_bytes` over the iterator, the bytes pushed so far in
`buff`. -/
def forLoop (it : HexIterator) (buff : Bytes) : Outcome Error Bytes :=
  match _h : it.next.1 with
  | none => .ok buff
  | some (.error e) => .err e
  | some (.ok byte) => forLoop it.next.2 (buff ++ [byte])
termination_by it.iter.length
decreasing_by exact HexIterator.next_shorter _h

/-- hex.rs:62-77 `hex_to_bytes`, as it is written. -/
def hexToBytesLoop (s : Str) : Outcome Error Bytes := do
  let it ← HexIterator.new s
  forLoop it []

end Stacks.Hex

import Verif.Model.B58
import Verif.Model.C32

/-! # The work of the Base58 and C32 codecs

The functions of `Model/B58` and `Model/C32` once more, in a monad that counts: one for each
iteration of a loop of the source, and for `buff.remove(0)` one for each byte it moves. What library
functions do inside (`reverse`, `collect`, `from_utf8`, the growth of vectors) is not counted.
`Proofs/CodecCost` shows that the results are those of the models. -/

namespace Stacks

/-- A result and the steps taken on the way to it. -/
def Steps (ε α : Type) : Type := Nat × Outcome ε α

namespace Steps
variable {ε α β : Type}

/-- No step. -/
def free (o : Outcome ε α) : Steps ε α := (0, o)

/-- `n` steps. -/
def tick (n : Nat) : Steps ε Unit := (n, .ok ())

/-- Sequencing (`?`, and panics, stop). -/
def andThen (x : Steps ε α) (f : α → Steps ε β) : Steps ε β :=
  match x with
  | (c, .ok a) => (c + (f a).1, (f a).2)
  | (c, .err e) => (c, .err e)
  | (c, .panic) => (c, .panic)

instance : Monad (Steps ε) where
  pure a := (0, .ok a)
  bind := andThen

end Steps

open Steps

namespace B58

/-- b58.rs:79-87, counting the bytes divided. -/
def divLoopS : Bytes → Nat → Bytes → Steps Error (Bytes × Nat)
  | [], rem, temp => pure (temp, rem)
  | b :: rest, rem, temp => do
    tick 1
    let cur ← free (u32 ((rem * 256) % 2 ^ 32 + b.toNat))
    let div := cur / 58
    let rem := cur % 58
    divLoopS rest rem (if !temp.isEmpty || div != 0 then temp ++ [UInt8.ofNat div] else temp)

theorem divLoopS_snd (l : Bytes) (rem : Nat) (temp : Bytes) : (divLoopS l rem temp).2 = divLoop l rem temp := by
  induction l generalizing rem temp with
  | nil => rfl
  | cons b rest ih =>
    unfold divLoopS divLoop
    generalize u32 ((rem * 256) % 2 ^ 32 + b.toNat) = o
    cases o with
    | ok a => exact ih _ _
    | err e => rfl
    | panic => rfl

/-- b58.rs:75-90, counting. -/
def encodeLoopS (buff : Bytes) (result : Str) : Steps Error Str :=
  if _hb : buff = [] then pure result
  else do
    tick 1
    tick (divLoopS buff 0 []).1
    match _h : (divLoopS buff 0 []).2 with
    | .ok (temp, rem) =>
      let ch ← free (idx alphabet rem)
      encodeLoopS temp (result ++ [Char.ofNat ch.toNat])
    | .err e => free (.err e)
    | .panic => free .panic
termination_by loopMeasure buff
decreasing_by exact loopMeasure_lt _hb ((divLoopS_snd buff 0 []).symm.trans _h)

/-- b58.rs:61-98 `b58_encode`, counting. -/
def b58EncodeS (data : Bytes) : Steps Error Str := do
  let zeros := countLeading 0 data
  tick zeros
  let result ← encodeLoopS data []
  let one ← free (idx alphabet 0)
  tick zeros
  let result := result ++ List.replicate zeros (Char.ofNat one.toNat)
  pure result.reverse

/-- b58.rs:127-131, counting the bytes multiplied. -/
def mulAddS : Bytes → Nat → Steps Error Bytes
  | [], _ => pure []
  | byte :: rest, carry => do
    tick 1
    let carry ← free (u32 (carry + byte.toNat * 58))
    let tl ← mulAddS rest (carry / 256)
    pure (UInt8.ofNat (carry % 256) :: tl)

/-- b58.rs:118-132, counting. -/
def decodeLoopS (buff : Bytes) : Str → Steps Error Bytes
  | [] => pure buff
  | c :: rest => do
    tick 1
    let index ← free (Outcome.orPanic byteMap[c.toNat]?)
    if index = -1 then free (.err (.badChar c))
    else do
      let carry ← free (if 0 ≤ index then .ok index.toNat else .err .tryFromInt : Outcome Error Nat)
      let buff ← mulAddS buff.reverse carry
      decodeLoopS buff.reverse rest

/-- b58.rs:134-136: `while !buff.is_empty() && buff[0] == 0 { buff.remove(0) }`, counting the
iterations and the bytes moved to the front. -/
def trimS : Bytes → Steps Error Bytes
  | [] => pure []
  | b :: rest =>
    if b == 0 then do
      tick (1 + rest.length)
      trimS rest
    else pure (b :: rest)

/-- b58.rs:101-142 `b58_decode`, counting. -/
def b58DecodeS (s : Str) : Steps Error Bytes := do
  if s.bytes.isEmpty then pure []
  else do
    let zeros := countLeading 0x31 s.bytes
    tick zeros
    let buff := List.replicate (s.len * 733 / 1000 + 1) (0 : UInt8)
    let buff ← decodeLoopS buff s
    let buff ← trimS buff
    pure (List.replicate zeros 0 ++ buff)

end B58

namespace C32

/-- c32.rs:121-125, counting. -/
def encodeDrainS (encoded : Bytes) (buff : UInt32) (bits : Nat) : Steps Error (Bytes × UInt32 × Nat) :=
  if bits ≥ 5 then do
    tick 1
    let ch ← free (idx alphabet (buff &&& 0x1F).toNat)
    encodeDrainS (encoded ++ [ch]) (buff >>> 5) (bits - 5)
  else pure (encoded, buff, bits)
termination_by bits

/-- c32.rs:117-126, counting. -/
def encodeLoopS (encoded : Bytes) (buff : UInt32) (bits : Nat) : Bytes → Steps Error (Bytes × UInt32 × Nat)
  | [] => pure (encoded, buff, bits)
  | byte :: rest => do
    tick 1
    let shifted ← free (shl32 byte.toUInt32 bits)
    let (encoded, buff, bits) ← encodeDrainS encoded (buff ||| shifted) (bits + 8)
    encodeLoopS encoded buff bits rest

/-- c32.rs:132-137 and 193-198: one step for each `pop`. -/
def popWhileEqS (z : UInt8) (v : Bytes) : Steps Error Bytes := do
  tick (v.length - (popWhileEq z v).length + 1)
  pure (popWhileEq z v)

/-- c32.rs:139-145 and 200-206: one step for each element looked at. -/
def pushPerLeadingZeroS (z : UInt8) : Bytes → Steps Error Bytes
  | [] => pure []
  | b :: rest => do
    tick 1
    if b == 0 then do
      let tl ← pushPerLeadingZeroS z rest
      pure (z :: tl)
    else pure []

/-- c32.rs:107-149 `c32_encode`, counting. -/
def c32EncodeS (data : Bytes) : Steps Error Str := do
  let (encoded, buff, bits) ← encodeLoopS [] 0 0 data.reverse
  let encoded ← free (if bits > 0 then do
      let ch ← idx alphabet (buff &&& 0x1F).toNat
      pure (encoded ++ [ch])
    else pure encoded : Outcome Error Bytes)
  let z ← free (idx alphabet 0)
  let encoded ← popWhileEqS z encoded
  let zs ← pushPerLeadingZeroS z data
  free (stringFromUtf8 (encoded ++ zs).reverse)

/-- c32.rs:164-172, counting. -/
def decodeLookupS : Bytes → Steps Error Bytes
  | [] => pure []
  | i :: rest => do
    tick 1
    let byte := (byteMap[i.toNat]?).getD (-1)
    if byte < 0 then free (.err (.badChar (Char.ofNat i.toNat)))
    else if byte < 256 then do
      let tl ← decodeLookupS rest
      pure (UInt8.ofNat byte.toNat :: tl)
    else free (.err .tryFromInt)

/-- c32.rs:182-186, counting. -/
def decodeDrainS (decoded : Bytes) (carry : UInt16) (carryBits : Nat) : Steps Error (Bytes × UInt16 × Nat) :=
  if carryBits ≥ 8 then do
    tick 1
    decodeDrainS (decoded ++ [(carry &&& 0xFF).toUInt8]) (carry >>> 8) (carryBits - 8)
  else pure (decoded, carry, carryBits)
termination_by carryBits

/-- c32.rs:178-187, counting. -/
def decodeLoopS (decoded : Bytes) (carry : UInt16) (carryBits : Nat) : Bytes → Steps Error (Bytes × UInt16 × Nat)
  | [] => pure (decoded, carry, carryBits)
  | bits :: rest => do
    tick 1
    let shifted ← free (shl16 bits.toUInt16 carryBits)
    let (decoded, carry, carryBits) ← decodeDrainS decoded (carry ||| shifted) (carryBits + 5)
    decodeLoopS decoded carry carryBits rest

/-- c32.rs:152-210 `c32_decode`, counting. -/
def c32DecodeS (s : Str) : Steps Error Bytes := do
  if !s.isAscii then free (.err .badInput)
  else do
    let buff ← decodeLookupS s.bytes.reverse
    let (decoded, carry, carryBits) ← decodeLoopS [] 0 0 buff
    let decoded ← free (if carryBits > 0 then do
        let b ← u8FromU16 carry
        pure (decoded ++ [b])
      else pure decoded : Outcome Error Bytes)
    let decoded ← popWhileEqS 0 decoded
    let zs ← pushPerLeadingZeroS 0 buff.reverse
    pure (decoded ++ zs).reverse

end C32

end Stacks

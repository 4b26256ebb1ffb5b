import Verif.Model.Clarity

/-! # The work of decoding

The decoders of lists, tuples and function arguments find the end of each element by encoding it
again (`offset += value.encode()?.len()`). Here the same functions are written once more in a monad
that counts the bytes appended to the buffers that `encode` builds. Only these are counted; the
small buffers for keys and names inside `LengthPrefixedStr::encode` and the checksums of addresses
are not. `Proofs/Cost` shows that the results are those of `Model/Clarity`. -/

namespace Stacks.Clarity

/-- A result and the number of bytes written on the way to it. -/
def Cost (α : Type) : Type := Nat × Outcome Error α

namespace Cost

/-- Nothing is written. -/
def free {α : Type} (o : Outcome Error α) : Cost α := (0, o)

/-- `n` bytes are appended to a buffer. -/
def write (n : Nat) : Cost Unit := (n, .ok ())

/-- Sequencing (`?`, and panics, stop). -/
def andThen {α β : Type} (x : Cost α) (f : α → Cost β) : Cost β :=
  match x with
  | (c, .ok a) => (c + (f a).1, (f a).2)
  | (c, .err e) => (c, .err e)
  | (c, .panic) => (c, .panic)

instance : Monad Cost where
  pure a := (0, .ok a)
  bind := andThen

end Cost

section
variable [Hashes]
open Cost

mutual
/-- `Codec::encode`, counting. impl.rs:405-409, 443-447, 481-485: `buff.extend_from_slice(&self.__value.encode()?)`
copies the bytes of the inner value; lists, tuples and arguments likewise. The other types build one
buffer with the encoding. -/
def CV.encodeCost : CV → Cost Bytes
  | .respOk v => do
    write 1
    let e ← v.encodeCost
    write e.length
    pure ([idRespOk] ++ e)
  | .respErr v => do
    write 1
    let e ← v.encodeCost
    write e.length
    pure ([idRespErr] ++ e)
  | .optSome v => do
    write 1
    let e ← v.encodeCost
    write e.length
    pure ([idSome] ++ e)
  | .list vs => do
    let n ← free (lenBytes vs.length)
    write 5
    let body ← CV.encodeAllCost vs
    pure ([idList] ++ n ++ body)
  | .tuple es => do
    let n ← free (lenBytes es.length)
    write 5
    let body ← CV.encodeEntriesCost es
    pure ([idTuple] ++ n ++ body)
  | .fnArgs vs => do
    let n ← free (lenBytes vs.length)
    write 4
    let body ← CV.encodeAllCost vs
    pure (n ++ body)
  | v => do
    let e ← free v.encode
    write e.length
    pure e

/-- impl.rs:560-562 and 909-911, counting. -/
def CV.encodeAllCost : List CV → Cost Bytes
  | [] => pure []
  | v :: vs => do
    let e ← v.encodeCost
    write e.length
    let r ← CV.encodeAllCost vs
    pure (e ++ r)

/-- impl.rs:692-695, counting. -/
def CV.encodeEntriesCost : List (Str × CV) → Cost Bytes
  | [] => pure []
  | (k, v) :: es => do
    let ke ← free (lpsEncode k)
    write ke.length
    let ve ← v.encodeCost
    write ve.length
    let r ← CV.encodeEntriesCost es
    pure (ke ++ ve ++ r)
end

/-- impl.rs:411-421, 449-459 and 487-497, counting. -/
def wrappedDecodeCost (id : UInt8) (rec : Bytes → Cost CV) (bytes : Bytes) : Cost CV := do
  free (checkId id bytes)
  let rest ← free (sliceFrom bytes 1)
  rec rest

/-- impl.rs:580-584, counting. -/
def listLoopCost (rec : Bytes → Cost CV) (bytes : Bytes) : Nat → Nat → Cost (List CV)
  | 0, _ => pure []
  | n + 1, offset => do
    let rest ← free (sliceFrom bytes offset)
    let value ← rec rest
    let e ← value.encodeCost
    let r ← listLoopCost rec bytes n (offset + e.length)
    pure (value :: r)

/-- impl.rs:567-587 `List::decode`, counting. -/
def listDecodeCost (rec : Bytes → Cost CV) (bytes : Bytes) : Cost (List CV) := do
  free (checkId idList bytes)
  let len ← free (readLen bytes)
  listLoopCost rec bytes len 5

/-- impl.rs:713-720, counting. -/
def tupleLoopCost (rec : Bytes → Cost CV) (bytes : Bytes) : Nat → Nat → Cost (List (Str × CV))
  | 0, _ => pure []
  | n + 1, offset => do
    let kLen ← free (idx bytes offset)
    let ks ← free (slice bytes (offset + 1) (offset + 1 + kLen.toNat))
    let key ← free (stringFromUtf8 ks)
    let offset := offset + (1 + kLen.toNat)
    let rest ← free (sliceFrom bytes offset)
    let value ← rec rest
    let e ← value.encodeCost
    let r ← tupleLoopCost rec bytes n (offset + e.length)
    pure ((key, value) :: r)

/-- impl.rs:700-723 `Tuple::decode`, counting. -/
def tupleDecodeCost (rec : Bytes → Cost CV) (bytes : Bytes) : Cost (List (Str × CV)) := do
  free (checkId idTuple bytes)
  let len ← free (readLen bytes)
  tupleLoopCost rec bytes len 5

/-- mod.rs:174-195 `decode_clarity_type`, counting. The types without elements write nothing to
buffers of `encode`: for them this is the decoder of `Model/Clarity`. -/
def decodeAtCost (stop : Outcome Error CV) : Nat → Bytes → Cost CV
  | 0, _ => free stop
  | fuel + 1, bytes => do
    let tag ← free (idx bytes 0)
    if tag = idRespOk then return .respOk (← wrappedDecodeCost idRespOk (decodeAtCost stop fuel) bytes)
    else if tag = idRespErr then return .respErr (← wrappedDecodeCost idRespErr (decodeAtCost stop fuel) bytes)
    else if tag = idSome then return .optSome (← wrappedDecodeCost idSome (decodeAtCost stop fuel) bytes)
    else if tag = idList then return .list (← listDecodeCost (decodeAtCost stop fuel) bytes)
    else if tag = idTuple then return .tuple (← tupleDecodeCost (decodeAtCost stop fuel) bytes)
    else free (decodeAt stop (fuel + 1) bytes)

/-- mod.rs:174-195 `decode_clarity_type`, counting. -/
def decodeCost (bytes : Bytes) : Cost CV := decodeAtCost .panic (bytes.length + 1) bytes

/-- impl.rs:925-930, counting: `arg.len()` encodes the argument. -/
def fnArgsLoopCost : Nat → Bytes → Cost (List CV)
  | 0, _ => pure []
  | n + 1, remainder => do
    let arg ← decodeCost remainder
    let e ← arg.encodeCost
    let remainder ← free (sliceFrom remainder e.length)
    let r ← fnArgsLoopCost n remainder
    pure (arg :: r)

/-- impl.rs:916-933 `FnArguments::decode`, counting. -/
def fnArgsDecodeCost (bytes : Bytes) : Cost (List CV) :=
  if bytes.length < 4 then free .panic
  else fnArgsLoopCost (beVal (bytes.take 4)) (bytes.drop 4)

/-- impl.rs:921-923: the number of elements for which `Vec::with_capacity(num)` asks for room (16
bytes each on 64-bit targets) before any argument is read; `none` if the function panics first. -/
def fnArgsCapacity (bytes : Bytes) : Option Nat :=
  if bytes.length < 4 then none else some (beVal (bytes.take 4))

end

end Stacks.Clarity

import Verif.Model.Release
import Verif.Model.Clarity

/-! # The crate built for a target with 32-bit sizes

On `wasm32` and other 32-bit targets a `usize` has 32 bits, so that products and sums of lengths can overflow, and no
allocation is larger than `isize::MAX = 2^31 - 1` bytes. Everywhere else in the model a `usize` is a natural number,
which is right for 64-bit targets. The functions that multiply or add lengths taken from their input, or reserve room
for a number of elements taken from their input, are modelled here a second time; `checks` says whether overflow checks
are on (debug builds) or off (`--release`). The remaining sums of lengths (such as `offset + 1 + k_len` in the loops of
the decoders) are sums of two lengths of byte vectors, below `2^31` each, or of one and a small constant, and do not
overflow. The growth of vectors by `push` beyond what can be addressed is not modelled; for inputs of less than `2^27`
bytes no vector grows so far. -/

namespace Stacks.Target32

/-- A `usize` sum or product on a 32-bit target. -/
def usize {ε : Type} (checks : Bool) (n : Nat) : Outcome ε Nat :=
  if n < 2 ^ 32 then .ok n else if checks then .panic else .ok (n % 2 ^ 32)

/-- `Vec::with_capacity(n)` for elements of `size` bytes: "capacity overflow" above `isize::MAX` bytes. -/
def withCapacity {ε : Type} (n size : Nat) : Outcome ε Unit := if n * size < 2 ^ 31 then .ok () else .panic

/-- b58.rs:61-98 `b58_encode`: only the capacity (line 72) is computed from the length; a `char` has four bytes. -/
def b58Encode (checks : Bool) (data : Bytes) : Outcome B58.Error Str := do
  let p ← usize checks (data.length * 138)
  withCapacity (p / 100 + 1) 4
  if checks then B58.b58Encode data else Release.B58.b58Encode data

/-- b58.rs:101-142 `b58_decode`: the size of the buffer is computed at line 116. -/
def b58Decode (checks : Bool) (s : Str) : Outcome B58.Error Bytes := do
  if s.bytes.isEmpty then pure []
  else do
    let zeros := B58.countLeading 0x31 s.bytes
    let p ← usize checks (s.len * 733)
    let buff := List.replicate (p / 1000 + 1) (0 : UInt8)
    let buff ← (if checks then B58.decodeLoop buff s else Release.B58.decodeLoop buff s)
    let buff := buff.dropWhile (· == 0)
    pure (List.replicate zeros 0 ++ buff)

section
variable [Hashes]

/-- b58.rs:169-194 `base58check_decode`; without overflow checks `buff_max - 4` wraps and the slice panics instead. -/
def base58checkDecode (checks : Bool) (s : Str) : Outcome B58.Error (Bytes × UInt8) := do
  let buff ← b58Decode checks s
  let max := buff.length
  let m ← (if 4 ≤ max then .ok (max - 4) else .panic : Outcome B58.Error Nat)
  let checksum ← sliceFrom buff m
  let data ← slice buff 1 m
  let head ← slice buff 0 m
  let bytes := dsha256Hash head
  B58.checksumLoop checksum bytes.1 [0, 1, 2, 3]
  let v ← idx buff 0
  pure (data, v)

end

open Clarity

/-- impl.rs:789-791 and 826-828: `&bytes[5..(5 + len as usize)]`. -/
def stringBody (checks : Bool) (bytes : Bytes) : Outcome Clarity.Error Str := do
  let len ← readLen bytes
  let stop ← usize checks (5 + len)
  let s ← slice bytes 5 stop
  stringFromUtf8 s

/-- impl.rs:781-792 `StringAscii::decode`. -/
def strAsciiDecode (checks : Bool) (bytes : Bytes) : Outcome Clarity.Error Str := do
  checkId idStrAscii bytes
  stringBody checks bytes

/-- impl.rs:822-829 `StringUtf8::decode`. -/
def strUtf8Decode (checks : Bool) (bytes : Bytes) : Outcome Clarity.Error Str := stringBody checks bytes

section
variable [Hashes]

/-- mod.rs:174-195 `decode_clarity_type`, with the two string decoders above. -/
def decodeAt (checks : Bool) : Nat → Bytes → Outcome Clarity.Error CV
  | 0, _ => .panic
  | fuel + 1, bytes => do
    let tag ← idx bytes 0
    if tag = idInt then return .int (← intDecode bytes)
    else if tag = idUInt then return .uint (← uintDecode bytes)
    else if tag = idBuffer then return .buffer (← bufferDecode bytes)
    else if tag = idTrue then do trueDecode bytes; return .tru
    else if tag = idFalse then do falseDecode bytes; return .fls
    else if tag = idStdPr then return .principalStd (← principalStdDecode bytes)
    else if tag = idConPr then do
      let (a, n) ← principalConDecode bytes
      return .principalCon a n
    else if tag = idRespOk then return .respOk (← respOkDecode (decodeAt checks fuel) bytes)
    else if tag = idRespErr then return .respErr (← respErrDecode (decodeAt checks fuel) bytes)
    else if tag = idNone then do noneDecode bytes; return .optNone
    else if tag = idSome then return .optSome (← someDecode (decodeAt checks fuel) bytes)
    else if tag = idList then return .list (← listDecode (decodeAt checks fuel) bytes)
    else if tag = idTuple then return .tuple (← tupleDecode (decodeAt checks fuel) bytes)
    else if tag = idStrAscii then return .strAscii (← strAsciiDecode checks bytes)
    else if tag = idStrUtf8 then return .strUtf8 (← strUtf8Decode checks bytes)
    else .err (.unexpectedType tag)

/-- mod.rs:174-195 `decode_clarity_type`. -/
def decode (checks : Bool) (bytes : Bytes) : Outcome Clarity.Error CV := decodeAt checks (bytes.length + 1) bytes

/-- impl.rs:925-930: the loop of `FnArguments::decode`. -/
def fnArgsLoop (checks : Bool) : Nat → Bytes → Outcome Clarity.Error (List CV)
  | 0, _ => .ok []
  | n + 1, remainder => do
    let arg ← decode checks remainder
    let l ← arg.len
    let remainder ← sliceFrom remainder l
    let r ← fnArgsLoop checks n remainder
    pure (arg :: r)

/-- impl.rs:916-933 `FnArguments::decode`. A `Box<dyn Clarity>` has eight bytes on a 32-bit target. -/
def fnArgsDecode (checks : Bool) (bytes : Bytes) : Outcome Clarity.Error (List CV) :=
  if bytes.length < 4 then .panic
  else do
    withCapacity (beVal (bytes.take 4)) 8
    fnArgsLoop checks (beVal (bytes.take 4)) (bytes.drop 4)

end

end Stacks.Target32

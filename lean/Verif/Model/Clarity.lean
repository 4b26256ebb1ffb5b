import Verif.Model.C32
import Verif.Model.Hex

/-! # `stacks/src/clarity/{mod,macro,impl}.rs`: Clarity values -/

namespace Stacks.Clarity

/-- mod.rs:24-53 `enum Error` (the `TryFrom*` variants carry std error values, which are not
modelled). -/
inductive Error where
  | badStringLength (received max : Nat)
  | badStringType (expected : Str)
  | badIdentifier (expected received : UInt8)
  | badDowncast
  | unexpectedType (id : UInt8)
  | c32 (e : C32.Error)
  | tryFromInt
  | tryFromUtf8
  | tryFromSlice
deriving DecidableEq, Repr

/-- mod.rs:88-90 and 147-171: `Box<dyn Clarity>`, as the sum of the crate's types implementing
`Clarity` (each is a struct around the value shown; `i128`/`u128` are 128-bit words).
`PostConditions`, which also implements `Clarity`, and types implemented by users of the crate
are left out. -/
inductive CV where
  | int (x : BitVec 128)
  | uint (x : BitVec 128)
  | buffer (bs : Bytes)
  | tru
  | fls
  | principalStd (addr : Str)
  | principalCon (addr name : Str)
  | respOk (v : CV)
  | respErr (v : CV)
  | optNone
  | optSome (v : CV)
  | list (vs : List CV)
  | tuple (es : List (Str × CV))
  | strAscii (s : Str)
  | strUtf8 (s : Str)
  | lps (s : Str)
  | fnArgs (vs : List CV)

/-- mod.rs:55-86: the type identifiers. -/
def idInt : UInt8 := 0x00
@[inherit_doc idInt] def idUInt : UInt8 := 0x01
@[inherit_doc idInt] def idBuffer : UInt8 := 0x02
@[inherit_doc idInt] def idTrue : UInt8 := 0x03
@[inherit_doc idInt] def idFalse : UInt8 := 0x04
@[inherit_doc idInt] def idStdPr : UInt8 := 0x05
@[inherit_doc idInt] def idConPr : UInt8 := 0x06
@[inherit_doc idInt] def idRespOk : UInt8 := 0x07
@[inherit_doc idInt] def idRespErr : UInt8 := 0x08
@[inherit_doc idInt] def idNone : UInt8 := 0x09
@[inherit_doc idInt] def idSome : UInt8 := 0x0a
@[inherit_doc idInt] def idList : UInt8 := 0x0b
@[inherit_doc idInt] def idTuple : UInt8 := 0x0c
@[inherit_doc idInt] def idStrAscii : UInt8 := 0x0d
@[inherit_doc idInt] def idStrUtf8 : UInt8 := 0x0e

/-- `u32::try_from(len)?.to_be_bytes()`. -/
def lenBytes (n : Nat) : Outcome Error Bytes := Outcome.ofOption .tryFromInt (u32Bytes n)

/-- impl.rs:850-862 `LengthPrefixedStr::encode`. -/
def lpsEncode (s : Str) : Outcome Error Bytes :=
  let bytes := s.bytes
  if bytes.length > 128 then .err (.badStringLength bytes.length 128)
  else if bytes.length < 256 then .ok (UInt8.ofNat bytes.length :: bytes)
  else .err .tryFromInt

/-- `String::from_utf8(bytes)?` with the error conversion of mod.rs:49. -/
def stringFromUtf8 (bs : Bytes) : Outcome Error Str := Outcome.ofOption .tryFromUtf8 (fromUtf8 bs)

section
variable [Hashes]

mutual
/-- `Codec::encode` of the value inside the box, by the type of the value:
impl.rs:39-43 Int, 92-96 UInt, 145-150 Buffer, 220-222 True, 257-259 False,
294-299 PrincipalStandard, 351-358 PrincipalContract, 405-409 ResponseOk, 443-447 ResponseErr,
481-485 OptionalSome, 519-521 OptionalNone, 556-565 List, 688-698 Tuple, 768-779 StringAscii,
814-820 StringUtf8, 851-862 LengthPrefixedStr, 905-914 FnArguments. -/
def CV.encode : CV → Outcome Error Bytes
  | .int x => .ok (idInt :: beBytes 16 x.toNat)
  | .uint x => .ok (idUInt :: beBytes 16 x.toNat)
  | .buffer bs => do
    let n ← lenBytes bs.length
    pure ([idBuffer] ++ n ++ bs)
  | .tru => .ok [idTrue]
  | .fls => .ok [idFalse]
  | .principalStd a => do
    let (addr, ver) ← (C32.c32AddressDecode a).mapErr .c32
    pure ([idStdPr, ver] ++ addr)
  | .principalCon a name => do
    let (addr, ver) ← (C32.c32AddressDecode a).mapErr .c32
    let con ← lpsEncode name
    pure ([idConPr, ver] ++ addr ++ con)
  | .respOk v => do
    let e ← v.encode
    pure ([idRespOk] ++ e)
  | .respErr v => do
    let e ← v.encode
    pure ([idRespErr] ++ e)
  | .optNone => .ok [idNone]
  | .optSome v => do
    let e ← v.encode
    pure ([idSome] ++ e)
  | .list vs => do
    let n ← lenBytes vs.length
    let body ← CV.encodeAll vs
    pure ([idList] ++ n ++ body)
  | .tuple es => do
    let n ← lenBytes es.length
    let body ← CV.encodeEntries es
    pure ([idTuple] ++ n ++ body)
  | .strAscii s =>
    if !s.isAscii then .err (.badStringType "Ascii".toList)
    else do
      let n ← lenBytes s.bytes.length
      pure ([idStrAscii] ++ n ++ s.bytes)
  | .strUtf8 s => do
    let n ← lenBytes s.bytes.length
    pure ([idStrUtf8] ++ n ++ s.bytes)
  | .lps s => lpsEncode s
  | .fnArgs vs => do
    let n ← lenBytes vs.length
    let body ← CV.encodeAll vs
    pure (n ++ body)

/-- impl.rs:560-562 and 909-911: the encodings of the elements, in order, stopping at the
first error. -/
def CV.encodeAll : List CV → Outcome Error Bytes
  | [] => .ok []
  | v :: vs => do
    let e ← v.encode
    let r ← CV.encodeAll vs
    pure (e ++ r)

/-- impl.rs:692-695: each key as a length-prefixed string followed by its value. -/
def CV.encodeEntries : List (Str × CV) → Outcome Error Bytes
  | [] => .ok []
  | (k, v) :: es => do
    let ke ← lpsEncode k
    let ve ← v.encode
    let r ← CV.encodeEntries es
    pure (ke ++ ve ++ r)
end

/-- mod.rs:101-103 `Codec::len`. -/
def CV.len (v : CV) : Outcome Error Nat := do
  let e ← v.encode
  pure e.length

/-- mod.rs:105-107 `Codec::is_empty`. -/
def CV.isEmpty (v : CV) : Outcome Error Bool := do
  let n ← v.len
  pure (n == 0)

/-- mod.rs:111-113 `Codec::hex`. -/
def CV.hex (v : CV) : Outcome Error Str := do
  let e ← v.encode
  pure (Hex.bytesToHex e)

/-- mod.rs:117-119 `Codec::hex_prefixed`. -/
def CV.hexPrefixed (v : CV) : Outcome Error Str := do
  let h ← v.hex
  pure ("0x".toList ++ h)

end

/-! ## Decoding

Every typed decoder takes the decoder for boxed values as its first argument where it needs
one; `decodeAt` below ties the knot. -/

/-- `if bytes[0] != Self::id() { return Err(BadIdentifier(Self::id(), bytes[0])) }`, at
impl.rs:49-51, 102-104, 156-158, 228-230, 265-267, 305-307, 364-366, 415-417, 453-455,
491-493, 527-529, 571-573, 704-706, 785-787. -/
def checkId (id : UInt8) (bytes : Bytes) : Outcome Error Unit := do
  let t ← idx bytes 0
  if t ≠ id then .err (.badIdentifier id t) else pure ()

/-- `u32::from_be_bytes([bytes[1], bytes[2], bytes[3], bytes[4]])`. -/
def readLen (bytes : Bytes) : Outcome Error Nat := do
  let b1 ← idx bytes 1
  let b2 ← idx bytes 2
  let b3 ← idx bytes 3
  let b4 ← idx bytes 4
  pure (beVal [b1, b2, b3, b4])

/-- impl.rs:45-56 `Int::decode`. -/
def intDecode (bytes : Bytes) : Outcome Error (BitVec 128) := do
  checkId idInt bytes
  let s ← slice bytes 1 17
  let buff ← copyFromSlice 16 s
  pure (BitVec.ofNat 128 (beVal buff.1))

/-- impl.rs:98-109 `UInt::decode`. -/
def uintDecode (bytes : Bytes) : Outcome Error (BitVec 128) := do
  checkId idUInt bytes
  let s ← slice bytes 1 17
  let buff ← copyFromSlice 16 s
  pure (BitVec.ofNat 128 (beVal buff.1))

/-- impl.rs:165-168: `for _ in 0..len { buff.push(bytes[offset]); offset += 1 }`. -/
def bufferLoop (bytes : Bytes) : Nat → Nat → Outcome Error Bytes
  | 0, _ => .ok []
  | n + 1, offset => do
    let b ← idx bytes offset
    let r ← bufferLoop bytes n (offset + 1)
    pure (b :: r)

/-- impl.rs:152-171 `Buffer::decode`. -/
def bufferDecode (bytes : Bytes) : Outcome Error Bytes := do
  checkId idBuffer bytes
  let len ← readLen bytes
  bufferLoop bytes len 5

/-- impl.rs:224-233 `True::decode`. -/
def trueDecode (bytes : Bytes) : Outcome Error Unit := checkId idTrue bytes

/-- impl.rs:261-270 `False::decode`. -/
def falseDecode (bytes : Bytes) : Outcome Error Unit := checkId idFalse bytes

/-- impl.rs:523-532 `OptionalNone::decode`. -/
def noneDecode (bytes : Bytes) : Outcome Error Unit := checkId idNone bytes

section
variable [Hashes]

/-- impl.rs:309 and 368: `c32_address(&bytes[2..22], bytes[1])?`. -/
def readAddr (bytes : Bytes) : Outcome Error Str := do
  let h ← slice bytes 2 22
  let v ← idx bytes 1
  (C32.c32Address h v).mapErr .c32

/-- impl.rs:301-311 `PrincipalStandard::decode`. -/
def principalStdDecode (bytes : Bytes) : Outcome Error Str := do
  checkId idStdPr bytes
  readAddr bytes

/-- impl.rs:360-371 `PrincipalContract::decode`. -/
def principalConDecode (bytes : Bytes) : Outcome Error (Str × Str) := do
  checkId idConPr bytes
  let addr ← readAddr bytes
  let n ← idx bytes 22
  let s ← slice bytes 23 (23 + n.toNat)
  let name ← stringFromUtf8 s
  pure (addr, name)

/-- impl.rs:411-421 `ResponseOk::decode`. -/
def respOkDecode (rec : Bytes → Outcome Error CV) (bytes : Bytes) : Outcome Error CV := do
  checkId idRespOk bytes
  let rest ← sliceFrom bytes 1
  rec rest

/-- impl.rs:449-459 `ResponseErr::decode`. -/
def respErrDecode (rec : Bytes → Outcome Error CV) (bytes : Bytes) : Outcome Error CV := do
  checkId idRespErr bytes
  let rest ← sliceFrom bytes 1
  rec rest

/-- impl.rs:487-497 `OptionalSome::decode`. -/
def someDecode (rec : Bytes → Outcome Error CV) (bytes : Bytes) : Outcome Error CV := do
  checkId idSome bytes
  let rest ← sliceFrom bytes 1
  rec rest

/-- impl.rs:580-584: the element loop of `List::decode`. -/
def listLoop (rec : Bytes → Outcome Error CV) (bytes : Bytes) : Nat → Nat → Outcome Error (List CV)
  | 0, _ => .ok []
  | n + 1, offset => do
    let rest ← sliceFrom bytes offset
    let value ← rec rest
    let e ← value.encode
    let r ← listLoop rec bytes n (offset + e.length)
    pure (value :: r)

/-- impl.rs:567-587 `List::decode`. -/
def listDecode (rec : Bytes → Outcome Error CV) (bytes : Bytes) : Outcome Error (List CV) := do
  checkId idList bytes
  let len ← readLen bytes
  listLoop rec bytes len 5

/-- impl.rs:713-720: the entry loop of `Tuple::decode`. -/
def tupleLoop (rec : Bytes → Outcome Error CV) (bytes : Bytes) :
    Nat → Nat → Outcome Error (List (Str × CV))
  | 0, _ => .ok []
  | n + 1, offset => do
    let kLen ← idx bytes offset
    let ks ← slice bytes (offset + 1) (offset + 1 + kLen.toNat)
    let key ← stringFromUtf8 ks
    let offset := offset + (1 + kLen.toNat)
    let rest ← sliceFrom bytes offset
    let value ← rec rest
    let e ← value.encode
    let r ← tupleLoop rec bytes n (offset + e.length)
    pure ((key, value) :: r)

/-- impl.rs:700-723 `Tuple::decode`. -/
def tupleDecode (rec : Bytes → Outcome Error CV) (bytes : Bytes) :
    Outcome Error (List (Str × CV)) := do
  checkId idTuple bytes
  let len ← readLen bytes
  tupleLoop rec bytes len 5

end

/-- impl.rs:789-791 and 826-828: the body shared by the two string decoders. -/
def stringBody (bytes : Bytes) : Outcome Error Str := do
  let len ← readLen bytes
  let s ← slice bytes 5 (5 + len)
  stringFromUtf8 s

/-- impl.rs:781-792 `StringAscii::decode`. -/
def strAsciiDecode (bytes : Bytes) : Outcome Error Str := do
  checkId idStrAscii bytes
  stringBody bytes

/-- impl.rs:822-829 `StringUtf8::decode`: there is no check of the identifier. -/
def strUtf8Decode (bytes : Bytes) : Outcome Error Str := stringBody bytes

/-- impl.rs:864-871 `LengthPrefixedStr::decode`. -/
def lpsDecode (bytes : Bytes) : Outcome Error Str := do
  let n ← idx bytes 0
  let s ← slice bytes 1 (n.toNat + 1)
  stringFromUtf8 s

section
variable [Hashes]

/-- mod.rs:174-195 `decode_clarity_type`, with the recursive calls made by the typed decoders
cut off by `stop` at depth `fuel`. -/
def decodeAt (stop : Outcome Error CV) : Nat → Bytes → Outcome Error CV
  | 0, _ => stop
  | fuel + 1, bytes => do
    let tag ← idx bytes 0
    if tag = idInt then return .int (← intDecode bytes)
    else if tag = idUInt then return .uint (← uintDecode bytes)
    else if tag = idBuffer then return .buffer (← bufferDecode bytes)
    else if tag = idTrue then do trueDecode bytes; return .tru
    else if tag = idFalse then do falseDecode bytes; return .fls
    else if tag = idStdPr then return .principalStd (← principalStdDecode bytes)
    else if tag = idConPr then do
      let (a, n) ← principalConDecode bytes
      return .principalCon a n
    else if tag = idRespOk then return .respOk (← respOkDecode (decodeAt stop fuel) bytes)
    else if tag = idRespErr then return .respErr (← respErrDecode (decodeAt stop fuel) bytes)
    else if tag = idNone then do noneDecode bytes; return .optNone
    else if tag = idSome then return .optSome (← someDecode (decodeAt stop fuel) bytes)
    else if tag = idList then return .list (← listDecode (decodeAt stop fuel) bytes)
    else if tag = idTuple then return .tuple (← tupleDecode (decodeAt stop fuel) bytes)
    else if tag = idStrAscii then return .strAscii (← strAsciiDecode bytes)
    else if tag = idStrUtf8 then return .strUtf8 (← strUtf8Decode bytes)
    else .err (.unexpectedType tag)

/-- mod.rs:174-195 `decode_clarity_type`. The recursion depth is at most the length of the input
plus one (property C30), so this bound cuts nothing off. -/
def decode (bytes : Bytes) : Outcome Error CV := decodeAt .panic (bytes.length + 1) bytes

/-- impl.rs:925-930: the loop of `FnArguments::decode`. -/
def fnArgsLoop : Nat → Bytes → Outcome Error (List CV)
  | 0, _ => .ok []
  | n + 1, remainder => do
    let arg ← decode remainder
    let l ← arg.len
    let remainder ← sliceFrom remainder l
    let r ← fnArgsLoop n remainder
    pure (arg :: r)

/-- impl.rs:916-933 `FnArguments::decode`. `split_at(4)` panics on shorter input; the
conversion `len.try_into()` cannot fail. The room asked for by
`Vec::with_capacity` is modelled in `Model/Cost`. -/
def fnArgsDecode (bytes : Bytes) : Outcome Error (List CV) :=
  if bytes.length < 4 then .panic
  else fnArgsLoop (beVal (bytes.take 4)) (bytes.drop 4)

end

/-! ## Display and equality -/

/-- `Display` of a signed integer. -/
def showInt (i : Int) : Str :=
  if i < 0 then '-' :: Nat.toDigits 10 i.natAbs else Nat.toDigits 10 i.natAbs

mutual
/-- `Display::fmt` by type: impl.rs:59-63, 112-116, 174-178, 236-240, 273-277, 314-318, 374-378,
424-428, 462-466, 500-504, 535-539, 590-601, 726-737, 795-799, 832-836, 874-878, 936-947. -/
def CV.display : CV → Str
  | .int x => showInt x.toInt
  | .uint x => 'u' :: Nat.toDigits 10 x.toNat
  | .buffer bs => "0x".toList ++ Hex.bytesToHex bs
  | .tru => "true".toList
  | .fls => "false".toList
  | .principalStd a => a
  | .principalCon a n => a ++ '.' :: n
  | .respOk v => "(ok ".toList ++ v.display ++ ")".toList
  | .respErr v => "(err ".toList ++ v.display ++ ")".toList
  | .optNone => "none".toList
  | .optSome v => "(some ".toList ++ v.display ++ ")".toList
  | .list vs => "(list ".toList ++ CV.displayAll vs ++ ")".toList
  | .tuple es => "(tuple ".toList ++ CV.displayEntries es ++ ")".toList
  | .strAscii s => '"' :: s ++ "\"".toList
  | .strUtf8 s => "u\"".toList ++ s ++ "\"".toList
  | .lps s => s
  | .fnArgs vs => "(fn-args ".toList ++ CV.displayAll vs ++ ")".toList

/-- impl.rs:593-598 and 939-944: the elements separated by single spaces. -/
def CV.displayAll : List CV → Str
  | [] => []
  | v :: vs => v.display ++ (if vs.isEmpty then [] else ' ' :: CV.displayAll vs)

/-- impl.rs:729-734: the entries `(key value)` separated by single spaces. -/
def CV.displayEntries : List (Str × CV) → Str
  | [] => []
  | (k, v) :: es => '(' :: k ++ ' ' :: v.display ++ ")".toList ++
      (if es.isEmpty then [] else ' ' :: CV.displayEntries es)
end

/-- The concrete Rust types a `Box<dyn Clarity>` can hold (what `TypeId` distinguishes). -/
inductive Kind where
  | int | uint | buffer | tru | fls | principalStd | principalCon | respOk | respErr
  | optNone | optSome | list | tuple | strAscii | strUtf8 | lps | fnArgs
deriving DecidableEq, Repr

/-- The concrete type of a boxed value. -/
def CV.kind : CV → Kind
  | .int _ => .int | .uint _ => .uint | .buffer _ => .buffer | .tru => .tru | .fls => .fls
  | .principalStd _ => .principalStd | .principalCon _ _ => .principalCon
  | .respOk _ => .respOk | .respErr _ => .respErr | .optNone => .optNone | .optSome _ => .optSome
  | .list _ => .list | .tuple _ => .tuple | .strAscii _ => .strAscii | .strUtf8 _ => .strUtf8
  | .lps _ => .lps | .fnArgs _ => .fnArgs

/-- macro.rs:70-74 `PartialEq::eq`: equality of the displayed forms. Rust only has it for two
values of the same concrete type; the model does not enforce that, the theorems do. -/
def CV.eq (a b : CV) : Bool := a.display == b.display

/-! ## Casting -/

/-- mod.rs:147-171: the type of the value wrapped by each concrete type (`into_value`). -/
abbrev Kind.Val : Kind → Type
  | .int | .uint => BitVec 128
  | .buffer => Bytes
  | .tru | .fls | .optNone => Unit
  | .principalStd | .strAscii | .strUtf8 | .lps => Str
  | .principalCon => Str × Str
  | .respOk | .respErr | .optSome => CV
  | .list | .fnArgs => List CV
  | .tuple => List (Str × CV)

/-- macro.rs:94-104 `Cast::cast::<T>` for `Box<dyn Clarity>`: `into_any().downcast::<T>()`
succeeds when the concrete type is `T`; the result is shown as the wrapped value. `cast_as`
(macro.rs:104-110) is the same without consuming the box. -/
def CV.cast : (k : Kind) → CV → Outcome Error k.Val
  | .int, .int x => .ok x
  | .uint, .uint x => .ok x
  | .buffer, .buffer x => .ok x
  | .tru, .tru => .ok ()
  | .fls, .fls => .ok ()
  | .principalStd, .principalStd x => .ok x
  | .principalCon, .principalCon x y => .ok (x, y)
  | .respOk, .respOk x => .ok x
  | .respErr, .respErr x => .ok x
  | .optNone, .optNone => .ok ()
  | .optSome, .optSome x => .ok x
  | .list, .list x => .ok x
  | .tuple, .tuple x => .ok x
  | .strAscii, .strAscii x => .ok x
  | .strUtf8, .strUtf8 x => .ok x
  | .lps, .lps x => .ok x
  | .fnArgs, .fnArgs x => .ok x
  | _, _ => .err .badDowncast

/-- macro.rs:115-131 `Cast::cast::<T>` for `ResponseOk`, `ResponseErr` and `OptionalSome`: the
same applied to the wrapped box (`inner`). -/
def castWrapped (k : Kind) (inner : CV) : Outcome Error k.Val := inner.cast k

/-! ## Tuple operations (on the vector of entries) -/

/-- impl.rs:633-641 `Tuple::get`. -/
def tupleGet (es : List (Str × CV)) (key : Str) : Option CV :=
  (es.find? (fun e => e.1 == key)).map (·.2)

/-- impl.rs:644-652 `Tuple::get_mut` followed by an assignment of `value` through the returned
reference; `none` if there is none. -/
def tupleSet (es : List (Str × CV)) (key : Str) (value : CV) : Option (List (Str × CV)) :=
  match es with
  | [] => none
  | (k, v) :: es => if k == key then some ((k, value) :: es)
    else (tupleSet es key value).map ((k, v) :: ·)

/-- impl.rs:655-660 `Tuple::insert`. -/
def tupleInsert (es : List (Str × CV)) (key : Str) (value : CV) : List (Str × CV) :=
  es ++ [(key, value)]

/-- impl.rs:665-674 `Tuple::remove`: the returned value and the tuple afterwards. -/
def tupleRemove (es : List (Str × CV)) (key : Str) : Option CV × List (Str × CV) :=
  match es.findIdx? (fun e => e.1 == key) with
  | some i => ((es[i]?).map (·.2), es.eraseIdx i)
  | none => (none, es)

/-- impl.rs:677-679 `Tuple::keys`. -/
def tupleKeys (es : List (Str × CV)) : List Str := es.map (·.1)

/-- impl.rs:682-684 `Tuple::values`. -/
def tupleValues (es : List (Str × CV)) : List CV := es.map (·.2)

end Stacks.Clarity

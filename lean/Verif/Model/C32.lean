import Verif.Model.Hash

/-! # `stacks/src/crypto/c32.rs` -/

namespace Stacks.C32

/-- c32.rs:16 `C32_ALPHABET`. -/
def alphabet : Bytes := (("0123456789ABCDEFGHJKMNPQRSTVWXYZ").toList.map fun c => UInt8.ofNat c.toNat)

/-- c32.rs:19-26 `C32_BYTE_MAP`, 128 entries. -/
def byteMap : List Int := [
  -1, -1, -1, -1, -1, -1, -1, -1, -1, -1, -1, -1, -1, -1, -1, -1, -1, -1, -1, -1, -1, -1, -1, -1,
  -1, -1, -1, -1, -1, -1, -1, -1, -1, -1, -1, -1, -1, -1, -1, -1, -1, -1, -1, -1, -1, -1, -1, -1,
  0, 1, 2, 3, 4, 5, 6, 7, 8, 9, -1, -1, -1, -1, -1, -1, -1, 10, 11, 12, 13, 14, 15, 16, 17, 1,
  18, 19, 1, 20, 21, 0, 22, 23, 24, 25, 26, -1, 27, 28, 29, 30, 31, -1, -1, -1, -1, -1, -1, 10,
  11, 12, 13, 14, 15, 16, 17, 1, 18, 19, 1, 20, 21, 0, 22, 23, 24, 25, 26, -1, 27, 28, 29, 30,
  31, -1, -1, -1, -1, -1]

/-- c32.rs:30-52 `enum Error` (the `TryFromUtf8` variant carries std's error value, which is
not modelled). -/
inductive Error where
  | badChar (c : Char)
  | badInput
  | badChecksum (computed : Arr 4) (embedded : Bytes)
  | badAddress (s : Str)
  | unknownAddressVersion (v : UInt8)
  | tryFromInt
  | tryFromUtf8
deriving DecidableEq, Repr

/-- c32.rs:57-66 `enum Mode`. -/
inductive Mode where
  | p2pkh | p2sh | p2wpkh | p2wsh
deriving DecidableEq, Repr

/-- c32.rs:59-65: the discriminants, `mode as u8`. -/
def Mode.toU8 : Mode → UInt8
  | .p2pkh => 0x00
  | .p2sh => 0x01
  | .p2wpkh => 0x02
  | .p2wsh => 0x03

/-- c32.rs:70-79 `enum Version`. -/
inductive Version where
  | mainnetP2PKH | mainnetP2SH | testnetP2PKH | testnetP2SH
deriving DecidableEq, Repr

/-- c32.rs:72-78: the discriminants, `version as u8`. -/
def Version.toU8 : Version → UInt8
  | .mainnetP2PKH => 22
  | .mainnetP2SH => 20
  | .testnetP2PKH => 26
  | .testnetP2SH => 21

/-- `x << n` on `u32`; overflow (a panic) if the shift amount is 32 or more. -/
def shl32 (x : UInt32) (n : Nat) : Outcome Error UInt32 :=
  if n < 32 then .ok (x <<< UInt32.ofNat n) else .panic

/-- `x << n` on `u16`; overflow (a panic) if the shift amount is 16 or more. -/
def shl16 (x : UInt16) (n : Nat) : Outcome Error UInt16 :=
  if n < 16 then .ok (x <<< UInt16.ofNat n) else .panic

/-- c32.rs:121-125, the inner loop: `while bits >= 5 { encoded.push(..); buff >>= 5; bits -= 5 }`. -/
def encodeDrain (encoded : Bytes) (buff : UInt32) (bits : Nat) :
    Outcome Error (Bytes × UInt32 × Nat) :=
  if bits ≥ 5 then do
    let ch ← idx alphabet (buff &&& 0x1F).toNat
    encodeDrain (encoded ++ [ch]) (buff >>> 5) (bits - 5)
  else .ok (encoded, buff, bits)
termination_by bits

/-- c32.rs:117-126, the loop over the bytes in reverse order (the argument is already reversed). -/
def encodeLoop (encoded : Bytes) (buff : UInt32) (bits : Nat) : Bytes →
    Outcome Error (Bytes × UInt32 × Nat)
  | [] => .ok (encoded, buff, bits)
  | byte :: rest => do
    let shifted ← shl32 byte.toUInt32 bits
    let (encoded, buff, bits) ← encodeDrain encoded (buff ||| shifted) (bits + 8)
    encodeLoop encoded buff bits rest

/-- c32.rs:132-137 and 193-198: `while let Some(i) = v.pop() { if i != z { v.push(i); break } }`,
that is, drop trailing elements equal to `z`. -/
def popWhileEq (z : UInt8) (v : Bytes) : Bytes := (v.reverse.dropWhile (· == z)).reverse

/-- c32.rs:139-145 and 200-206: the elements pushed by
`for i in data { if *i == 0 { v.push(z) } else { break } }`. -/
def pushPerLeadingZero (z : UInt8) : Bytes → Bytes
  | [] => []
  | b :: rest => if b == 0 then z :: pushPerLeadingZero z rest else []

/-- `String::from_utf8(bytes)?` with the error conversion of c32.rs:51. -/
def stringFromUtf8 (bs : Bytes) : Outcome Error Str := Outcome.ofOption .tryFromUtf8 (fromUtf8 bs)

/-- c32.rs:107-149 `c32_encode`. -/
def c32Encode (data : Bytes) : Outcome Error Str := do
  let (encoded, buff, bits) ← encodeLoop [] 0 0 data.reverse
  let encoded ← (if bits > 0 then do
      let ch ← idx alphabet (buff &&& 0x1F).toNat
      pure (encoded ++ [ch])
    else pure encoded : Outcome Error Bytes)
  let z ← idx alphabet 0
  let encoded := popWhileEq z encoded
  let encoded := encoded ++ pushPerLeadingZero z data
  stringFromUtf8 encoded.reverse

/-- c32.rs:164-172, the lookup loop over the bytes in reverse order (the argument is already
reversed). `C32_BYTE_MAP.get(i).unwrap_or(&-1)`, error on negative, `u8::try_from` otherwise. -/
def decodeLookup : Bytes → Outcome Error Bytes
  | [] => .ok []
  | i :: rest =>
    let byte := (byteMap[i.toNat]?).getD (-1)
    if byte < 0 then .err (.badChar (Char.ofNat i.toNat))
    else if byte < 256 then do
      let tl ← decodeLookup rest
      pure (UInt8.ofNat byte.toNat :: tl)
    else .err .tryFromInt

/-- c32.rs:182-186, the inner loop: `while carry_bits >= 8 { .. }`. -/
def decodeDrain (decoded : Bytes) (carry : UInt16) (carryBits : Nat) : Bytes × UInt16 × Nat :=
  if carryBits ≥ 8 then
    decodeDrain (decoded ++ [(carry &&& 0xFF).toUInt8]) (carry >>> 8) (carryBits - 8)
  else (decoded, carry, carryBits)
termination_by carryBits

/-- c32.rs:178-187, the loop over the 5-bit values, least significant first. -/
def decodeLoop (decoded : Bytes) (carry : UInt16) (carryBits : Nat) : Bytes →
    Outcome Error (Bytes × UInt16 × Nat)
  | [] => .ok (decoded, carry, carryBits)
  | bits :: rest => do
    let shifted ← shl16 bits.toUInt16 carryBits
    let (decoded, carry, carryBits) := decodeDrain decoded (carry ||| shifted) (carryBits + 5)
    decodeLoop decoded carry carryBits rest

/-- `u8::try_from(carry: u16)?`. -/
def u8FromU16 (x : UInt16) : Outcome Error UInt8 :=
  if x.toNat < 256 then .ok (UInt8.ofNat x.toNat) else .err .tryFromInt

/-- c32.rs:152-210 `c32_decode`. -/
def c32Decode (s : Str) : Outcome Error Bytes := do
  if !s.isAscii then .err .badInput
  else do
    let buff ← decodeLookup s.bytes.reverse
    let (decoded, carry, carryBits) ← decodeLoop [] 0 0 buff
    let decoded ← (if carryBits > 0 then do
        let b ← u8FromU16 carry
        pure (decoded ++ [b])
      else pure decoded : Outcome Error Bytes)
    let decoded := popWhileEq 0 decoded
    let decoded := decoded ++ pushPerLeadingZero 0 buff.reverse
    pure decoded.reverse

section
variable [Hashes]

/-- c32.rs:213-230 `c32check_encode`. `String::into_bytes`, `Vec::insert(0, _)`. -/
def c32checkEncode (hash : Bytes) (version : UInt8) : Outcome Error Str := do
  let check := [version] ++ hash
  let checksum := checksum32 (dsha256Hash check)
  let buff := hash ++ checksum.1
  let encoded ← c32Encode buff
  let v ← idx alphabet version.toNat
  stringFromUtf8 (v :: encoded.bytes)

/-- `str.split_at(1)` on an ASCII string: panics on the empty string. -/
def splitAt1 (s : Str) : Outcome Error (Str × Str) :=
  match s with
  | [] => .panic
  | c :: rest => .ok ([c], rest)

/-- c32.rs:233-262 `c32check_decode`. -/
def c32checkDecode (s : Str) : Outcome Error (Bytes × UInt8) := do
  if !s.isAscii then .err .badInput
  else do
    let (ver, data) ← splitAt1 s
    let decoded ← c32Decode data
    if decoded.length < 4 then .err .badInput
    else do
      let bytes := decoded.take (decoded.length - 4)
      let expChecksum := decoded.drop (decoded.length - 4)
      let v ← c32Decode ver
      let check := v ++ bytes
      let compChecksum := checksum32 (dsha256Hash check)
      if compChecksum.1 ≠ expChecksum then .err (.badChecksum compChecksum expChecksum)
      else do
        let ver0 ← idx check 0
        pure (bytes, ver0)

/-- c32.rs:265-277 `c32_address`. -/
def c32Address (hash : Bytes) (version : UInt8) : Outcome Error Str :=
  if version ∉ ([22, 26, 20, 21] : List UInt8) then .err (.unknownAddressVersion version)
  else do
    let s ← c32checkEncode hash version
    pure ('S' :: s)

/-- c32.rs:280-295 `c32_address_decode`. `&str[1..]` follows an ASCII first character, so it
is the tail of the character list. -/
def c32AddressDecode (s : Str) : Outcome Error (Bytes × UInt8) :=
  match s with
  | 'S' :: rest =>
    if s.len ≤ 5 then .err (.badAddress s) else c32checkDecode rest
  | _ => .err (.badAddress s)

/-- c32.rs:83-88 `struct Address`. -/
structure Address where
  hash : Arr 20
  version : UInt8
deriving DecidableEq

/-- c32.rs:97-104 `Address::from_str`. -/
def addressFromStr (s : Str) : Outcome Error Address := do
  let (bytes, version) ← c32AddressDecode s
  let hash ← hash160New bytes
  pure ⟨hash, version⟩

/-- c32.rs:298-300 `hash_p2pkh`. -/
def hashP2pkh (input : Bytes) : Arr 20 := hash160 input

/-- c32.rs:304-314 `hash_p2wpkh`. -/
def hashP2wpkh (input : Bytes) : Arr 20 :=
  let keyHash := hash160 input
  hash160 ([0] ++ [UInt8.ofNat keyHash.1.length] ++ keyHash.1)

/-- `a + b` on `u8`, a panic on overflow. -/
def addU8 {ε : Type} (a b : UInt8) : Outcome ε UInt8 :=
  if a.toNat + b.toNat < 256 then .ok (a + b) else .panic

variable [Secp]

/-- c32.rs:319-329 (the same code at 337-347): the multi-sig script. `keys.len() as u8`
truncates; the two additions can overflow. -/
def multisigScript {ε : Type} (sigs : UInt8) (keys : List Secp.PK) : Outcome ε Bytes := do
  let m ← addU8 sigs 80
  let pushes := keys.flatMap fun key =>
    let bytes := (Secp.serialize key).1
    UInt8.ofNat bytes.length :: bytes
  let n ← addU8 (UInt8.ofNat keys.length) 80
  pure ([m] ++ pushes ++ [n] ++ [174])

/-- c32.rs:318-332 `hash_p2sh`. -/
def hashP2sh {ε : Type} (sigs : UInt8) (keys : List Secp.PK) : Outcome ε (Arr 20) := do
  let buff ← multisigScript sigs keys
  pure (hash160 buff)

/-- c32.rs:336-358 `hash_p2wsh`. -/
def hashP2wsh {ε : Type} (sigs : UInt8) (keys : List Secp.PK) : Outcome ε (Arr 20) := do
  let script ← multisigScript sigs keys
  let digest := sha256Hash script
  pure (hash160 ([0] ++ [UInt8.ofNat digest.1.length] ++ digest.1))

end

end Stacks.C32

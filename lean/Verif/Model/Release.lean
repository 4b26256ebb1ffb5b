import Verif.Model.B58
import Verif.Model.Transaction

/-! # The crate built without overflow checks

`cargo build --release` turns overflow checks off: an addition that overflows wraps around, and the amount of a shift
is taken modulo the width. The functions of the crate with arithmetic that is checked otherwise are modelled here a
second time with this arithmetic, together with the functions that call them. All other functions are the same in
both builds. (Subtractions of `usize` that would wrap are guarded, except `buff_max - 4` at b58.rs:178, where the slice that
follows panics in place of the subtraction.) -/

namespace Stacks.Release
open Stacks.C32 (Mode hashP2pkh)

/-! ## Codecs -/

namespace C32
open Stacks.C32

/-- c32.rs:117-126, the loop of `c32_encode`: `(byte << bits)` on `u32`, wrapping. -/
def encodeLoop (encoded : Bytes) (buff : UInt32) (bits : Nat) : Bytes → Outcome Error (Bytes × UInt32 × Nat)
  | [] => .ok (encoded, buff, bits)
  | byte :: rest => do
    let (encoded, buff, bits) ← encodeDrain encoded (buff ||| byte.toUInt32 <<< UInt32.ofNat (bits % 32)) (bits + 8)
    encodeLoop encoded buff bits rest

/-- c32.rs:107-149 `c32_encode`. -/
def c32Encode (data : Bytes) : Outcome Error Str := do
  let (encoded, buff, bits) ← encodeLoop [] 0 0 data.reverse
  let encoded ← (if bits > 0 then do
      let ch ← idx alphabet (buff &&& 0x1F).toNat
      pure (encoded ++ [ch])
    else pure encoded : Outcome Error Bytes)
  let z ← idx alphabet 0
  let encoded := popWhileEq z encoded
  let encoded := encoded ++ pushPerLeadingZero z data
  stringFromUtf8 encoded.reverse

/-- c32.rs:178-187, the loop of `c32_decode`: the shift on `u16`, wrapping. -/
def decodeLoop (decoded : Bytes) (carry : UInt16) (carryBits : Nat) : Bytes → Bytes × UInt16 × Nat
  | [] => (decoded, carry, carryBits)
  | bits :: rest =>
    let (decoded, carry, carryBits) :=
      decodeDrain decoded (carry ||| bits.toUInt16 <<< UInt16.ofNat (carryBits % 16)) (carryBits + 5)
    decodeLoop decoded carry carryBits rest

/-- c32.rs:152-210 `c32_decode`. -/
def c32Decode (s : Str) : Outcome Error Bytes := do
  if !s.isAscii then .err .badInput
  else do
    let buff ← decodeLookup s.bytes.reverse
    let (decoded, carry, carryBits) := decodeLoop [] 0 0 buff
    let decoded ← (if carryBits > 0 then do
        let b ← u8FromU16 carry
        pure (decoded ++ [b])
      else pure decoded : Outcome Error Bytes)
    let decoded := popWhileEq 0 decoded
    let decoded := decoded ++ pushPerLeadingZero 0 buff.reverse
    pure decoded.reverse

end C32

namespace B58
open Stacks.B58

/-- b58.rs:79-87: one long division by 58, with `(rem << 8) + b` wrapping on `u32`. -/
def divLoop : Bytes → Nat → Bytes → Bytes × Nat
  | [], rem, temp => (temp, rem)
  | b :: rest, rem, temp =>
    let cur := ((rem * 256) % 2 ^ 32 + b.toNat) % 2 ^ 32
    let div := cur / 58
    let rem := cur % 58
    divLoop rest rem (if !temp.isEmpty || div != 0 then temp ++ [UInt8.ofNat div] else temp)

/-- The division does not overflow, so the two builds agree on it. -/
theorem divLoop_eq (l : Bytes) : ∀ (rem : Nat) (temp : Bytes), rem < 58 →
    Stacks.B58.divLoop l rem temp = .ok (divLoop l rem temp) := by
  induction l with
  | nil => intro rem temp _; rfl
  | cons b rest ih =>
    intro rem temp h
    have hb := b.toNat_lt
    rw [Stacks.B58.divLoop, divLoop, u32, if_pos (by omega), Outcome.ok_bind]
    simp only []
    rw [Nat.mod_eq_of_lt (show (rem * 256) % 2 ^ 32 + b.toNat < 2 ^ 32 by omega)]
    exact ih _ _ (Nat.mod_lt _ (by decide))

/-- b58.rs:75-90, the loop of `b58_encode`. -/
def encodeLoop (buff : Bytes) (result : Str) : Outcome Error Str :=
  if _hb : buff = [] then .ok result
  else
    match _h : divLoop buff 0 [] with
    | (temp, rem) =>
      match (idx alphabet rem : Outcome Error UInt8) with
      | .ok ch => encodeLoop temp (result ++ [Char.ofNat ch.toNat])
      | .err e => .err e
      | .panic => .panic
termination_by loopMeasure buff
decreasing_by exact loopMeasure_lt _hb (by rw [divLoop_eq _ _ _ (by decide), _h])

/-- b58.rs:61-98 `b58_encode`. -/
def b58Encode (data : Bytes) : Outcome Error Str := do
  let zeros := countLeading 0 data
  let result ← encodeLoop data []
  let one ← idx alphabet 0
  let result := result ++ List.replicate zeros (Char.ofNat one.toNat)
  pure result.reverse

/-- b58.rs:127-131: multiply the buffer by 58 and add the carry, wrapping on `u32`. -/
def mulAdd : Bytes → Nat → Bytes
  | [], _ => []
  | byte :: rest, carry =>
    let carry := (carry + (byte.toNat * 58) % 2 ^ 32) % 2 ^ 32
    UInt8.ofNat (carry % 256) :: mulAdd rest (carry / 256)

/-- b58.rs:118-132, the loop over the characters. -/
def decodeLoop (buff : Bytes) : Str → Outcome Error Bytes
  | [] => .ok buff
  | c :: rest => do
    let index ← Outcome.orPanic byteMap[c.toNat]?
    if index = -1 then .err (.badChar c)
    else do
      let carry ← (if 0 ≤ index then .ok index.toNat else .err .tryFromInt : Outcome Error Nat)
      decodeLoop (mulAdd buff.reverse carry).reverse rest

/-- b58.rs:101-142 `b58_decode`. -/
def b58Decode (s : Str) : Outcome Error Bytes := do
  if s.bytes.isEmpty then pure []
  else do
    let zeros := countLeading 0x31 s.bytes
    let buff := List.replicate (s.len * 733 / 1000 + 1) (0 : UInt8)
    let buff ← decodeLoop buff s
    let buff := buff.dropWhile (· == 0)
    pure (List.replicate zeros 0 ++ buff)

end B58

/-! ## Multi-signature accounts -/

open Stacks.Tx

section
variable [Secp]

/-- c32.rs:319-329 (the same code at 337-347): the multi-sig script, with wrapping additions. -/
def multisigScript (sigs : UInt8) (keys : List Secp.PK) : Bytes :=
  [sigs + 80] ++ (keys.flatMap fun key =>
    let bytes := (Secp.serialize key).1
    UInt8.ofNat bytes.length :: bytes) ++ [UInt8.ofNat keys.length + 80] ++ [174]

/-- auth.rs:505-511: the counting loop; `count` is a `u16` and wraps. -/
def countSignatures : List AuthField → UInt16 → UInt16
  | [], count => count
  | .pk _ :: fs, count => countSignatures fs count
  | .msg _ :: fs, count => countSignatures fs (count + 1)

/-- `signatures`, auth.rs:317-319 and 504-512. -/
def signatures : Spending → UInt16
  | .single c => c.signatures
  | .multi c => countSignatures c.fields 0

variable [Hashes]

/-- c32.rs:318-332 `hash_p2sh`. -/
def hashP2sh (sigs : UInt8) (keys : List Secp.PK) : Arr 20 := hash160 (multisigScript sigs keys)

/-- c32.rs:336-358 `hash_p2wsh`. -/
def hashP2wsh (sigs : UInt8) (keys : List Secp.PK) : Arr 20 :=
  let digest := sha256Hash (multisigScript sigs keys)
  hash160 ([0] ++ [UInt8.ofNat digest.1.length] ++ digest.1)

/-- auth.rs:386-404 `SpendingConditionMultiSig::new`. -/
def newMultiSig {ε : Type} (pks : List Secp.PK) (fee nonce : UInt64) (required : UInt8) (mode : Mode) :
    Outcome ε MultiSig := do
  let signer ← (match mode with
    | .p2sh => .ok (hashP2sh required pks)
    | .p2wsh => .ok (hashP2wsh required pks)
    | _ => .panic : Outcome ε (Arr 20))
  pure ⟨mode, fee, nonce, signer, [], required⟩

/-- auth.rs:449-463: the loop of `verify`; the `u8` that counts wraps. -/
def verifyFields (typ : UInt8) (fee nonce : UInt64) :
    List AuthField → List Secp.PK → Arr 32 → UInt8 → Outcome TxError (List Secp.PK × Arr 32 × UInt8)
  | [], pks, next, count => .ok (pks, next, count)
  | .pk k :: fs, pks, next, count => verifyFields typ fee nonce fs (pks ++ [k]) next count
  | .msg s :: fs, pks, next, count => do
    let (k, hash) ← (nextVerify next typ fee nonce s).mapErr Error.hash
    verifyFields typ fee nonce fs (pks ++ [k]) hash (count + 1)

/-- auth.rs:445-482 `SpendingConditionMultiSig::verify`. -/
def verifyMultiSig (c : MultiSig) (hash : Arr 32) (typ : UInt8) : Outcome TxError (Arr 32) := do
  let (pks, next, count) ← verifyFields typ c.fee c.nonce c.fields [] hash 0
  if count < c.required then .err (.badSignatureCount c.required count)
  else do
    let signer ← (match c.mode with
      | .p2sh => .ok (hashP2sh c.required pks)
      | .p2wsh => .ok (hashP2wsh c.required pks)
      | _ => .panic : Outcome TxError (Arr 20))
    if signer ≠ c.signer then
      .err (.badSigner (Hex.bytesToHex c.signer.1) (Hex.bytesToHex signer.1))
    else pure next

/-- `verify` of `dyn SpendingCondition`. -/
def verify : Spending → Arr 32 → UInt8 → Outcome TxError (Arr 32)
  | .single c => c.verify
  | .multi c => verifyMultiSig c

/-- auth.rs:88-99 `Auth::verify`. -/
def verifyAuth : Auth → Arr 32 → Outcome TxError Unit
  | .standard _, _ => .ok ()
  | .sponsored o s, hash => do
    let next ← verify o hash authTypeStandard
    let _ ← verify s next authTypeSponsored
    pure ()

/-- base.rs:108-110 `Transaction::verify_origin`, with auth.rs:102-111. -/
def verifyOrigin (t : Transaction) : Outcome TxError (Arr 32) := do
  let h ← t.initialHash
  verify t.auth.origin h authTypeStandard

/-! ## signer.rs -/

/-- signer.rs:47-66 `TransactionSigner::new_sponser`. -/
def newSponsor (tx : Transaction) (sponsor : Spending) : Outcome TxError Signer :=
  if !tx.auth.isSponsored then .err .badSpendingConditionModification
  else do
    let auth ← tx.auth.setSponsor sponsor
    let tx := { tx with auth := auth }
    let hash ← verifyOrigin tx
    let signer ← Signer.new tx
    pure { signer with hash := hash, originSigned := true, verifyOversign := true, verifyOverlap := true }

/-- signer.rs:69-82 `TransactionSigner::sign_origin`. -/
def signOrigin (s : Signer) (key : Secp.SK) : Outcome TxError Signer :=
  if s.verifyOverlap && s.originSigned then .err .originPostSponsorSign
  else if s.verifyOversign && decide (s.tx.auth.origin.reqSignatures ≤ signatures s.tx.auth.origin) then
    .err .originOversign
  else do
    let (tx, next) ← s.tx.signNextOrigin s.hash key
    pure { s with tx := tx, hash := next }

/-- signer.rs:85-96 `TransactionSigner::sign_sponsor`. -/
def signSponsor (s : Signer) (key : Secp.SK) : Outcome TxError Signer := do
  let sponsor ← s.tx.auth.sponsor
  if s.verifyOversign && decide (sponsor.reqSignatures ≤ signatures sponsor) then .err .sponsorOversign
  else do
    let (tx, next) ← s.tx.signNextSponsor s.hash key
    pure { s with tx := tx, hash := next, originSigned := true }

/-- base.rs:85-89 `Transaction::sign`. -/
def sign (t : Transaction) (key : Secp.SK) : Outcome TxError Transaction := do
  let signer ← Signer.new t
  let signer ← signOrigin signer key
  pure signer.tx

end

end Stacks.Release

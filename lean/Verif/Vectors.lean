import Verif.Model.Wallet
import Verif.Model.Builder
import Verif.Model.B58
import Verif.Proofs.CVDecEq
import Verif.Concrete.ToySecp
import Verif.Props.Hash

/-! # The repository's own unit tests, replayed on the model

Every deterministic assertion of the unit tests of `/repo/stacks/src` that does not need the crates
`secp256k1` or `bip32` is evaluated here on the model by the kernel. These are tests of the model,
not proofs about it: they show that the hand-written model gives the bytes and texts the
repository's authors expect of the program. -/

namespace Stacks.Vectors
open Stacks.Clarity Stacks.Tx

attribute [local instance] Concrete.realHashes

/-- The number of encoded bytes and their value as a number. (The expected values of the tests are
hexadecimal texts; a number written in hexadecimal is the same thing and faster to compare.) -/
def hexOf {ε : Type} : Outcome ε Bytes → Option (Nat × Nat)
  | .ok b => some (b.length, beVal b)
  | _ => none

/-- Is it an error? -/
def isErr {ε α : Type} : Outcome ε α → Bool
  | .err _ => true
  | _ => false

/-- Is it a success? -/
def isOk {ε α : Type} : Outcome ε α → Bool
  | .ok _ => true
  | _ => false

/-- An `Int` value. -/
def int (i : Int) : CV := .int (BitVec.ofInt 128 i)
/-- A `UInt` value. -/
def uint (n : Nat) : CV := .uint (BitVec.ofNat 128 n)

/-! ## crypto/hex.rs:99-136 -/

example : (Hex.hexToBytes "2a6b3badb7816e12cb12e3b50e6ea0d5".toList >>= fun b => .ok (Hex.bytesToHex b)) =
    .ok "2a6b3badb7816e12cb12e3b50e6ea0d5".toList := by decide +kernel
example : Hex.hexToBytes "0123456789abcdef0".toList = .err (.unpaddedHex "0123456789abcdef0".toList 17) := by
  decide +kernel
example : ["Z123456789abcdef", "012Y456789abcdeb", "«23456789abcdef"].all
    (fun s => Hex.hexToBytes s.toList = .err .badChar) := by decide +kernel

/-! ## crypto/b58.rs:205-299 -/

example : (B58.b58Encode "ji1bAyOeHisrHIT1zCvy4RQ78zYZ".toUTF8.toList >>= B58.b58Decode) = .ok "ji1bAyOeHisrHIT1zCvy4RQ78zYZ".toUTF8.toList := by
  decide +kernel

-- `test_b58_roundtrip_long_buffer` is left out: 500 bytes are too many for the kernel's evaluator.

/-- The round trip of a Base58Check text. -/
def b58Case (version : UInt8) (s : String) : Bool :=
  (B58.base58checkDecode s.toList >>= fun r => B58.base58checkEncode r.1 r.2 >>= fun t => .ok (t, r.2)) =
    .ok (s.toList, version)

example : B58.Version.mainnetP2PKH.toU8 = 0 ∧ ["1FzTxL9Mxnm2fdmnQEArfhzJHevwbvcH6d", "1111111111111111111114oLvT2", "11111111111111111111BZbvjr", "12Tbp525fpnBRiSt4iPxXkxMyf5Ze1UeZu", "12Tbp525fpnBRiSt4iPxXkxMyf5ZWzA5TC"].all
    (b58Case 0) := by decide +kernel
example : B58.Version.mainnetP2SH.toU8 = 5 ∧ ["3GgUssdoWh5QkoUDXKqT6LMESBDf8aqp2y", "31h1vYVSYuKP6AhS86fbRdMw9XHieotbST", "31h1vYVSYuKP6AhS86fbRdMw9XHiiQ93Mb", "339cjcWXDj6ZWt9KBp4YxPKJ8BNH7gn2Nw", "339cjcWXDj6ZWt9KBp4YxPKJ8BNH14Nnx4"].all
    (b58Case 5) := by decide +kernel
example : B58.Version.testnetP2PKH.toU8 = 111 ∧ ["mvWRFPELmpCHSkFQ7o9EVdCd9eXeUTa9T8", "mfWxJ45yp2SFn7UciZyNpvDKrzbhyfKrY8", "mfWxJ45yp2SFn7UciZyNpvDKrzbi36LaVX", "mgyZ7874UrDSCpvVnHNLMgAgqegGZBks3w", "mgyZ7874UrDSCpvVnHNLMgAgqegGQUXx9c"].all
    (b58Case 111) := by decide +kernel
example : B58.Version.testnetP2SH.toU8 = 196 ∧ ["2N8EgwcZq89akxb6mCTTKiHLVeXRpxjuy98", "2MsFDzHRUAMpjHxKyoEHU3aMCMsVtMqs1PV", "2MsFDzHRUAMpjHxKyoEHU3aMCMsVtXMsfu8", "2MthpoMSYqBbuifmrrwgRaLJZLXaSyK2Rai", "2MthpoMSYqBbuifmrrwgRaLJZLXaSoxBM5T"].all
    (b58Case 196) := by decide +kernel
example : "^&*(@#%!~`?><,.;:{]}[{|)-_=+§äöüßÄÖÜ".toList.all (fun c => B58.b58Decode [c] = .err (.badChar c)) := by
  decide +kernel

/-! ## crypto/c32.rs:371-461 -/

example : (C32.c32Encode [1, 2, 3, 4, 6, 1, 2, 6, 2, 3, 6, 9, 4, 0, 0] >>= C32.c32Decode) =
    .ok [1, 2, 3, 4, 6, 1, 2, 6, 2, 3, 6, 9, 4, 0, 0] := by decide +kernel
example : (C32.c32Address (beBytes 20 0x8a4d3f2e55c87f964bae8b2963b3a824a2e9c9ab) 22 >>= C32.c32AddressDecode) =
    .ok (beBytes 20 0x8a4d3f2e55c87f964bae8b2963b3a824a2e9c9ab, 22) := by decide +kernel
-- the tests of `hash_p2pkh`, `hash_p2wpkh`, `hash_p2sh`, `hash_p2wsh` are in `Props/Hash.lean`

/-! ## clarity/impl.rs:990-1443 -/

example : hexOf (int 1).encode = some (17, 0x0000000000000000000000000000000001) := by decide +kernel
example : hexOf (int (-1)).encode = some (17, 0x00ffffffffffffffffffffffffffffffff) := by decide +kernel
example : ((int 1).encode >>= intDecode) = .ok 1 ∧ ((int (-1)).encode >>= intDecode) = .ok (-1) := by decide +kernel
example : hexOf (uint 1).encode = some (17, 0x0100000000000000000000000000000001) := by decide +kernel
example : ((uint 1).encode >>= uintDecode) = .ok 1 := by decide +kernel
example : (int 1).display = "1".toList ∧ (int (-1)).display = "-1".toList := by decide +kernel
example : hexOf (CV.buffer [0xde, 0xad, 0xbe, 0xef]).encode = some (9, 0x0200000004deadbeef) := by decide +kernel
example : ((CV.buffer [0xde, 0xad, 0xbe, 0xef]).encode >>= bufferDecode) = .ok [0xde, 0xad, 0xbe, 0xef] := by
  decide +kernel
example : (CV.buffer [0]).display = "0x00".toList ∧ (CV.buffer [127]).display = "0x7f".toList ∧
    (CV.buffer [10]).display = "0x0a".toList := by decide +kernel
example : (CV.buffer [0xde, 0xad, 0xbe, 0xef]).display = "0xdeadbeef".toList := by decide +kernel
example : (CV.tru.encode >>= trueDecode) = .ok () ∧ (CV.fls.encode >>= falseDecode) = .ok () := by decide +kernel
example : CV.tru.display = "true".toList ∧ CV.fls.display = "false".toList := by decide +kernel
example : hexOf (CV.principalStd "SP2JXKMSH007NPYAQHKJPQMAQYAD90NQGTVJVQ02B".toList).encode =
    some (22, 0x0516a5d9d331000f5b79578ce56bd157f29a9056f0d6) := by decide +kernel
example : ((CV.principalStd "SP2JXKMSH007NPYAQHKJPQMAQYAD90NQGTVJVQ02B".toList).encode >>= principalStdDecode) =
    .ok "SP2JXKMSH007NPYAQHKJPQMAQYAD90NQGTVJVQ02B".toList := by decide +kernel

/-- The testnet address of the tests. -/
def stb : Str := "STB44HYPYAT2BB2QE513NSP81HTMYWBJP02HPGK6".toList

example : hexOf (CV.principalCon stb "abcd".toList).encode =
    some (27, 0x061a164247d6f2b425ac5771423ae6c80c754f7172b00461626364) := by decide +kernel
example : ((CV.principalCon stb "abcd".toList).encode >>= principalConDecode) = .ok (stb, "abcd".toList) := by
  decide +kernel
example : (CV.principalStd stb).display = stb ∧
    (CV.principalCon stb "abcd".toList).display = stb ++ ".".toList ++ "abcd".toList := by decide +kernel

/-- A round trip of `encode` and `decode_clarity_type`, compared as the tests do. -/
def roundTrips (v : CV) : Bool :=
  match v.encode >>= decode with
  | .ok w => w.eq v && decide (w = v)
  | _ => false

/-- The address of `generate_complex_clarity_list`. -/
def st3 : Str := "ST3J2GVMMM2R07ZFBJDWTYEYAR8FZH5WKDTFJ9AHA".toList

/-- `generate_complex_clarity_list`, impl.rs:1443-1464. -/
def complex : List CV :=
  [int 3, int (-4), uint 1, .tru, .fls, .principalStd st3, .principalCon st3 "asdf".toList, .optSome (int 1),
   .optNone, .respOk (int 1), .respErr (int 1), .tuple [("hello".toList, int 1), ("x".toList, uint 2)],
   .buffer [0xde, 0xad, 0xbe, 0xef], .strAscii "hello world".toList, .strUtf8 "hello \u1234".toList]

example : roundTrips (.respOk (int 1)) ∧ roundTrips (.respErr (int 1)) ∧ roundTrips (.optSome (int 1)) ∧
    roundTrips .optNone ∧ roundTrips (.list []) := by decide +kernel
example : roundTrips (.list complex) ∧ roundTrips (.respOk (.list complex)) ∧ roundTrips (.respErr (.list complex)) ∧
    roundTrips (.optSome (.list complex)) ∧ roundTrips (.tuple [("list".toList, .list complex)]) := by decide +kernel
example : (CV.respOk (int 1)).display = "(ok 1)".toList ∧ (CV.respErr (int 1)).display = "(err 1)".toList := by
  decide +kernel
example : (CV.optSome (int 1)).display = "(some 1)".toList ∧ CV.optNone.display = "none".toList := by decide +kernel
example : hexOf (CV.list [int 1, int 2, int 3, int (-4), uint 1]).encode =
    some (90, 0x0b0000000500000000000000000000000000000000010000000000000000000000000000000002000000000000000000000000000000000300fffffffffffffffffffffffffffffffc0100000000000000000000000000000001) := by decide +kernel
example : (CV.list [int 1, int (-4), uint 1, .tru, .fls, .buffer [0]]).display =
    "(list 1 -4 u1 true false 0x00)".toList ∧ (CV.list []).display = "(list )".toList := by decide +kernel
example : hexOf (CV.tuple [("baz".toList, .optNone), ("foobar".toList, .tru)]).encode =
    some (18, 0x0c000000020362617a0906666f6f62617203) := by decide +kernel
example : roundTrips (.tuple [("baz".toList, .optNone), ("foobar".toList, .tru)]) := by decide +kernel

/-- The tuple of `test_clarity_tuple_methods`, impl.rs:1302-1326. -/
def methods : List (Str × CV) := [("a".toList, int 1), ("b".toList, uint 1)]

example : ((tupleGet methods "a".toList).map CV.display, (tupleGet methods "b".toList).map CV.display) =
    (some "1".toList, some "u1".toList) := by decide +kernel
example : (tupleGet (tupleInsert methods "c".toList .tru) "c".toList).map CV.display = some "true".toList := by
  decide +kernel
example : (tupleRemove (tupleInsert methods "c".toList .tru) "c".toList).2 = methods ∧
    tupleGet methods "c".toList = none := by decide +kernel
example : tupleKeys methods = ["a".toList, "b".toList] ∧
    (tupleValues methods).map CV.display = ["1".toList, "u1".toList] := by decide +kernel

/-- The values of `test_clarity_tuple_display`, impl.rs:1329-1350. -/
def many : List CV :=
  [int (-1), uint 1, .buffer "test".toUTF8.toList, .tru, .optSome .tru, .optNone, .principalStd st3,
   .principalCon st3 "test".toList, .respOk .tru, .respErr .fls, .list [.tru, .fls], .tuple [("a".toList, .tru)],
   .strAscii "hello world".toList, .strUtf8 "hello \u1234".toList]

example : (CV.tuple ("abcdefghijklmn".toList.map (fun c => [c]) |>.zip many)).display =
    ("(tuple (a -1) (b u1) (c 0x74657374) (d true) (e (some true)) (f none) " ++
     "(g ST3J2GVMMM2R07ZFBJDWTYEYAR8FZH5WKDTFJ9AHA) (h ST3J2GVMMM2R07ZFBJDWTYEYAR8FZH5WKDTFJ9AHA.test) " ++
     "(i (ok true)) (j (err false)) (k (list true false)) (l (tuple (a true))) (m \"hello world\") " ++
     "(n u\"hello ሴ\"))").toList := by decide +kernel
example : (CV.strAscii "hello world".toList).encode =
    .ok [13, 0, 0, 0, 11, 104, 101, 108, 108, 111, 32, 119, 111, 114, 108, 100] := by decide +kernel
example : roundTrips (.strAscii "hello world".toList) := by decide +kernel
example : isErr (CV.strAscii "hello \u1234".toList).encode ∧ isErr (CV.strAscii "hello 🌾".toList).encode := by
  decide +kernel
example : (CV.strUtf8 "hello 🌾".toList).encode =
    .ok [14, 0, 0, 0, 10, 104, 101, 108, 108, 111, 32, 240, 159, 140, 190] := by decide +kernel
example : roundTrips (.strUtf8 "hello 🌾".toList) := by decide +kernel
example : ((CV.fnArgs many).encode >>= fnArgsDecode) = .ok many := by decide +kernel
example : ((CV.lps "hello world".toList).encode >>= lpsDecode) = .ok "hello world".toList := by decide +kernel

/-! ## transaction/condition.rs:367-504 -/

/-- The data of `get_test_data`. -/
def addr : Str := "SP2JXKMSH007NPYAQHKJPQMAQYAD90NQGTVJVQ02B".toList
def std : CV := .principalStd addr
def con : CV := .principalCon addr "test".toList
def info : AssetInfo := ⟨addr, "my-contract".toList, "my-asset".toList⟩

example : hexOf (postConditionsEncode [.stx std 1000000 .gte, .stx con 1000000 .gte,
    .nonFungible std (.lps "test".toList) .has info, .fungible con 1000000 .gte info]) =
    some (223, 0x00000004000216a5d9d331000f5b79578ce56bd157f29a9056f0d60300000000000f4240000316a5d9d331000f5b79578ce56bd157f29a9056f0d604746573740300000000000f4240020216a5d9d331000f5b79578ce56bd157f29a9056f0d616a5d9d331000f5b79578ce56bd157f29a9056f0d60b6d792d636f6e7472616374086d792d6173736574047465737411010316a5d9d331000f5b79578ce56bd157f29a9056f0d6047465737416a5d9d331000f5b79578ce56bd157f29a9056f0d60b6d792d636f6e7472616374086d792d61737365740300000000000f4240) := by
  decide +kernel
example : hexOf ((Condition.stx std 1000000 .gte).encode) =
    some (32, 0x000216a5d9d331000f5b79578ce56bd157f29a9056f0d60300000000000f4240) := by
  decide +kernel
example : hexOf ((Condition.stx con 1000000 .gte).encode) =
    some (37, 0x000316a5d9d331000f5b79578ce56bd157f29a9056f0d604746573740300000000000f4240) := by
  decide +kernel
example : hexOf ((Condition.fungible std 1000000 .eq info).encode) =
    some (74, 0x010216a5d9d331000f5b79578ce56bd157f29a9056f0d616a5d9d331000f5b79578ce56bd157f29a9056f0d60b6d792d636f6e7472616374086d792d61737365740100000000000f4240) := by
  decide +kernel
example : hexOf ((Condition.fungible con 1000000 .eq info).encode) =
    some (79, 0x010316a5d9d331000f5b79578ce56bd157f29a9056f0d6047465737416a5d9d331000f5b79578ce56bd157f29a9056f0d60b6d792d636f6e7472616374086d792d61737365740100000000000f4240) := by
  decide +kernel
example : hexOf ((Condition.nonFungible std (.lps "test".toList) .has info).encode) =
    some (71, 0x020216a5d9d331000f5b79578ce56bd157f29a9056f0d616a5d9d331000f5b79578ce56bd157f29a9056f0d60b6d792d636f6e7472616374086d792d6173736574047465737411) := by
  decide +kernel
example : hexOf ((Condition.nonFungible con (.lps "test".toList) .has info).encode) =
    some (76, 0x020316a5d9d331000f5b79578ce56bd157f29a9056f0d6047465737416a5d9d331000f5b79578ce56bd157f29a9056f0d60b6d792d636f6e7472616374086d792d6173736574047465737411) := by
  decide +kernel
example : hexOf (info.encode) =
    some (42, 0x16a5d9d331000f5b79578ce56bd157f29a9056f0d60b6d792d636f6e7472616374086d792d6173736574) := by
  decide +kernel

/-! ## transaction/payload.rs:225-347 -/

/-- The address of `get_test_contract_fixtures`. -/
def fixture : C32.Address := ⟨⟨beBytes 20 0x164247d6f2b425ac5771423ae6c80c754f7172b0, by simp⟩, 26⟩

example : C32.addressFromStr stb = .ok fixture := by decide +kernel

/-- A call of the tests. -/
def call (args : List CV) : ContractCall := ⟨fixture, "my-contract".toList, "my-function".toList, args⟩

/-- The arguments of the third test. -/
def complexArgs : List CV :=
  [.tuple [("a".toList, uint 100), ("b".toList, int (-100))], .list [.tru, .fls, .optSome (uint 100)],
   .buffer "hello world".toUTF8.toList, .tru, uint 100000, .fls, int (-100000)]

example : hexOf (TokenTransfer.mk (.principalStd stb) 100000 "Hello, world!".toList).encode =
    some (65, 0x00051a164247d6f2b425ac5771423ae6c80c754f7172b000000000000186a048656c6c6f2c20776f726c6421000000000000000000000000000000000000000000) := by
  decide +kernel
example : hexOf (TokenTransfer.mk (.principalCon stb "my-contract".toList) 100000 "Hello, world!".toList).encode =
    some (77, 0x00061a164247d6f2b425ac5771423ae6c80c754f7172b00b6d792d636f6e747261637400000000000186a048656c6c6f2c20776f726c6421000000000000000000000000000000000000000000) := by
  decide +kernel
example : hexOf (TokenTransfer.mk (.principalStd stb) 100000 []).encode =
    some (65, 0x00051a164247d6f2b425ac5771423ae6c80c754f7172b000000000000186a000000000000000000000000000000000000000000000000000000000000000000000) := by
  decide +kernel
example : hexOf (call [uint 100, int (-100)]).encode =
    some (84, 0x021a164247d6f2b425ac5771423ae6c80c754f7172b00b6d792d636f6e74726163740b6d792d66756e6374696f6e00000002010000000000000000000000000000006400ffffffffffffffffffffffffffffff9c) := by
  decide +kernel
example : hexOf (call []).encode =
    some (50, 0x021a164247d6f2b425ac5771423ae6c80c754f7172b00b6d792d636f6e74726163740b6d792d66756e6374696f6e00000000) := by
  decide +kernel
example : hexOf (call complexArgs).encode =
    some (170, 0x021a164247d6f2b425ac5771423ae6c80c754f7172b00b6d792d636f6e74726163740b6d792d66756e6374696f6e000000070c0000000201610100000000000000000000000000000064016200ffffffffffffffffffffffffffffff9c0b0000000303040a0100000000000000000000000000000064020000000b68656c6c6f20776f726c640301000000000000000000000000000186a00400fffffffffffffffffffffffffffe7960) := by
  decide +kernel
example : ["Hello, world!".toList, []].all fun memo =>
    ((TokenTransfer.mk (.principalStd stb) 100000 memo).encode >>= TokenTransfer.decode >>= TokenTransfer.encode) =
      (TokenTransfer.mk (.principalStd stb) 100000 memo).encode := by decide +kernel
example : [[uint 100, int (-100)], [], complexArgs].all fun args =>
    ((call args).encode >>= ContractCall.decode >>= fun c => .ok (c.address, c.contract, c.name, c.args)) =
      .ok (fixture, "my-contract".toList, "my-function".toList, args) := by decide +kernel

/-! ## transaction/auth.rs:546-572 -/

section
attribute [local instance] keySecp

example : hexOf ((SingleSig.new testKey 0 0 .p2pkh : Outcome Clarity.Error SingleSig) >>= SingleSig.encode) =
    some (103, 0x0015c31b8c1c11c515e244b75806bac48d1399c77500000000000000000000000000000000000000000000000000000000000000000000000000000000000000000000000000000000000000000000000000000000000000000000000000000000000000000000) := by
  decide +kernel
example : hexOf ((MultiSig.new [testKey, testKey] 0 0 2 .p2sh : Outcome Clarity.Error MultiSig) >>= MultiSig.encode) =
    some (43, 0x01b10bb6d6ff7a8b4de86614fadcc58c35808f117600000000000000000000000000000000000000000002) := by
  decide +kernel

end

end Stacks.Vectors

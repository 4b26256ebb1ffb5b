import Verif.Proofs.Panics
import Verif.Props.Wallet

/-! # Property C124: which calls panic -/

namespace Stacks
open Stacks.Spec Stacks.Tx

section
variable [Secp] [Hashes] [Bip] [Rpc.Http]

/-- **C124** Of all calls of the crate, exactly those of `PanicsOn` panic. -/
theorem C124_panics_exactly (c : Api) : c.Panics ↔ PanicsOn c := by
  cases c with
  | hexToBytes s => exact ⟨fun h => absurd h (hexToBytes_panic s), nofun⟩
  | c32Encode b => exact ⟨fun h => (by have h : C32.c32Encode b = .panic := h; rw [C32.C04_c32_encode_value] at h; cases h), nofun⟩
  | c32Decode s => exact ⟨fun h => absurd h (C32.c32Decode_not_panic s), nofun⟩
  | c32checkEncode b v =>
    exact ⟨fun h => .version ((C32.checkEncode_panic_iff b v).1 h), fun h => by cases h with | version h => exact (C32.checkEncode_panic_iff b v).2 h⟩
  | c32checkDecode s =>
    refine ⟨fun h => ?_, fun h => ?_⟩
    · obtain rfl := (C32.checkDecode_panic_iff s).1 h; exact .noVersion
    · cases h; exact (C32.checkDecode_panic_iff []).2 rfl
  | c32Address b v => exact ⟨fun h => absurd h (C32.address_panic b v), nofun⟩
  | c32AddressDecode s => exact ⟨fun h => absurd h (C32.C11_c32_address_decode_no_panic s), nofun⟩
  | addressFromStr s =>
    refine ⟨fun h => ?_, fun h => ?_⟩
    · obtain ⟨p, hp, hl⟩ := (C32.fromStr_panic_iff s).1 h; exact .addressSize hp hl
    · cases h with | addressSize hp hl => exact (C32.fromStr_panic_iff s).2 ⟨_, hp, hl⟩
  | hashP2sh m ks =>
    exact ⟨fun h => .p2sh ((C32.hash_panic_iff m ks).1.1 h), fun h => by cases h with | p2sh h => exact (C32.hash_panic_iff m ks).1.2 h⟩
  | hashP2wsh m ks =>
    exact ⟨fun h => .p2wsh ((C32.hash_panic_iff m ks).2.1 h), fun h => by cases h with | p2wsh h => exact (C32.hash_panic_iff m ks).2.2 h⟩
  | b58Encode b =>
    obtain ⟨s, hs⟩ := B58.C13_b58_encode_total b
    exact ⟨fun h => (by have h : B58.b58Encode b = .panic := h; rw [hs] at h; cases h), nofun⟩
  | b58Decode s =>
    exact ⟨fun h => .b58Char ((B58.decode_panic_iff s).1 h), fun h => by cases h with | b58Char h => exact (B58.decode_panic_iff s).2 h⟩
  | base58checkEncode b v => exact ⟨fun h => absurd h (B58.checkEncode_total b v), nofun⟩
  | base58checkDecode s =>
    refine ⟨fun h => ?_, fun h => ?_⟩
    · rcases (B58.check_panic_iff s).1 h with h | ⟨b, hb, hl⟩
      · exact .b58checkChar h
      · exact .b58checkSize hb hl
    · cases h with
      | b58checkChar h => exact (B58.check_panic_iff s).2 (.inl h)
      | b58checkSize hb hl => exact (B58.check_panic_iff s).2 (.inr ⟨_, hb, hl⟩)
  | hash160New b =>
    exact ⟨fun h => .hashSize ((copy_panic_iff 20 b).1 h), fun h => by cases h with | hashSize h => exact (copy_panic_iff 20 b).2 h⟩
  | signatureNew b =>
    exact ⟨fun h => .signatureSize ((copy_panic_iff 65 b).1 h), fun h => by cases h with | signatureSize h => exact (copy_panic_iff 65 b).2 h⟩
  | signatureFromSlice b => exact ⟨fun h => absurd h (fromSlice_panic b), nofun⟩
  | signatureFromRecov r => exact ⟨fun h => absurd h (fromRecov_panic r), nofun⟩
  | signatureIntoRecov s => exact ⟨fun h => absurd h (intoRecov_not_panic s), nofun⟩
  | checksum h => exact ⟨fun hp => absurd hp (checksum_panic h), nofun⟩
  | nextSignature h typ fee nonce k => exact ⟨fun hp => absurd hp (nextSignature_panic h typ fee nonce k), nofun⟩
  | nextVerify h typ fee nonce s => exact ⟨fun hp => absurd hp (nextVerify_not_panic h typ fee nonce s), nofun⟩
  | encode v => exact ⟨fun h => absurd h (Clarity.encode_not_panic v), nofun⟩
  | len v => exact ⟨fun h => absurd ((ok_panic_iff _ _).1 h) (Clarity.encode_not_panic v), nofun⟩
  | hex v => exact ⟨fun h => absurd ((ok_panic_iff _ _).1 h) (Clarity.encode_not_panic v), nofun⟩
  | hexPrefixed v => exact ⟨fun h => absurd h (hexPrefixed_panic v), nofun⟩
  | cast k v => exact ⟨fun h => absurd h (cast_panic k v), nofun⟩
  | decode b =>
    exact ⟨fun h => .value ((Clarity.decode_panic_iff b).1 h), fun h => by cases h with | value h => exact (Clarity.decode_panic_iff b).2 h⟩
  | decodeAs k b => exact decodeAs_iff k b
  | encodeAsset a => exact ⟨fun h => absurd h (asset_panic a), nofun⟩
  | encodeCondition c => exact ⟨fun h => absurd h (C41_no_panic c), nofun⟩
  | encodeConditions cs => exact ⟨fun h => absurd h (conditions_encode_ne_panic cs), nofun⟩
  | encodePayload p => exact ⟨fun h => absurd h (payload_encode_ne_panic p), nofun⟩
  | encodeSpending c => exact ⟨fun h => absurd h (spending_encode_ne_panic c), nofun⟩
  | encodeAuth a => exact ⟨fun h => absurd h (auth_encode_ne_panic a), nofun⟩
  | encodeTransaction t => exact ⟨fun h => absurd h (transaction_encode_no_panic t), nofun⟩
  | decodeTransfer b =>
    refine ⟨fun h => ?_, fun h => ?_⟩
    · obtain ⟨h1, h2⟩ := (transfer_panic_iff b).1 h; exact .transferBytes h1 h2
    · cases h with | transferBytes h1 h2 => exact (transfer_panic_iff b).2 ⟨h1, h2⟩
  | decodeCall b =>
    refine ⟨fun h => ?_, fun h => ?_⟩
    · obtain ⟨h1, h2⟩ := (call_panic_iff b).1 h; exact .callBytes h1 h2
    · cases h with | callBytes h1 h2 => exact (call_panic_iff b).2 ⟨h1, h2⟩
  | decodePayload b =>
    exact ⟨fun h => .payload ((payload_panic_iff b).1 h), fun h => by cases h with | payload h => exact (payload_panic_iff b).2 h⟩
  | decodeUnwritten w b => exact ⟨fun _ => .unwritten, fun _ => by cases w <;> rfl⟩
  | newSingle k fee nonce mode =>
    exact ⟨fun h => .singleMode ((single_new_panic_iff k fee nonce mode).1 h),
      fun h => by cases h with | singleMode h => exact (single_new_panic_iff k fee nonce mode).2 h⟩
  | newMulti ks fee nonce m mode =>
    refine ⟨fun h => ?_, fun h => ?_⟩
    · rcases (multi_new_panic_iff ks fee nonce m mode).1 h with h | h
      · exact .multiMode h
      · exact .multiNumbers h
    · cases h with
      | multiMode h => exact (multi_new_panic_iff ks fee nonce m mode).2 (.inl h)
      | multiNumbers h => exact (multi_new_panic_iff ks fee nonce m mode).2 (.inr h)
  | signatures c =>
    exact ⟨fun h => .counter ((signatures_panic_iff c).1 h), fun h => by cases h with | counter h => exact (signatures_panic_iff c).2 h⟩
  | modify c m => exact ⟨fun h => absurd h (modify_panic c m), nofun⟩
  | verifySpending c h typ =>
    exact ⟨fun hp => .verifySpending ((spending_verdict_iff c h typ _).1 hp),
      fun hp => by cases hp with | verifySpending hp => exact (spending_verdict_iff c h typ _).2 hp⟩
  | verifyAuth a h =>
    exact ⟨fun hp => .verifyAuth ((auth_verdict_iff a h _).1 hp),
      fun hp => by cases hp with | verifyAuth hp => exact (auth_verdict_iff a h _).2 hp⟩
  | verifyAuthOrigin a h =>
    refine ⟨fun hp => .verifyAuthOrigin ?_, fun hp => ?_⟩
    · rw [← origin_eq]; exact (spending_verdict_iff _ h 4 _).1 hp
    · cases hp with | verifyAuthOrigin hp => rw [← origin_eq] at hp; exact (spending_verdict_iff _ h 4 _).2 hp
  | sponsor a => exact ⟨fun h => (by cases a <;> cases h), nofun⟩
  | setSponsor a c => exact ⟨fun h => (by cases a <;> cases h), nofun⟩
  | hash t => exact ⟨fun h => absurd h (C72_never_panics t).2.1, nofun⟩
  | initialHash t => exact ⟨fun h => absurd h (C72_never_panics t).2.2, nofun⟩
  | verifyOrigin t =>
    refine ⟨fun h => ?_, fun h => ?_⟩
    · obtain ⟨h1, h2⟩ := (verifyOrigin_panic_iff t).1 h; exact .verifyOrigin h1 h2
    · cases h with | verifyOrigin h1 h2 => exact (verifyOrigin_panic_iff t).2 ⟨h1, h2⟩
  | sign t k =>
    refine ⟨fun h => ?_, fun h => ?_⟩
    · obtain ⟨h1, h2⟩ := (sign_panic_iff t k).1 h; exact .sign h1 h2
    · cases h with | sign h1 h2 => exact (sign_panic_iff t k).2 ⟨h1, h2⟩
  | newSigner t => exact ⟨fun h => absurd h (newSigner_panic t), nofun⟩
  | newSponsor t c =>
    refine ⟨fun h => ?_, fun h => ?_⟩
    · obtain ⟨o, p, h1, h2, h3⟩ := (newSponsor_panic_iff t c).1 h; exact .newSponsor h1 h2 h3
    · cases h with | newSponsor h1 h2 h3 => exact (newSponsor_panic_iff t c).2 ⟨_, _, h1, h2, h3⟩
  | signOrigin s k =>
    refine ⟨fun h => ?_, fun h => ?_⟩
    · obtain ⟨h1, h2, h3⟩ := (signOrigin_panic_iff s k).1 h; exact .signOrigin h1 h2 h3
    · cases h with | signOrigin h1 h2 h3 => exact (signOrigin_panic_iff s k).2 ⟨h1, h2, h3⟩
  | signSponsor s k =>
    refine ⟨fun h => ?_, fun h => ?_⟩
    · obtain ⟨o, c, h1, h2, h3⟩ := (signSponsor_panic_iff s k).1 h; exact .signSponsor h1 h2 h3
    · cases h with | signSponsor h1 h2 h3 => exact (signSponsor_panic_iff s k).2 ⟨_, _, h1, h2, h3⟩
  | appendOrigin s k => exact ⟨fun h => absurd h (appendOrigin_panic s k), nofun⟩
  | transfer b =>
    exact ⟨fun h => .sponsoredTransfer ((transfer_build_panic_iff b).1 h),
      fun h => by cases h with | sponsoredTransfer h => exact (transfer_build_panic_iff b).2 h⟩
  | contractCall b =>
    refine ⟨fun h => ?_, fun h => ?_⟩
    · obtain ⟨p, hp, h | h⟩ := (call_build_panic_iff b).1 h
      · exact .sponsoredCall h hp
      · exact .callAddress hp h
    · cases h with
      | sponsoredCall h hp => exact (call_build_panic_iff b).2 ⟨_, hp, .inl h⟩
      | callAddress hp h => exact (call_build_panic_iff b).2 ⟨_, hp, .inr h⟩
  | fromSecretKey s => exact ⟨fun h => absurd h (Wallet.fromSecretKey_panic s), nofun⟩
  | getAccount w i => exact ⟨fun h => absurd h (Wallet.getAccount_panic w i), nofun⟩
  | walletPrivateKey w => exact ⟨fun h => absurd h (Rpc.ofExcept_panic _ _), nofun⟩
  | walletPublicKey w => exact ⟨fun h => absurd h (Rpc.ofExcept_panic _ _), nofun⟩
  | getAddress a v => exact ⟨fun h => absurd h (Wallet.getAddress_panic a v), nofun⟩
  | accountPrivateKey a => exact ⟨fun h => absurd h (Rpc.ofExcept_panic _ _), nofun⟩
  | accountPublicKey a => exact ⟨fun h => absurd h (Rpc.ofExcept_panic _ _), nofun⟩
  | rpcInfo r server => exact ⟨fun h => absurd h (Rpc.get_panic _ _), nofun⟩
  | rpcAddress r server a => exact ⟨fun h => absurd h (Rpc.get_panic _ _), nofun⟩
  | rpcEstimateFee r server t => exact ⟨fun h => absurd h (Rpc.estimateFee_panic r server t), nofun⟩
  | rpcBroadcast r server t => exact ⟨fun h => absurd h (Rpc.broadcast_panic r server t), nofun⟩
  | rpcReadOnly r server a c f args sender =>
    exact ⟨fun h => absurd h (Rpc.readOnly_panic r server a c f args sender), nofun⟩

/-- **C124** In particular, whatever a server answers, no call of `StacksRPC` panics, and none of a wallet or an
account; nor does encoding or hashing of any value or transaction, or parsing of any hex or C32 string. -/
theorem C124_no_panic (r : Rpc.StacksRPC) (server : Rpc.Request → Rpc.Reply) (t : Transaction) (v : Clarity.CV)
    (s x y z : Str) (args : List Clarity.CV) (w : Wallet.StacksWallet) (a : Wallet.StacksAccount) (i : UInt32)
    (version : C32.Version) (c : Api)
    (h : c ∈ [.rpcInfo r server, .rpcAddress r server s, .rpcEstimateFee r server t, .rpcBroadcast r server t,
      .rpcReadOnly r server s x y args z, .fromSecretKey s, .getAccount w i, .walletPrivateKey w,
      .walletPublicKey w, .getAddress a version, .accountPrivateKey a, .accountPublicKey a, .encode v, .len v,
      .hex v, .hexPrefixed v, .encodeTransaction t, .hash t, .newSigner t, .hexToBytes s, .c32Decode s,
      .c32AddressDecode s]) : ¬ c.Panics := by
  rw [C124_panics_exactly]
  simp only [List.mem_cons, List.not_mem_nil, or_false] at h
  rcases h with rfl | rfl | rfl | rfl | rfl | rfl | rfl | rfl | rfl | rfl | rfl | rfl | rfl | rfl | rfl | rfl | rfl |
    rfl | rfl | rfl | rfl | rfl <;> nofun

end

/-! ## Calls that panic, and calls that do not -/

section
attribute [local instance] Concrete.realHashes Concrete.toySecp Wallet.toyBip Rpc.toyHttp
local instance panicsLawful : Secp.Lawful := Concrete.toyLawful

-- a correct address of three bytes
example : ∃ s, C32.c32Address [1, 2, 3] 22 = .ok s ∧ (Api.addressFromStr s).Panics :=
  ⟨"SP820DJMP8B0".toList, by decide +kernel, (by decide +kernel : C32.addressFromStr "SP820DJMP8B0".toList = .panic)⟩
-- the first strange character decides: `é` is in the table, `λ` is not
example : (Api.b58Decode "1λ0".toList).Panics :=
  (C124_panics_exactly _).2 (.b58Char ⟨['1'], 'λ', ['0'], rfl, by decide, by decide, by decide⟩)
example : ¬ (Api.b58Decode "10λ".toList).Panics := by
  show ¬ B58.b58Decode (['1'] ++ '0' :: ['λ']) = .panic
  rw [(B58.C15_b58_decode_bad ['1'] '0' ['λ'] (by decide) (by decide)).1 (by decide)]; simp
-- a list of two with one element; a list of one with one element
example : (Api.decode [0x0b, 0, 0, 0, 2, 0x03]).Panics :=
  (C124_panics_exactly _).2 (.value (.element (n := 2) (vs := [.tru]) (b := []) (by omega) (by decide)
    (by intro v hv; rw [List.mem_singleton.1 hv]; trivial) .nothing))
example : ¬ (Api.decode [0x0b, 0, 0, 0, 1, 0x03]).Panics := by
  show ¬ Clarity.decode _ = .panic
  rw [show Clarity.decode [0x0b, 0, 0, 0, 1, 0x03] = .ok (.list [.tru]) from rfl]; simp
-- `StringUtf8::decode` takes any first byte; `StringAscii::decode` its own
example : (Api.decodeAs .strUtf8 [0xff, 0]).Panics :=
  (C124_panics_exactly _).2 (.utf8 (.size (by simp) (by decide)))
example : ¬ (Api.decodeAs .strAscii [0xff, 0]).Panics :=
  fun h => Clarity.kind_other (i := 0x0d) _ rfl (by decide) (by decide) h
-- a contract call of which the arguments are missing
example : (Api.decodePayload (0x02 :: 22 :: (List.replicate 20 7 ++ [1, 99, 1, 102, 0, 0]))).Panics :=
  (C124_panics_exactly _).2 (.payload (.arguments (c := ['c']) (n := ['f']) (r := [0, 0]) (by simp) (by decide)
    (by decide) (.size (by decide))))
-- the modes, and the numbers
example : (Api.newSingle (exKey 1) 0 0 .p2sh).Panics := (C124_panics_exactly _).2 (.singleMode (.inl rfl))
example : (Api.newMulti [exKey 1] 0 0 176 .p2sh).Panics := (C124_panics_exactly _).2 (.multiNumbers (.inl (by decide)))
example : ¬ (Api.newMulti [exKey 1] 0 0 175 .p2sh).Panics := by
  rw [C124_panics_exactly]
  intro h
  cases h with
  | multiMode h => rcases h with h | h <;> cases h
  | multiNumbers h => revert h; decide
-- a signed transaction whose mode was changed afterwards
example : (Api.verifySpending (.single { exSigned (exKey 1) with mode := .p2sh }) exHash 4).Panics :=
  (C124_panics_exactly _).2 (.verifySpending (.single (.wrongMode (recovers_signature _ (exKey 1)) rfl)))
-- a builder with `sponsored(true)`
example (b : STXTokenTransfer) : (Api.transfer { b with sponsored := true }).Panics :=
  (C124_panics_exactly _).2 (.sponsoredTransfer rfl)

end

end Stacks

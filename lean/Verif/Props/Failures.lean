import Verif.Proofs.FailuresRpc
import Verif.Props.Panics

/-! # Property C125: which error each call reports -/

namespace Stacks
open Stacks.Spec Stacks.Tx

section
variable [Secp] [Hashes] [Bip] [Rpc.Http]

/-- **C125** Of all calls of the crate, exactly those of `FailsWith` return an error, and it is the error given
there. -/
theorem C125_errors_exactly (c : Api) (x : ApiError) : c.Reports x ↔ FailsWith c x := by
  cases c with
  | hexToBytes s =>
    refine ⟨?_, fun h => ?_⟩
    · rintro ⟨e, he, rfl⟩
      rcases (hexToBytes_err_iff s e).1 he with ⟨h, rfl⟩ | ⟨h, h', rfl⟩
      · exact .hexLength h
      · exact .hexChar h h'
    · cases h with
      | hexLength h => exact ⟨_, (hexToBytes_err_iff s _).2 (.inl ⟨h, rfl⟩), rfl⟩
      | hexChar h h' => exact ⟨_, (hexToBytes_err_iff s _).2 (.inr ⟨h, h', rfl⟩), rfl⟩
  | c32Encode b => exact ⟨fun ⟨e, he, _⟩ => absurd he (by rw [C32.C04_c32_encode_value]; simp), nofun⟩
  | c32Decode s =>
    refine ⟨fun ⟨e, he, hx⟩ => hx ▸ .c32Text ((C32.decode_err_iff s _).1 he), fun h => ?_⟩
    cases h with
    | c32Text h => exact ⟨_, (C32.decode_err_iff s _).2 h, rfl⟩
  | c32checkEncode b v => exact ⟨fun ⟨e, he, _⟩ => absurd he (C32.checkEncode_no_err b v e), nofun⟩
  | c32checkDecode s =>
    refine ⟨fun ⟨e, he, hx⟩ => hx ▸ .c32Check ((C32.checkDecode_err_iff s _).1 he), fun h => ?_⟩
    cases h with
    | c32Check h => exact ⟨_, (C32.checkDecode_err_iff s _).2 h, rfl⟩
  | c32Address b v =>
    refine ⟨?_, fun h => ?_⟩
    · rintro ⟨e, he, rfl⟩
      obtain ⟨h, rfl⟩ := (C32.c32Address_err_iff b v e).1 he
      exact .addressVersion h
    · cases h with
      | addressVersion h => exact ⟨_, (C32.c32Address_err_iff b v _).2 ⟨h, rfl⟩, rfl⟩
  | c32AddressDecode s =>
    refine ⟨fun ⟨e, he, hx⟩ => hx ▸ .addressText ((C32.address_err_iff s _).1 he), fun h => ?_⟩
    cases h with
    | addressText h => exact ⟨_, (C32.address_err_iff s _).2 h, rfl⟩
  | addressFromStr s =>
    refine ⟨fun ⟨e, he, hx⟩ => hx ▸ .address ((C32.fromStr_err_iff s _).1 he), fun h => ?_⟩
    cases h with
    | address h => exact ⟨_, (C32.fromStr_err_iff s _).2 h, rfl⟩
  | hashP2sh m ks => exact ⟨fun h => absurd h ((C32.hash_no_err m ks x).1), nofun⟩
  | hashP2wsh m ks => exact ⟨fun h => absurd h ((C32.hash_no_err m ks x).2), nofun⟩
  | b58Encode b =>
    obtain ⟨s, hs⟩ := B58.C13_b58_encode_total b
    exact ⟨fun ⟨e, he, _⟩ => absurd he (by rw [hs]; simp), nofun⟩
  | b58Decode s =>
    refine ⟨fun ⟨e, he, hx⟩ => hx ▸ .b58Text ((B58.decode_err_iff s _).1 he), fun h => ?_⟩
    cases h with
    | b58Text h => exact ⟨_, (B58.decode_err_iff s _).2 h, rfl⟩
  | base58checkEncode b v => exact ⟨fun ⟨e, he, _⟩ => absurd he (B58.checkEncode_no_err b v e), nofun⟩
  | base58checkDecode s =>
    refine ⟨?_, fun h => ?_⟩
    · rintro ⟨e, he, rfl⟩
      rcases (B58.check_err_iff s e).1 he with h | ⟨v, data, given, h1, h2, h3, rfl⟩
      · exact .b58CheckText h
      · exact .b58Checksum h1 h2 h3
    · cases h with
      | b58CheckText h => exact ⟨_, (B58.check_err_iff s _).2 (.inl h), rfl⟩
      | b58Checksum h1 h2 h3 => exact ⟨_, (B58.check_err_iff s _).2 (.inr ⟨_, _, _, h1, h2, h3, rfl⟩), rfl⟩
  | hash160New b => exact ⟨fun h => absurd h (copy_no_err 20 b x), nofun⟩
  | signatureNew b => exact ⟨fun h => absurd h (copy_no_err 65 b x), nofun⟩
  | signatureFromSlice b =>
    refine ⟨?_, fun h => ?_⟩
    · rintro ⟨e, he, rfl⟩
      obtain ⟨h, rfl⟩ := (fromSlice_err_iff b e).1 he
      exact .signatureLength h
    · cases h with
      | signatureLength h => exact ⟨_, (fromSlice_err_iff b _).2 ⟨h, rfl⟩, rfl⟩
  | signatureFromRecov r => exact ⟨fun ⟨e, he, _⟩ => absurd he (fromRecov_no_err r e), nofun⟩
  | signatureIntoRecov s =>
    refine ⟨?_, fun h => ?_⟩
    · rintro ⟨e, he, rfl⟩
      obtain ⟨y, h, rfl⟩ := (intoRecov_err_iff s e).1 he
      exact .intoRecov h
    · cases h with
      | intoRecov h => exact ⟨_, (intoRecov_err_iff s _).2 ⟨_, h, rfl⟩, rfl⟩
  | checksum d => exact ⟨fun h => absurd h (checksum_no_err d x), nofun⟩
  | nextSignature h typ fee nonce k => exact ⟨fun ⟨e, he, _⟩ => absurd he (nextSignature_no_err h typ fee nonce k e), nofun⟩
  | nextVerify h typ fee nonce s =>
    refine ⟨?_, fun h => ?_⟩
    · rintro ⟨e, he, rfl⟩
      rcases nextVerify_cases h typ fee nonce s with ⟨y, hy, h'⟩ | ⟨k, _, h'⟩ <;> rw [h'] at he <;> cases he
      exact .nextVerify hy
    · cases h with
      | nextVerify h => exact ⟨_, nextVerify_fails h, rfl⟩
  | encode v =>
    refine ⟨fun ⟨e, he, hx⟩ => hx ▸ .encode ((Clarity.C70_encode_error_exact v _).1 he), fun h => ?_⟩
    cases h with
    | encode h => exact ⟨_, (Clarity.C70_encode_error_exact v _).2 h, rfl⟩
  | len v =>
    refine ⟨fun ⟨e, he, hx⟩ => hx ▸ .len ((Clarity.len_err_iff v _).1 he), fun h => ?_⟩
    cases h with
    | len h => exact ⟨_, (Clarity.len_err_iff v _).2 h, rfl⟩
  | hex v =>
    refine ⟨fun ⟨e, he, hx⟩ => hx ▸ .hex ((Clarity.hex_err_iff v _).1 he), fun h => ?_⟩
    cases h with
    | hex h => exact ⟨_, (Clarity.hex_err_iff v _).2 h, rfl⟩
  | hexPrefixed v =>
    refine ⟨fun ⟨e, he, hx⟩ => hx ▸ .hexPrefixed ((Clarity.hexPrefixed_err_iff v _).1 he), fun h => ?_⟩
    cases h with
    | hexPrefixed h => exact ⟨_, (Clarity.hexPrefixed_err_iff v _).2 h, rfl⟩
  | cast k v =>
    refine ⟨?_, fun h => ?_⟩
    · rintro ⟨e, he, rfl⟩
      obtain ⟨h, rfl⟩ := (cast_err_iff k v e).1 he
      exact .cast h
    · cases h with
      | cast h => exact ⟨_, (cast_err_iff k v _).2 ⟨h, rfl⟩, rfl⟩
  | decode b =>
    refine ⟨fun ⟨e, he, hx⟩ => hx ▸ .decode ((Clarity.decode_err_iff b _).1 he), fun h => ?_⟩
    cases h with
    | decode h => exact ⟨_, (Clarity.decode_err_iff b _).2 h, rfl⟩
  | decodeAs k b =>
    refine ⟨?_, fun h => ?_⟩
    · rintro ⟨e, he, rfl⟩
      exact (decodeAs_err_iff k b e).1 he
    · cases h with
      | typed hi h => exact ⟨_, (decodeAs_err_iff _ _ _).2 (.typed hi h), rfl⟩
      | otherType h1 h2 h3 => exact ⟨_, (decodeAs_err_iff _ _ _).2 (.otherType h1 h2 h3), rfl⟩
      | anyType h => exact ⟨_, (decodeAs_err_iff _ _ _).2 (.anyType h), rfl⟩
      | name h1 h2 => exact ⟨_, (decodeAs_err_iff _ _ _).2 (.name h1 h2), rfl⟩
      | arguments h => exact ⟨_, (decodeAs_err_iff _ _ _).2 (.arguments h), rfl⟩
  | encodeAsset a =>
    refine ⟨fun ⟨e, he, hx⟩ => hx ▸ .asset ((asset_err_iff a _).1 he), fun h => ?_⟩
    cases h with
    | asset h => exact ⟨_, (asset_err_iff a _).2 h, rfl⟩
  | encodeCondition c =>
    refine ⟨fun ⟨e, he, hx⟩ => hx ▸ .condition ((C72_condition_error_exact c _).1 he), fun h => ?_⟩
    cases h with
    | condition h => exact ⟨_, (C72_condition_error_exact c _).2 h, rfl⟩
  | encodeConditions cs =>
    refine ⟨fun ⟨e, he, hx⟩ => hx ▸ .conditions ((C72_conditions_error_exact cs _).1 he), fun h => ?_⟩
    cases h with
    | conditions h => exact ⟨_, (C72_conditions_error_exact cs _).2 h, rfl⟩
  | encodePayload p =>
    refine ⟨fun ⟨e, he, hx⟩ => hx ▸ .payload ((C72_payload_error_exact p _).1 he), fun h => ?_⟩
    cases h with
    | payload h => exact ⟨_, (C72_payload_error_exact p _).2 h, rfl⟩
  | encodeSpending c =>
    refine ⟨?_, fun h => ?_⟩
    · rintro ⟨e, he, rfl⟩
      obtain ⟨h, rfl⟩ := (spending_err_iff c e).1 he
      exact .spending h
    · cases h with
      | spending h => exact ⟨_, (spending_err_iff c _).2 ⟨h, rfl⟩, rfl⟩
  | encodeAuth a =>
    refine ⟨?_, fun h => ?_⟩
    · rintro ⟨e, he, rfl⟩
      obtain ⟨h, rfl⟩ := (auth_err_iff a e).1 he
      exact .auth h
    · cases h with
      | auth h => exact ⟨_, (auth_err_iff a _).2 ⟨h, rfl⟩, rfl⟩
  | encodeTransaction t =>
    refine ⟨fun ⟨e, he, hx⟩ => hx ▸ .transaction ((C72_transaction_error_exact t _).1 he), fun h => ?_⟩
    cases h with
    | transaction h => exact ⟨_, (C72_transaction_error_exact t _).2 h, rfl⟩
  | decodeTransfer b =>
    refine ⟨?_, fun h => ?_⟩
    · rintro ⟨e, he, rfl⟩
      rcases (transferDecode_err_iff b e).1 he with ⟨t, r, rfl, h, rfl⟩ | ⟨r, rfl, h⟩
      · exact .transferType h
      · exact .transferBytes h
    · cases h with
      | transferType h => exact ⟨_, (transferDecode_err_iff _ _).2 (.inl ⟨_, _, rfl, h, rfl⟩), rfl⟩
      | transferBytes h => exact ⟨_, (transferDecode_err_iff _ _).2 (.inr ⟨_, rfl, h⟩), rfl⟩
  | decodeCall b =>
    refine ⟨?_, fun h => ?_⟩
    · rintro ⟨e, he, rfl⟩
      rcases (callDecode_err_iff b e).1 he with ⟨t, r, rfl, h, rfl⟩ | ⟨r, rfl, h⟩
      · exact .callType h
      · exact .callBytes h
    · cases h with
      | callType h => exact ⟨_, (callDecode_err_iff _ _).2 (.inl ⟨_, _, rfl, h, rfl⟩), rfl⟩
      | callBytes h => exact ⟨_, (callDecode_err_iff _ _).2 (.inr ⟨_, rfl, h⟩), rfl⟩
  | decodePayload b =>
    refine ⟨fun ⟨e, he, hx⟩ => hx ▸ .payloadBytes ((C73_payload_decode_error_exact b _).1 he), fun h => ?_⟩
    cases h with
    | payloadBytes h => exact ⟨_, (C73_payload_decode_error_exact b _).2 h, rfl⟩
  | decodeUnwritten w b =>
    refine ⟨fun h => ?_, nofun⟩
    cases w <;> obtain ⟨e, he, _⟩ := h <;> cases he
  | newSingle k fee nonce mode => exact ⟨fun h => absurd h (single_new_no_err k fee nonce mode x), nofun⟩
  | newMulti ks fee nonce m mode => exact ⟨fun h => absurd h (multi_new_no_err ks fee nonce m mode x), nofun⟩
  | signatures c => exact ⟨fun h => absurd h (signatures_no_err c x), nofun⟩
  | modify c m =>
    refine ⟨?_, fun h => ?_⟩
    · rintro ⟨e, he, rfl⟩
      obtain ⟨h, rfl⟩ := (modify_err_iff c m e).1 he
      exact .modify h
    · cases h with
      | modify h => exact ⟨_, (modify_err_iff c m _).2 ⟨h, rfl⟩, rfl⟩
  | verifySpending c d typ =>
    refine ⟨fun ⟨e, he, hx⟩ => hx ▸ .verifySpending ((spending_verdict_iff c d typ _).1 he), fun h => ?_⟩
    cases h with
    | verifySpending h => exact ⟨_, (spending_verdict_iff c d typ _).2 h, rfl⟩
  | verifyAuth a d =>
    refine ⟨fun ⟨e, he, hx⟩ => hx ▸ .verifyAuth ((auth_verdict_iff a d _).1 he), fun h => ?_⟩
    cases h with
    | verifyAuth h => exact ⟨_, (auth_verdict_iff a d _).2 h, rfl⟩
  | verifyAuthOrigin a h =>
    refine ⟨?_, fun h => ?_⟩
    · rintro ⟨e, he, rfl⟩
      refine .verifyAuthOrigin ((spending_verdict_iff _ _ _ _).1 ?_)
      rw [← origin_eq]; exact he
    · cases h with
      | verifyAuthOrigin hv =>
        refine ⟨_, ?_, rfl⟩
        have := (spending_verdict_iff _ _ _ _).2 hv
        rw [← origin_eq] at this; exact this
  | sponsor a =>
    refine ⟨?_, fun h => ?_⟩
    · rintro ⟨e, he, rfl⟩
      cases a with
      | standard o => cases he; exact .sponsor
      | sponsored o c => cases he
    · cases h with
      | sponsor => exact ⟨_, rfl, rfl⟩
  | setSponsor a c =>
    refine ⟨?_, fun h => ?_⟩
    · rintro ⟨e, he, rfl⟩
      cases a with
      | standard o => cases he; exact .setSponsor
      | sponsored o c => cases he
    · cases h with
      | setSponsor => exact ⟨_, rfl, rfl⟩
  | hash t =>
    refine ⟨?_, fun h => ?_⟩
    · rintro ⟨e, he, rfl⟩
      obtain ⟨y, h, rfl⟩ := (transaction_hash_err_iff t e).1 he
      exact .hash h
    · cases h with
      | hash h => exact ⟨_, (transaction_hash_err_iff t _).2 ⟨_, h, rfl⟩, rfl⟩
  | initialHash t =>
    refine ⟨?_, fun h => ?_⟩
    · rintro ⟨e, he, rfl⟩
      obtain ⟨y, h, rfl⟩ := (C72_signing_hash_error_exact t e).1 he
      exact .initialHash h
    · cases h with
      | initialHash h => exact ⟨_, (C72_signing_hash_error_exact t _).2 ⟨_, h, rfl⟩, rfl⟩
  | verifyOrigin t =>
    refine ⟨?_, fun h => ?_⟩
    · rintro ⟨e, he, rfl⟩
      rcases (verifyOrigin_err_iff t e).1 he with ⟨y, h, rfl⟩ | ⟨h, h'⟩
      · exact .verifyBody h
      · exact .verifyOrigin h h'
    · cases h with
      | verifyBody h => exact ⟨_, (verifyOrigin_err_iff t _).2 (.inl ⟨_, h, rfl⟩), rfl⟩
      | verifyOrigin h h' => exact ⟨_, (verifyOrigin_err_iff t _).2 (.inr ⟨h, h'⟩), rfl⟩
  | sign t k =>
    refine ⟨?_, fun h => ?_⟩
    · rintro ⟨e, he, rfl⟩
      rcases (sign_err_iff t k e).1 he with ⟨y, h, rfl⟩ | ⟨h1, h2, h3, rfl⟩ | ⟨h1, h2, h3, rfl⟩
      · exact .signBody h
      · exact .signOversign h1 h2 h3
      · exact .signMode h1 h2 h3
    · cases h with
      | signBody h => exact ⟨_, (sign_err_iff t k _).2 (.inl ⟨_, h, rfl⟩), rfl⟩
      | signOversign h1 h2 h3 => exact ⟨_, (sign_err_iff t k _).2 (.inr (.inl ⟨h1, h2, h3, rfl⟩)), rfl⟩
      | signMode h1 h2 h3 => exact ⟨_, (sign_err_iff t k _).2 (.inr (.inr ⟨h1, h2, h3, rfl⟩)), rfl⟩
  | newSigner t =>
    refine ⟨?_, fun h => ?_⟩
    · rintro ⟨e, he, rfl⟩
      obtain ⟨y, h, rfl⟩ := (newSigner_err_iff t e).1 he
      exact .newSigner h
    · cases h with
      | newSigner h => exact ⟨_, (newSigner_err_iff t _).2 ⟨_, h, rfl⟩, rfl⟩
  | newSponsor t c =>
    refine ⟨?_, fun h => ?_⟩
    · rintro ⟨e, he, rfl⟩
      rcases (newSponsor_err_iff t c e).1 he with ⟨⟨o, h⟩, rfl⟩ | ⟨o, p, h, ⟨y, h', rfl⟩ | ⟨h1, h2⟩⟩
      · exact .newSponsorStandard h
      · exact .newSponsorBody h h'
      · exact .newSponsorOrigin h h1 h2
    · cases h with
      | newSponsorStandard h => exact ⟨_, (newSponsor_err_iff t c _).2 (.inl ⟨⟨_, h⟩, rfl⟩), rfl⟩
      | newSponsorBody h h' => exact ⟨_, (newSponsor_err_iff t c _).2 (.inr ⟨_, _, h, .inl ⟨_, h', rfl⟩⟩), rfl⟩
      | newSponsorOrigin h h1 h2 => exact ⟨_, (newSponsor_err_iff t c _).2 (.inr ⟨_, _, h, .inr ⟨h1, h2⟩⟩), rfl⟩
  | signOrigin s k =>
    refine ⟨?_, fun h => ?_⟩
    · rintro ⟨e, he, rfl⟩
      rcases (signOrigin_err_iff s k e).1 he with ⟨h1, h2, rfl⟩ | ⟨h1, h2, h3, h4, rfl⟩ | ⟨h1, h2, h3, rfl⟩
      · exact .signOriginOverlap h1 h2
      · exact .signOriginOversign h1 h2 h3 h4
      · exact .signOriginMode h1 h2 h3
    · cases h with
      | signOriginOverlap h1 h2 => exact ⟨_, (signOrigin_err_iff s k _).2 (.inl ⟨h1, h2, rfl⟩), rfl⟩
      | signOriginOversign h1 h2 h3 h4 =>
        exact ⟨_, (signOrigin_err_iff s k _).2 (.inr (.inl ⟨h1, h2, h3, h4, rfl⟩)), rfl⟩
      | signOriginMode h1 h2 h3 => exact ⟨_, (signOrigin_err_iff s k _).2 (.inr (.inr ⟨h1, h2, h3, rfl⟩)), rfl⟩
  | signSponsor s k =>
    refine ⟨?_, fun h => ?_⟩
    · rintro ⟨e, he, rfl⟩
      rcases (signSponsor_err_iff s k e).1 he with ⟨o, h, rfl⟩ | ⟨o, c, h, ⟨h1, h2, h3, rfl⟩ | ⟨h1, h2, rfl⟩⟩
      · exact .signSponsorStandard h
      · exact .signSponsorOversign h h1 h2 h3
      · exact .signSponsorMode h h1 h2
    · cases h with
      | signSponsorStandard h => exact ⟨_, (signSponsor_err_iff s k _).2 (.inl ⟨_, h, rfl⟩), rfl⟩
      | signSponsorOversign h h1 h2 h3 =>
        exact ⟨_, (signSponsor_err_iff s k _).2 (.inr ⟨_, _, h, .inl ⟨h1, h2, h3, rfl⟩⟩), rfl⟩
      | signSponsorMode h h1 h2 => exact ⟨_, (signSponsor_err_iff s k _).2 (.inr ⟨_, _, h, .inr ⟨h1, h2, rfl⟩⟩), rfl⟩
  | appendOrigin s k =>
    refine ⟨?_, fun h => ?_⟩
    · rintro ⟨e, he, rfl⟩
      rcases (appendOrigin_err_iff s k e).1 he with ⟨h1, h2, rfl⟩ | ⟨h1, ⟨c, h2⟩ | ⟨c, h2, h3⟩, rfl⟩
      · exact .appendOverlap h1 h2
      · exact .appendSingle h1 h2
      · exact .appendMode h1 h2 h3
    · cases h with
      | appendOverlap h1 h2 => exact ⟨_, (appendOrigin_err_iff s k _).2 (.inl ⟨h1, h2, rfl⟩), rfl⟩
      | appendSingle h1 h2 => exact ⟨_, (appendOrigin_err_iff s k _).2 (.inr ⟨h1, .inl ⟨_, h2⟩, rfl⟩), rfl⟩
      | appendMode h1 h2 h3 => exact ⟨_, (appendOrigin_err_iff s k _).2 (.inr ⟨h1, .inr ⟨_, h2, h3⟩, rfl⟩), rfl⟩
  | transfer b => exact ⟨fun h => absurd h (transfer_build_no_err b x), nofun⟩
  | contractCall b =>
    refine ⟨?_, fun h => ?_⟩
    · rintro ⟨e, he, rfl⟩
      obtain ⟨y, h, rfl⟩ := (call_build_err_iff b e).1 he
      exact .contractCall h
    · cases h with
      | contractCall h => exact ⟨_, (call_build_err_iff b _).2 ⟨_, h, rfl⟩, rfl⟩
  | fromSecretKey s =>
    refine ⟨?_, fun h => ?_⟩
    · rintro ⟨e, he, rfl⟩
      rcases (Wallet.fromSecretKey_err_iff s e).1 he with ⟨y, h, rfl⟩ | ⟨m, y, h, h1, rfl⟩ | ⟨m, p, y, h, h1, h2, rfl⟩
      · exact .mnemonic h
      · exact .path h h1
      · exact .root h h1 h2
    · cases h with
      | mnemonic h => exact ⟨_, (Wallet.fromSecretKey_err_iff s _).2 (.inl ⟨_, h, rfl⟩), rfl⟩
      | path h h1 => exact ⟨_, (Wallet.fromSecretKey_err_iff s _).2 (.inr (.inl ⟨_, _, h, h1, rfl⟩)), rfl⟩
      | root h h1 h2 => exact ⟨_, (Wallet.fromSecretKey_err_iff s _).2 (.inr (.inr ⟨_, _, _, h, h1, h2, rfl⟩)), rfl⟩
  | getAccount w i =>
    refine ⟨?_, fun h => ?_⟩
    · rintro ⟨e, he, rfl⟩
      obtain ⟨h, y, h', rfl⟩ := (Wallet.getAccount_err_iff w i e).1 he
      exact .account h h'
    · cases h with
      | account h h' => exact ⟨_, (Wallet.getAccount_err_iff w i _).2 ⟨h, _, h', rfl⟩, rfl⟩
  | walletPrivateKey w =>
    refine ⟨?_, fun h => ?_⟩
    · rintro ⟨e, he, rfl⟩
      obtain ⟨y, h, rfl⟩ := (ofExcept_err_iff _ _ _).1 he
      exact .walletPrivateKey h
    · cases h with
      | walletPrivateKey h => exact ⟨_, (ofExcept_err_iff _ _ _).2 ⟨_, h, rfl⟩, rfl⟩
  | walletPublicKey w =>
    refine ⟨?_, fun h => ?_⟩
    · rintro ⟨e, he, rfl⟩
      obtain ⟨y, h, rfl⟩ := (ofExcept_err_iff _ _ _).1 he
      exact .walletPublicKey h
    · cases h with
      | walletPublicKey h => exact ⟨_, (ofExcept_err_iff _ _ _).2 ⟨_, h, rfl⟩, rfl⟩
  | getAddress a v => exact ⟨fun ⟨e, he, _⟩ => absurd he (Wallet.getAddress_no_err a v e), nofun⟩
  | accountPrivateKey a =>
    refine ⟨?_, fun h => ?_⟩
    · rintro ⟨e, he, rfl⟩
      obtain ⟨y, h, rfl⟩ := (ofExcept_err_iff _ _ _).1 he
      exact .accountPrivateKey h
    · cases h with
      | accountPrivateKey h => exact ⟨_, (ofExcept_err_iff _ _ _).2 ⟨_, h, rfl⟩, rfl⟩
  | accountPublicKey a =>
    refine ⟨?_, fun h => ?_⟩
    · rintro ⟨e, he, rfl⟩
      obtain ⟨y, h, rfl⟩ := (ofExcept_err_iff _ _ _).1 he
      exact .accountPublicKey h
    · cases h with
      | accountPublicKey h => exact ⟨_, (ofExcept_err_iff _ _ _).2 ⟨_, h, rfl⟩, rfl⟩
  | rpcInfo r server =>
    refine ⟨fun ⟨e, he, hx⟩ => hx ▸ .info ((Rpc.question_err_iff _ _ Rpc.nodeInfo_iff (server (infoRequest r.url)) _).1 he), fun h => ?_⟩
    cases h with
    | info h => exact ⟨_, (Rpc.question_err_iff _ _ Rpc.nodeInfo_iff (server (infoRequest r.url)) _).2 h, rfl⟩
  | rpcAddress r server a =>
    refine ⟨fun ⟨e, he, hx⟩ => hx ▸ .accountInfo ((Rpc.question_err_iff _ _ Rpc.addressInfo_iff (server (accountRequest r.url a)) _).1 he), fun h => ?_⟩
    cases h with
    | accountInfo h => exact ⟨_, (Rpc.question_err_iff _ _ Rpc.addressInfo_iff (server (accountRequest r.url a)) _).2 h, rfl⟩
  | rpcEstimateFee r server t =>
    refine ⟨?_, fun h => ?_⟩
    · rintro ⟨e, he, rfl⟩
      rcases (Rpc.fee_err_iff r server t e).1 he with ⟨y, h, rfl⟩ | ⟨h, y, h', rfl⟩ | ⟨h1, h2, h3⟩
      · exact .feePayload h
      · exact .feeTransaction h h'
      · exact .fee h1 h2 h3
    · cases h with
      | feePayload h => exact ⟨_, (Rpc.fee_err_iff r server t _).2 (.inl ⟨_, h, rfl⟩), rfl⟩
      | feeTransaction h h' => exact ⟨_, (Rpc.fee_err_iff r server t _).2 (.inr (.inl ⟨h, _, h', rfl⟩)), rfl⟩
      | fee h1 h2 h3 => exact ⟨_, (Rpc.fee_err_iff r server t _).2 (.inr (.inr ⟨h1, h2, h3⟩)), rfl⟩
  | rpcBroadcast r server t =>
    refine ⟨?_, fun h => ?_⟩
    · rintro ⟨e, he, rfl⟩
      rcases (Rpc.broadcast_err_iff r server t e).1 he with ⟨y, h, rfl⟩ | ⟨h1, h2, h3⟩
      · exact .broadcastTransaction h
      · exact .broadcast h1 h2 h3
    · cases h with
      | broadcastTransaction h => exact ⟨_, (Rpc.broadcast_err_iff r server t _).2 (.inl ⟨_, h, rfl⟩), rfl⟩
      | broadcast h1 h2 h3 => exact ⟨_, (Rpc.broadcast_err_iff r server t _).2 (.inr ⟨h1, h2, h3⟩), rfl⟩
  | rpcReadOnly r server a c f args sender =>
    refine ⟨?_, fun h => ?_⟩
    · rintro ⟨e, he, rfl⟩
      rcases (Rpc.readOnly_err_iff r server a c f args sender e).1 he with ⟨pre, v, post, y, rfl, h1, h2, rfl⟩ | ⟨h1, h2⟩
      · exact .readOnlyArgument h1 h2
      · exact .readOnly h1 h2
    · cases h with
      | readOnlyArgument h1 h2 =>
        exact ⟨_, (Rpc.readOnly_err_iff r server a c f _ sender _).2 (.inl ⟨_, _, _, _, rfl, h1, h2, rfl⟩), rfl⟩
      | readOnly h1 h2 => exact ⟨_, (Rpc.readOnly_err_iff r server a c f args sender _).2 (.inr ⟨h1, h2⟩), rfl⟩

/-- **C125** Some variants of the error types are reported by no call: `TryFromIntError` and `TryFromUtf8Error` of
C32, `UnknownAddressVersion` and `TryFromIntError` of Base58, `TryFromIntError` of hashes, `TryFromSliceError` of
Clarity, `Secp256k1Error` and `TryFromIntError` of transactions, `C32Error` of wallets. -/
theorem C125_never_reported (c : Api) (x : ApiError) (h : c.Reports x) : Reported x := by
  cases (C125_errors_exactly c x).1 h with
  | c32Text => exact (by cases ‹C32Fails _ _› <;> exact ⟨nofun, nofun⟩)
  | c32Check => exact c32Check_reported ‹_›
  | addressVersion => exact ⟨nofun, nofun⟩
  | addressText => exact address_reported ‹_›
  | address => exact address_reported ‹_›
  | b58Text => exact (by cases ‹B58Fails _ _›; trivial)
  | b58CheckText => exact (by cases ‹B58Fails _ _›; trivial)
  | encode => exact encode_reported ‹_›
  | len => exact encode_reported ‹_›
  | hex => exact encode_reported ‹_›
  | hexPrefixed => exact encode_reported ‹_›
  | cast => exact ⟨nofun, nofun, nofun⟩
  | decode => exact decode_reported ‹_›
  | typed => exact decode_reported ‹DecodeFails _ _›
  | otherType => exact ⟨nofun, nofun, nofun⟩
  | anyType => exact decode_reported ‹_›
  | name => exact ⟨nofun, nofun, nofun⟩
  | arguments => exact arguments_reported ‹_›
  | asset => exact asset_reported ‹_›
  | condition => exact condition_reported ‹_›
  | conditions => exact conditions_reported ‹_›
  | payload => exact payload_reported ‹_›
  | spending => exact ⟨nofun, nofun, nofun⟩
  | auth => exact ⟨nofun, nofun, nofun⟩
  | transaction => exact transaction_reported ‹_›
  | transferType => exact ⟨nofun, nofun, nofun⟩
  | transferBytes => exact payloadDecode_reported ‹_›
  | callType => exact ⟨nofun, nofun, nofun⟩
  | callBytes => exact payloadDecode_reported ‹_›
  | payloadBytes => exact payloadDecode_reported ‹_›
  | verifySpending => exact spending_reported ‹_›
  | verifyAuth => exact auth_reported ‹_›
  | verifyAuthOrigin => exact spending_reported ‹_›
  | verifyBody => exact body_reported ‹_›
  | verifyOrigin => exact spending_reported ‹SpendingVerdict _ _ _ _›
  | hash => exact transaction_reported ‹_›
  | initialHash => exact body_reported ‹_›
  | signBody => exact body_reported ‹_›
  | newSigner => exact body_reported ‹_›
  | newSponsorBody => exact body_reported ‹BodyFails _ _›
  | newSponsorOrigin => exact spending_reported ‹SpendingVerdict _ _ _ _›
  | contractCall => exact (by
    have := address_reported ‹AddressFails _ _›
    exact ⟨nofun, fun h => this.1 (by cases h; rfl), fun h => this.2 (by cases h; rfl)⟩)
  | info => exact answer_reported ‹_›
  | accountInfo => exact answer_reported ‹_›
  | feePayload => exact payload_reported ‹_›
  | feeTransaction => exact transaction_reported ‹TransactionFails _ _›
  | fee => exact feeAnswer_reported ‹FeeAnswerFails _ _›
  | broadcastTransaction => exact transaction_reported ‹_›
  | broadcast => exact broadcastAnswer_reported ‹BroadcastAnswerFails _ _›
  | readOnlyArgument => exact encode_reported ‹EncodeFails _ _›
  | readOnly => exact answer_reported ‹AnswerFails _ _ _›
  | _ => trivial

omit [Hashes] in
private theorem fails_det {ε α : Type} {o : Outcome ε α} {f : ε → ApiError} {x y : ApiError} (hx : o.Fails f x)
    (hy : o.Fails f y) : x = y := by
  obtain ⟨e, he, rfl⟩ := hx
  obtain ⟨e', he', rfl⟩ := hy
  cases he.symm.trans he'; rfl

omit [Hashes] in
private theorem fails_panic {ε α : Type} {o : Outcome ε α} {f : ε → ApiError} {x : ApiError} (hx : o.Fails f x)
    (hy : o = .panic) : False := by
  obtain ⟨e, he, rfl⟩ := hx
  cases he.symm.trans hy

/-- **C125** A call has at most one of the errors. -/
theorem C125_one_error (c : Api) {x y : ApiError} (hx : FailsWith c x) (hy : FailsWith c y) : x = y := by
  have h1 := (C125_errors_exactly c x).2 hx
  have h2 := (C125_errors_exactly c y).2 hy
  cases c with
  | decodeUnwritten w b => cases w <;> exact fails_det h1 h2
  | _ => first | exact fails_det h1 h2 | cases hx

/-- **C125** A call that has one of the errors does not panic. -/
theorem C125_error_or_panic (c : Api) {x : ApiError} (hx : FailsWith c x) : ¬ PanicsOn c := by
  have h1 := (C125_errors_exactly c x).2 hx
  rw [← C124_panics_exactly]
  intro h
  cases c with
  | decodeUnwritten w b => cases w <;> exact fails_panic h1 h
  | _ => first | exact fails_panic h1 h | cases hx

end

/-! ## Calls that report errors, and calls that do not -/

section
attribute [local instance] Concrete.realHashes Concrete.toySecp Wallet.toyBip Rpc.toyHttp
local instance failuresLawful : Secp.Lawful := Concrete.toyLawful

-- the length is looked at before the digits
example : (Api.hexToBytes "xyz".toList).Reports (.hex (.unpaddedHex "xyz".toList 3)) :=
  (C125_errors_exactly _ _).2 (.hexLength (by decide +kernel))
example : (Api.hexToBytes "xy".toList).Reports (.hex .badChar) :=
  (C125_errors_exactly _ _).2 (.hexChar (by decide +kernel) (by decide +kernel))
-- of two characters that are not digits, the last is reported; `é` comes before both
example : (Api.c32Decode "U!0".toList).Reports (.c32 (.badChar '!')) :=
  (C125_errors_exactly _ _).2 (.c32Text (.badChar (by decide +kernel) ⟨['U'], ['0'], rfl, by decide +kernel, by decide +kernel⟩))
example : (Api.c32Decode "U!é".toList).Reports (.c32 .badInput) :=
  (C125_errors_exactly _ _).2 (.c32Text (.notAscii ⟨'é', by decide +kernel, by decide +kernel⟩))
-- of two characters that are not Base58 digits, the first
example : (Api.b58Decode "1O0".toList).Reports (.b58 (.badChar 'O')) :=
  (C125_errors_exactly _ _).2 (.b58Text (.badChar (l := ['1']) (by decide +kernel) (by decide +kernel) (by decide +kernel)))
-- an address with a wrong last digit
example : ∃ x y, (Api.addressFromStr "SP2J6ZY48GV1EZ5V2V5RB9MP66SW86PYKKNRV9EJ8".toList).Reports
    (.c32 (.badChecksum x y)) :=
  ⟨⟨[113, 180, 186, 71], rfl⟩, [113, 180, 186, 72],
    .badChecksum _ _, by decide +kernel, rfl⟩
-- a tuple: of two values that cannot be written the first is reported
example : (Api.encode (.tuple [("a".toList, .strAscii "é".toList), ("b".toList, .principalStd "x".toList)])).Reports
    (.clarity (.badStringType "Ascii".toList)) :=
  (C125_errors_exactly _ _).2 (.encode (.tuple (pre := []) (by decide) (by simp) (by decide +kernel)
    (.notAscii ⟨'é', by decide +kernel, by decide +kernel⟩)))
-- `int` where `uint` is expected; the other way round there is no error
example : (Api.decodeAs .uint [0, 1, 2]).Reports (.clarity (.badIdentifier 1 0)) :=
  (C125_errors_exactly _ _).2 (.otherType rfl (by decide) (by decide))
example (x : ApiError) : ¬ (Api.decodeAs .uint (1 :: List.replicate 16 7)).Reports x := by
  rintro ⟨e, he, _⟩
  have : Clarity.decodeKind .uint (1 :: List.replicate 16 7) = .ok () := by decide +kernel
  rw [this] at he; cases he
-- a signed payment signed once more
example (x : ApiError) : (Api.signOrigin ⟨{ exTx with auth := .standard (.single (exSigned (exKey 1))) },
    exHash, false, true, true⟩ (exKey 1)).Reports x ↔ x = .transaction .originOversign := by
  have hn : ¬ signatureCount (.single (exSigned (exKey 1))) < requiredCount (.single (exSigned (exKey 1))) := by
    decide +kernel
  rw [C125_errors_exactly]
  constructor
  · intro h
    cases h with
    | signOriginOverlap h h' => cases h'
    | signOriginOversign _ _ _ _ => rfl
    | signOriginMode _ h _ => exact absurd (h rfl) hn
  · rintro rfl
    exact .signOriginOversign (by simp) rfl
      (by show signatureCount (.single (exSigned (exKey 1))) < 65536; decide +kernel) (Nat.le_of_not_lt hn)
-- a wallet from words that are none
example (s : Str) (e : Bip.Err39) (h : Bip.parseMnemonic s = .error e) (x : ApiError) :
    (Api.fromSecretKey s).Reports x ↔ x = .wallet (.bip39 e) := by
  rw [C125_errors_exactly]
  constructor
  · intro hx
    cases hx with
    | mnemonic h' => rw [h] at h'; cases h'; rfl
    | path h' => rw [h] at h'; cases h'
    | root h' => rw [h] at h'; cases h'
  · rintro rfl; exact .mnemonic h

end

end Stacks

import Verif.Proofs.ReturnsTx

/-! # Property C128: what each call gives back -/

namespace Stacks
open Stacks.Spec Stacks.Tx

section
variable [Secp] [Hashes] [Bip] [Rpc.Http]

theorem outcome_panic_iff (c : Api) : c.outcome = .panic ↔ c.Panics := by
  cases c with
  | hashP2sh m ks =>
    exact (shown_panic_iff _ _ _).trans ((C32.hash_panic_iff m ks).1.trans (C32.hash_panic_iff m ks).1.symm)
  | hashP2wsh m ks =>
    exact (shown_panic_iff _ _ _).trans ((C32.hash_panic_iff m ks).2.trans (C32.hash_panic_iff m ks).2.symm)
  | hash160New b => exact (shown_panic_iff _ _ _).trans ((copy_panic_iff 20 b).trans (copy_panic_iff 20 b).symm)
  | signatureNew b => exact (shown_panic_iff _ _ _).trans ((copy_panic_iff 65 b).trans (copy_panic_iff 65 b).symm)
  | checksum h => exact (shown_panic_iff _ _ _).trans (iff_of_false (checksum_ne_panic h) (checksum_ne_panic h))
  | newSingle k fee nonce mode =>
    exact (shown_panic_iff _ _ _).trans ((single_new_panic_any k fee nonce mode).trans
      (single_new_panic_any k fee nonce mode).symm)
  | newMulti ks fee nonce m mode =>
    exact (shown_panic_iff _ _ _).trans ((multi_new_panic_any ks fee nonce m mode).trans
      (multi_new_panic_any ks fee nonce m mode).symm)
  | signatures c => exact (shown_panic_iff _ _ _).trans ((signatures_panic_any c).trans (signatures_panic_any c).symm)
  | transfer b =>
    refine (shown_panic_iff _ _ _).trans ?_
    show b.transaction = .panic ↔ (b.transaction : Outcome Unit Transaction) = .panic
    cases h : b.sponsored with
    | false => rw [transfer_build_eq b h, transfer_build_eq b h]; simp
    | true => exact iff_of_true (transfer_build_panics b h) (transfer_build_panics b h)
  | decodeAs k b =>
    refine (shown_panic_iff _ _ _).trans ?_
    show _ ↔ Clarity.decodeKind k b = .panic
    rw [Clarity.decodeKind_eq]
    exact (ok_panic_iff _ _).symm
  | decodeUnwritten w b => cases w <;> exact iff_of_true rfl rfl
  | _ => exact shown_panic_iff _ _ _

theorem outcome_err_iff (c : Api) (x : ApiError) : c.outcome = .err x ↔ c.Reports x := by
  cases c with
  | hashP2sh m ks => exact shown_id_err_iff _ _ _
  | hashP2wsh m ks => exact shown_id_err_iff _ _ _
  | hash160New b => exact shown_id_err_iff _ _ _
  | signatureNew b => exact shown_id_err_iff _ _ _
  | checksum h => exact shown_id_err_iff _ _ _
  | newSingle k fee nonce mode => exact shown_id_err_iff _ _ _
  | newMulti ks fee nonce m mode => exact shown_id_err_iff _ _ _
  | signatures c => exact shown_id_err_iff _ _ _
  | transfer b => exact shown_id_err_iff _ _ _
  | decodeAs k b =>
    refine (shown_err_iff _ _ _ _).trans ?_
    show _ ↔ (Clarity.decodeKind k b).Fails _ x
    rw [Clarity.decodeKind_eq]
    unfold Outcome.Fails
    simp only [ok_err_iff]
  | decodeUnwritten w b =>
    refine iff_of_false (fun h => by cases w <;> cases h) (fun h => ?_)
    cases w <;> obtain ⟨e, he, _⟩ := h <;> cases he
  | _ => exact shown_err_iff _ _ _ _

theorem outcome_ok_iff (c : Api) (y : ApiValue) : c.outcome = .ok y ↔ GivesBack c y := by
  cases c with
  | hexToBytes s =>
    refine (shown_ok_iff _ _ _ _).trans ⟨?_, fun h => ?_⟩
    · rintro ⟨b, h, rfl⟩; exact .hexToBytes ((Hex.hexToBytes_ok_iff s b).1 h)
    · cases h with
      | hexToBytes h => exact ⟨_, (Hex.hexToBytes_ok_iff s _).2 h, rfl⟩
  | c32Encode b =>
    refine (shown_ok_iff _ _ _ _).trans ⟨?_, fun h => ?_⟩
    · rintro ⟨s, h, rfl⟩; rw [C32.c32Text_eq] at h; cases h; exact .c32Encode
    · cases h with
      | c32Encode => exact ⟨_, C32.c32Text_eq b, rfl⟩
  | c32Decode s =>
    refine (shown_ok_iff _ _ _ _).trans ⟨?_, fun h => ?_⟩
    · rintro ⟨b, h, rfl⟩; exact .c32Decode (C32.decode_spells.1 h)
    · cases h with
      | c32Decode h => exact ⟨_, C32.decode_spells.2 h, rfl⟩
  | c32checkEncode b v =>
    refine (shown_ok_iff _ _ _ _).trans ⟨?_, fun h => ?_⟩
    · rintro ⟨s, h, rfl⟩
      obtain ⟨h1, rfl⟩ := (C32.checkEncode_ok_iff b v s).1 h
      exact .c32checkEncode h1
    · cases h with
      | c32checkEncode h => exact ⟨_, (C32.checkEncode_ok_iff b v _).2 ⟨h, rfl⟩, rfl⟩
  | c32checkDecode s =>
    refine (shown_ok_iff _ _ _ _).trans ⟨?_, fun h => ?_⟩
    · rintro ⟨⟨b, v⟩, h, rfl⟩
      obtain ⟨c, data, rfl, h1, h2⟩ := (C32.checkDecode_ok_iff s b v).1 h
      exact .c32checkDecode h1 h2
    · cases h with
      | c32checkDecode h1 h2 => exact ⟨(_, _), (C32.checkDecode_ok_iff _ _ _).2 ⟨_, _, rfl, h1, h2⟩, rfl⟩
  | c32Address b v =>
    refine (shown_ok_iff _ _ _ _).trans ⟨?_, fun h => ?_⟩
    · rintro ⟨s, h, rfl⟩
      obtain ⟨h1, rfl⟩ := C32.address_iff.1 h
      exact .c32Address h1
    · cases h with
      | c32Address h => exact ⟨_, C32.address_iff.2 ⟨h, rfl⟩, rfl⟩
  | c32AddressDecode s =>
    refine (shown_ok_iff _ _ _ _).trans ⟨?_, fun h => ?_⟩
    · rintro ⟨⟨b, v⟩, h, rfl⟩; exact .c32AddressDecode (C32.decode_iff_isAddress.1 h)
    · cases h with
      | c32AddressDecode h => exact ⟨(_, _), C32.decode_iff_isAddress.2 h, rfl⟩
  | addressFromStr s =>
    refine (shown_ok_iff _ _ _ _).trans ⟨?_, fun h => ?_⟩
    · rintro ⟨⟨b, v⟩, h, rfl⟩; exact .addressFromStr (C32.fromStr_iff.1 h)
    · cases h with
      | addressFromStr h => exact ⟨_, C32.fromStr_iff.2 h, rfl⟩
  | hashP2sh m ks =>
    refine (shown_ok_iff _ _ _ _).trans ⟨?_, fun h => ?_⟩
    · rintro ⟨h, hh, rfl⟩
      obtain ⟨h1, h2, h3⟩ := (C32.hash_ok_iff m ks h).1.1 hh
      exact .hashP2sh h1 h2 h3
    · cases h with
      | hashP2sh h1 h2 h3 => exact ⟨_, (C32.hash_ok_iff m ks _).1.2 ⟨h1, h2, h3⟩, rfl⟩
  | hashP2wsh m ks =>
    refine (shown_ok_iff _ _ _ _).trans ⟨?_, fun h => ?_⟩
    · rintro ⟨h, hh, rfl⟩
      obtain ⟨h1, h2, h3⟩ := (C32.hash_ok_iff m ks h).2.1 hh
      exact .hashP2wsh h1 h2 h3
    · cases h with
      | hashP2wsh h1 h2 h3 => exact ⟨_, (C32.hash_ok_iff m ks _).2.2 ⟨h1, h2, h3⟩, rfl⟩
  | b58Encode b =>
    refine (shown_ok_iff _ _ _ _).trans ⟨?_, fun h => ?_⟩
    · rintro ⟨s, h, rfl⟩; rw [B58.b58Text_eq] at h; cases h; exact .b58Encode
    · cases h with
      | b58Encode => exact ⟨_, B58.b58Text_eq b, rfl⟩
  | b58Decode s =>
    refine (shown_ok_iff _ _ _ _).trans ⟨?_, fun h => ?_⟩
    · rintro ⟨b, h, rfl⟩; exact .b58Decode (B58.decode_spells.1 h)
    · cases h with
      | b58Decode h => exact ⟨_, B58.decode_spells.2 h, rfl⟩
  | base58checkEncode b v =>
    refine (shown_ok_iff _ _ _ _).trans ⟨?_, fun h => ?_⟩
    · rintro ⟨s, h, rfl⟩; rw [B58.checkEncode_eq] at h; cases h; exact .base58checkEncode
    · cases h with
      | base58checkEncode => exact ⟨_, B58.checkEncode_eq b v, rfl⟩
  | base58checkDecode s =>
    refine (shown_ok_iff _ _ _ _).trans ⟨?_, fun h => ?_⟩
    · rintro ⟨⟨b, v⟩, h, rfl⟩; exact .base58checkDecode ((B58.checkDecode_ok_iff s b v).1 h)
    · cases h with
      | base58checkDecode h => exact ⟨(_, _), (B58.checkDecode_ok_iff s _ _).2 h, rfl⟩
  | hash160New b =>
    refine (shown_ok_iff _ _ _ _).trans ⟨?_, fun h => ?_⟩
    · rintro ⟨a, h, rfl⟩; exact .hash160New ((copy_ok_iff 20 b a).1 h)
    · cases h with
      | hash160New h => exact ⟨_, (copy_ok_iff 20 b _).2 h, rfl⟩
  | signatureNew b =>
    refine (shown_ok_iff _ _ _ _).trans ⟨?_, fun h => ?_⟩
    · rintro ⟨a, h, rfl⟩; exact .signatureNew ((copy_ok_iff 65 b a).1 h)
    · cases h with
      | signatureNew h => exact ⟨_, (copy_ok_iff 65 b _).2 h, rfl⟩
  | signatureFromSlice b =>
    refine (shown_ok_iff _ _ _ _).trans ⟨?_, fun h => ?_⟩
    · rintro ⟨a, h, rfl⟩; exact .signatureFromSlice ((fromSlice_ok_iff b a).1 h)
    · cases h with
      | signatureFromSlice h => exact ⟨_, (fromSlice_ok_iff b _).2 h, rfl⟩
  | signatureFromRecov r =>
    refine (shown_ok_iff _ _ _ _).trans ⟨?_, fun h => ?_⟩
    · rintro ⟨a, h, rfl⟩; exact .signatureFromRecov ((fromRecov_ok_iff r a).1 h)
    · cases h with
      | signatureFromRecov h => exact ⟨_, (fromRecov_ok_iff r _).2 h, rfl⟩
  | signatureIntoRecov s =>
    refine (shown_ok_iff _ _ _ _).trans ⟨?_, fun h => ?_⟩
    · rintro ⟨r, h, rfl⟩
      obtain ⟨id, rest, h1, h2⟩ := (intoRecov_iff s r).1 h
      exact .signatureIntoRecov h1 h2
    · cases h with
      | signatureIntoRecov h1 h2 => exact ⟨_, (intoRecov_iff s _).2 ⟨_, _, h1, h2⟩, rfl⟩
  | checksum d =>
    refine (shown_ok_iff _ _ _ _).trans ⟨?_, fun h => ?_⟩
    · rintro ⟨a, h, rfl⟩; exact .checksum ((checksum_ok_iff d a).1 h)
    · cases h with
      | checksum h => exact ⟨_, (checksum_ok_iff d _).2 h, rfl⟩
  | nextSignature d typ fee nonce k =>
    refine (shown_ok_iff _ _ _ _).trans ⟨?_, fun h => ?_⟩
    · rintro ⟨a, h, rfl⟩; rw [nextSignature_eq] at h; cases h; exact .nextSignature
    · cases h with
      | nextSignature => exact ⟨_, nextSignature_eq d typ fee nonce k, rfl⟩
  | nextVerify d typ fee nonce s =>
    refine (shown_ok_iff _ _ _ _).trans ⟨?_, fun h => ?_⟩
    · rintro ⟨⟨k, n⟩, h, rfl⟩
      obtain ⟨h1, rfl⟩ := (nextVerify_iff d typ fee nonce s k n).1 h
      exact .nextVerify h1
    · cases h with
      | nextVerify h => exact ⟨(_, _), (nextVerify_iff d typ fee nonce s _ _).2 ⟨h, rfl⟩, rfl⟩
  | encode v =>
    refine (shown_ok_iff _ _ _ _).trans ⟨?_, fun h => ?_⟩
    · rintro ⟨b, h, rfl⟩
      obtain ⟨h1, rfl⟩ := (Clarity.encode_ok_iff v b).1 h
      exact .encode h1
    · cases h with
      | encode h => exact ⟨_, (Clarity.encode_ok_iff v _).2 ⟨h, rfl⟩, rfl⟩
  | len v =>
    refine (shown_ok_iff _ _ _ _).trans ⟨?_, fun h => ?_⟩
    · rintro ⟨b, h, rfl⟩
      obtain ⟨h1, rfl⟩ := (Clarity.len_ok_iff v b).1 h
      exact .len h1
    · cases h with
      | len h => exact ⟨_, (Clarity.len_ok_iff v _).2 ⟨h, rfl⟩, rfl⟩
  | hex v =>
    refine (shown_ok_iff _ _ _ _).trans ⟨?_, fun h => ?_⟩
    · rintro ⟨b, h, rfl⟩
      obtain ⟨h1, rfl⟩ := (Clarity.hex_ok_iff v b).1 h
      exact .hex h1
    · cases h with
      | hex h => exact ⟨_, (Clarity.hex_ok_iff v _).2 ⟨h, rfl⟩, rfl⟩
  | hexPrefixed v =>
    refine (shown_ok_iff _ _ _ _).trans ⟨?_, fun h => ?_⟩
    · rintro ⟨b, h, rfl⟩
      obtain ⟨h1, rfl⟩ := (Clarity.hexPrefixed_ok_iff v b).1 h
      exact .hexPrefixed h1
    · cases h with
      | hexPrefixed h => exact ⟨_, (Clarity.hexPrefixed_ok_iff v _).2 ⟨h, rfl⟩, rfl⟩
  | cast k v =>
    refine (shown_ok_iff _ _ _ _).trans ⟨?_, fun h => ?_⟩
    · rintro ⟨x, h, rfl⟩
      obtain rfl := (Clarity.C32_cast_ok_iff k v x).1 h
      exact .cast
    · cases h with
      | cast => exact ⟨_, (Clarity.C32_cast_ok_iff k _ _).2 rfl, rfl⟩
  | decode b =>
    refine (shown_ok_iff _ _ _ _).trans ⟨?_, fun h => ?_⟩
    · rintro ⟨v, h, rfl⟩
      obtain ⟨r, h1, rfl⟩ := (Clarity.decode_prefix_iff b v).1 h
      exact .decode h1
    · cases h with
      | decode h => exact ⟨_, (Clarity.decode_prefix_iff _ _).2 ⟨_, h, rfl⟩, rfl⟩
  | decodeAs k b =>
    refine (shown_ok_iff _ _ _ _).trans ⟨?_, fun h => ?_⟩
    · rintro ⟨x, h, rfl⟩; exact (decodeAs_ok_iff k b x).1 h
    · cases h with
      | typed hi h => exact ⟨_, (decodeAs_ok_iff _ _ _).2 (.typed hi h), rfl⟩
      | anyType h => exact ⟨_, (decodeAs_ok_iff _ _ _).2 (.anyType h), rfl⟩
      | name h => exact ⟨_, (decodeAs_ok_iff _ _ _).2 (.name h), rfl⟩
      | arguments h h' => exact ⟨_, (decodeAs_ok_iff _ _ _).2 (.arguments h h'), rfl⟩
  | encodeAsset a =>
    refine (shown_ok_iff _ _ _ _).trans ⟨?_, fun h => ?_⟩
    · rintro ⟨b, h, rfl⟩
      obtain ⟨h1, rfl⟩ := (asset_ok_iff a b).1 h
      exact .encodeAsset h1
    · cases h with
      | encodeAsset h => exact ⟨_, (asset_ok_iff a _).2 ⟨h, rfl⟩, rfl⟩
  | encodeCondition c =>
    refine (shown_ok_iff _ _ _ _).trans ⟨?_, fun h => ?_⟩
    · rintro ⟨b, h, rfl⟩
      obtain ⟨h1, rfl⟩ := (condition_ok_iff c b).1 h
      exact .encodeCondition h1
    · cases h with
      | encodeCondition h => exact ⟨_, (condition_ok_iff c _).2 ⟨h, rfl⟩, rfl⟩
  | encodeConditions cs =>
    refine (shown_ok_iff _ _ _ _).trans ⟨?_, fun h => ?_⟩
    · rintro ⟨b, h, rfl⟩
      obtain ⟨h1, h2, rfl⟩ := (C42_conditions_layout cs b).1 h
      exact .encodeConditions h1 h2
    · cases h with
      | encodeConditions h1 h2 => exact ⟨_, (C42_conditions_layout cs _).2 ⟨h1, h2, rfl⟩, rfl⟩
  | encodePayload p =>
    refine (shown_ok_iff _ _ _ _).trans ⟨?_, fun h => ?_⟩
    · rintro ⟨b, h, rfl⟩
      obtain ⟨h1, rfl⟩ := (payload_encode_iff p b).1 h
      exact .encodePayload h1
    · cases h with
      | encodePayload h => exact ⟨_, (payload_encode_iff p _).2 ⟨h, rfl⟩, rfl⟩
  | encodeSpending c =>
    refine (shown_ok_iff _ _ _ _).trans ⟨?_, fun h => ?_⟩
    · rintro ⟨b, h, rfl⟩
      obtain ⟨h1, rfl⟩ := (spending_encode_iff c b).1 h
      exact .encodeSpending h1
    · cases h with
      | encodeSpending h => exact ⟨_, (spending_encode_iff c _).2 ⟨h, rfl⟩, rfl⟩
  | encodeAuth a =>
    refine (shown_ok_iff _ _ _ _).trans ⟨?_, fun h => ?_⟩
    · rintro ⟨b, h, rfl⟩
      obtain ⟨h1, rfl⟩ := (auth_encode_iff a b).1 h
      exact .encodeAuth h1
    · cases h with
      | encodeAuth h => exact ⟨_, (auth_encode_iff a _).2 ⟨h, rfl⟩, rfl⟩
  | encodeTransaction t =>
    refine (shown_ok_iff _ _ _ _).trans ⟨?_, fun h => ?_⟩
    · rintro ⟨b, h, rfl⟩
      obtain ⟨⟨h1, h2⟩, rfl⟩ := (transaction_encode_iff t b).1 h
      exact .encodeTransaction h1 h2
    · cases h with
      | encodeTransaction h1 h2 => exact ⟨_, (transaction_encode_iff t _).2 ⟨⟨h1, h2⟩, rfl⟩, rfl⟩
  | decodeTransfer b =>
    refine (shown_ok_iff _ _ _ _).trans ⟨?_, fun h => ?_⟩
    · rintro ⟨p, h, rfl⟩
      obtain ⟨r, h1, h2, rfl⟩ := (transfer_decode_ok_iff b p).1 h
      exact .decodeTransfer h1 h2
    · cases h with
      | decodeTransfer h1 h2 => exact ⟨_, (transfer_decode_ok_iff _ _).2 ⟨_, h1, h2, rfl⟩, rfl⟩
  | decodeCall b =>
    refine (shown_ok_iff _ _ _ _).trans ⟨?_, fun h => ?_⟩
    · rintro ⟨p, h, rfl⟩
      obtain ⟨r, h1, rfl⟩ := (call_decode_ok_iff b p).1 h
      exact .decodeCall h1
    · cases h with
      | decodeCall h1 => exact ⟨_, (call_decode_ok_iff _ _).2 ⟨_, h1, rfl⟩, rfl⟩
  | decodePayload b =>
    refine (shown_ok_iff _ _ _ _).trans ⟨?_, fun h => ?_⟩
    · rintro ⟨p, h, rfl⟩
      rcases (payload_decode_ok_iff b p).1 h with ⟨q, r, rfl, h1, h2, rfl⟩ | ⟨q, r, rfl, h1, rfl⟩
      · exact .decodePayloadTransfer h1 h2
      · exact .decodePayloadCall h1
    · cases h with
      | decodePayloadTransfer h1 h2 =>
        exact ⟨_, (payload_decode_ok_iff _ _).2 (.inl ⟨_, _, rfl, h1, h2, rfl⟩), rfl⟩
      | decodePayloadCall h1 => exact ⟨_, (payload_decode_ok_iff _ _).2 (.inr ⟨_, _, rfl, h1, rfl⟩), rfl⟩
  | decodeUnwritten w b =>
    exact ⟨fun h => (by cases w <;> cases h), nofun⟩
  | newSingle k fee nonce mode =>
    refine (shown_ok_iff _ _ _ _).trans ⟨?_, fun h => ?_⟩
    · rintro ⟨c, h, rfl⟩
      obtain ⟨s, h1, rfl⟩ := (single_new_ok_iff k fee nonce mode c).1 h
      exact .newSingle h1
    · cases h with
      | newSingle h => exact ⟨_, (single_new_ok_iff k fee nonce mode _).2 ⟨_, h, rfl⟩, rfl⟩
  | newMulti ks fee nonce m mode =>
    refine (shown_ok_iff _ _ _ _).trans ⟨?_, fun h => ?_⟩
    · rintro ⟨c, h, rfl⟩
      obtain ⟨s, h1, h2, h3, rfl⟩ := (multi_new_ok_iff ks fee nonce m mode c).1 h
      exact .newMulti h1 h2 h3
    · cases h with
      | newMulti h1 h2 h3 => exact ⟨_, (multi_new_ok_iff ks fee nonce m mode _).2 ⟨_, h1, h2, h3, rfl⟩, rfl⟩
  | signatures c =>
    refine (shown_ok_iff _ _ _ _).trans ⟨?_, fun h => ?_⟩
    · rintro ⟨n, h, rfl⟩
      obtain ⟨h1, h2⟩ := (signatures_ok_iff c n).1 h
      rw [h2]; exact .signatures h1
    · cases h with
      | signatures h =>
        have ht : (UInt16.ofNat (signatureCount c)).toNat = signatureCount c := by
          rw [UInt16.toNat_ofNat']; exact Nat.mod_eq_of_lt h
        exact ⟨_, (signatures_ok_iff c _).2 ⟨h, ht⟩, by rw [ht]⟩
  | modify c m =>
    refine (shown_ok_iff _ _ _ _).trans ⟨?_, fun h => ?_⟩
    · rintro ⟨u, h, rfl⟩
      cases c <;> cases m <;> cases h
      · exact .setSignature
      · exact .addPublicKey
      · exact .addSignature
    · cases h with
      | setSignature => exact ⟨_, rfl, rfl⟩
      | addSignature => exact ⟨_, rfl, rfl⟩
      | addPublicKey => exact ⟨_, rfl, rfl⟩
  | verifySpending c d typ =>
    refine (shown_ok_iff _ _ _ _).trans ⟨?_, fun h => ?_⟩
    · rintro ⟨n, h, rfl⟩; exact .verifySpending ((spending_verdict_iff c d typ _).1 h)
    · cases h with
      | verifySpending h => exact ⟨_, (spending_verdict_iff c d typ _).2 h, rfl⟩
  | verifyAuth a d =>
    refine (shown_ok_iff _ _ _ _).trans ⟨?_, fun h => ?_⟩
    · rintro ⟨n, h, rfl⟩; exact .verifyAuth ((auth_verdict_iff a d _).1 h)
    · cases h with
      | verifyAuth h => exact ⟨(), (auth_verdict_iff a d _).2 h, rfl⟩
  | verifyAuthOrigin a d =>
    refine (shown_ok_iff _ _ _ _).trans ⟨?_, fun h => ?_⟩
    · rintro ⟨n, h, rfl⟩
      refine .verifyAuthOrigin ((spending_verdict_iff _ _ _ _).1 ?_)
      rw [← origin_eq]; exact h
    · cases h with
      | verifyAuthOrigin hv =>
        refine ⟨_, ?_, rfl⟩
        have := (spending_verdict_iff _ _ _ _).2 hv
        rw [← origin_eq] at this; exact this
  | sponsor a =>
    refine (shown_ok_iff _ _ _ _).trans ⟨?_, fun h => ?_⟩
    · rintro ⟨u, h, rfl⟩; cases a <;> cases h; exact .sponsor
    · cases h with
      | sponsor => exact ⟨_, rfl, rfl⟩
  | setSponsor a c =>
    refine (shown_ok_iff _ _ _ _).trans ⟨?_, fun h => ?_⟩
    · rintro ⟨u, h, rfl⟩; cases a <;> cases h; exact .setSponsor
    · cases h with
      | setSponsor => exact ⟨_, rfl, rfl⟩
  | hash t =>
    refine (shown_ok_iff _ _ _ _).trans ⟨?_, fun h => ?_⟩
    · rintro ⟨x, h, rfl⟩
      obtain ⟨⟨h1, h2⟩, rfl⟩ := (Tx.hash_ok_iff t x).1 h
      exact .hash h1 h2
    · cases h with
      | hash h1 h2 => exact ⟨_, (Tx.hash_ok_iff t _).2 ⟨⟨h1, h2⟩, rfl⟩, rfl⟩
  | initialHash t =>
    refine (shown_ok_iff _ _ _ _).trans ⟨?_, fun h => ?_⟩
    · rintro ⟨x, h, rfl⟩
      obtain ⟨h1, rfl⟩ := (C44_hash_of_preimage t x).1 h
      exact .initialHash h1
    · cases h with
      | initialHash h => exact ⟨_, (C44_hash_of_preimage t _).2 ⟨h, rfl⟩, rfl⟩
  | verifyOrigin t =>
    refine (shown_ok_iff _ _ _ _).trans ⟨?_, fun h => ?_⟩
    · rintro ⟨n, h, rfl⟩
      obtain ⟨h1, h2⟩ := (verifyOrigin_ok_iff t n).1 h
      exact .verifyOrigin h1 h2
    · cases h with
      | verifyOrigin h1 h2 => exact ⟨_, (verifyOrigin_ok_iff t _).2 ⟨h1, h2⟩, rfl⟩
  | sign t k =>
    refine (shown_ok_iff _ _ _ _).trans ⟨?_, fun h => ?_⟩
    · rintro ⟨u, h, rfl⟩
      obtain ⟨h1, h2, h3, rfl⟩ := (sign_ok_iff t k u).1 h
      exact .sign h1 h2 h3
    · cases h with
      | sign h1 h2 h3 => exact ⟨_, (sign_ok_iff t k _).2 ⟨h1, h2, h3, rfl⟩, rfl⟩
  | newSigner t =>
    refine (shown_ok_iff _ _ _ _).trans ⟨?_, fun h => ?_⟩
    · rintro ⟨s, h, rfl⟩
      obtain ⟨h1, rfl⟩ := (newSigner_ok_iff t s).1 h
      exact .newSigner h1
    · cases h with
      | newSigner h => exact ⟨_, (newSigner_ok_iff t _).2 ⟨h, rfl⟩, rfl⟩
  | newSponsor t c =>
    refine (shown_ok_iff _ _ _ _).trans ⟨?_, fun h => ?_⟩
    · rintro ⟨s, h, rfl⟩
      obtain ⟨o, p, n, h1, h2, h3, rfl⟩ := (newSponsor_ok_iff t c s).1 h
      exact .newSponsor h1 h2 h3
    · cases h with
      | newSponsor h1 h2 h3 => exact ⟨_, (newSponsor_ok_iff t c _).2 ⟨_, _, _, h1, h2, h3, rfl⟩, rfl⟩
  | signOrigin s k =>
    refine (shown_ok_iff _ _ _ _).trans ⟨?_, fun h => ?_⟩
    · rintro ⟨u, h, rfl⟩
      obtain ⟨h1, h2, h3, rfl⟩ := (signOrigin_ok_iff s k u).1 h
      exact .signOrigin h1 h2 h3
    · cases h with
      | signOrigin h1 h2 h3 => exact ⟨_, (signOrigin_ok_iff s k _).2 ⟨h1, h2, h3, rfl⟩, rfl⟩
  | signSponsor s k =>
    refine (shown_ok_iff _ _ _ _).trans ⟨?_, fun h => ?_⟩
    · rintro ⟨u, h, rfl⟩
      obtain ⟨o, c, h1, h2, h3, rfl⟩ := (signSponsor_ok_iff s k u).1 h
      exact .signSponsor h1 h2 h3
    · cases h with
      | signSponsor h1 h2 h3 => exact ⟨_, (signSponsor_ok_iff s k _).2 ⟨_, _, h1, h2, h3, rfl⟩, rfl⟩
  | appendOrigin s k =>
    refine (shown_ok_iff _ _ _ _).trans ⟨?_, fun h => ?_⟩
    · rintro ⟨u, h, rfl⟩
      obtain ⟨c, h1, h2, h3, rfl⟩ := (appendOrigin_ok_iff s k u).1 h
      exact .appendOrigin h1 h2 h3
    · cases h with
      | appendOrigin h1 h2 h3 => exact ⟨_, (appendOrigin_ok_iff s k _).2 ⟨_, h1, h2, h3, rfl⟩, rfl⟩
  | transfer b =>
    refine (shown_ok_iff _ _ _ _).trans ⟨?_, fun h => ?_⟩
    · rintro ⟨t, h, rfl⟩
      cases hs : b.sponsored with
      | false => rw [transfer_build_eq b hs] at h; cases h; exact .transfer hs
      | true => rw [transfer_build_panics b hs] at h; cases h
    · cases h with
      | transfer h => exact ⟨_, transfer_build_eq b h, rfl⟩
  | contractCall b =>
    refine (shown_ok_iff _ _ _ _).trans ⟨?_, fun h => ?_⟩
    · rintro ⟨t, h, rfl⟩
      obtain ⟨h, v, h1, h2, rfl⟩ := (call_build_ok_iff b t).1 h
      exact .contractCall h1 h2
    · cases h with
      | contractCall h1 h2 => exact ⟨_, (call_build_ok_iff b _).2 ⟨_, _, h1, h2, rfl⟩, rfl⟩
  | fromSecretKey s =>
    refine (shown_ok_iff _ _ _ _).trans ⟨?_, fun h => ?_⟩
    · rintro ⟨w, h, rfl⟩
      obtain ⟨m, p, x, h1, h2, h3, rfl⟩ := (Wallet.fromSecretKey_ok_iff s w).1 h
      exact .fromSecretKey h1 h2 h3
    · cases h with
      | fromSecretKey h1 h2 h3 => exact ⟨_, (Wallet.fromSecretKey_ok_iff s _).2 ⟨_, _, _, h1, h2, h3, rfl⟩, rfl⟩
  | getAccount w i =>
    refine (shown_ok_iff _ _ _ _).trans ⟨?_, fun h => ?_⟩
    · rintro ⟨a, h, rfl⟩
      rcases (Wallet.getAccount_ok_iff w i a _).1 ⟨h, rfl⟩ with ⟨pre, post, h1, h2, h3⟩ | ⟨x, h1, h2, rfl, h3⟩
      · rw [h3]; exact .knownAccount h1 h2
      · rw [h3]; exact .newAccount h1 h2
    · cases h with
      | knownAccount h1 h2 =>
        obtain ⟨h, h'⟩ := (Wallet.getAccount_ok_iff w i _ _).2 (.inl ⟨_, _, h1, h2, rfl⟩)
        exact ⟨_, h, by rw [← h']⟩
      | newAccount h1 h2 =>
        obtain ⟨h, h'⟩ := (Wallet.getAccount_ok_iff w i _ _).2 (.inr ⟨_, h1, h2, rfl, rfl⟩)
        exact ⟨_, h, by rw [← h']⟩
  | walletPrivateKey w =>
    refine (shown_ok_iff _ _ _ _).trans ⟨?_, fun h => ?_⟩
    · rintro ⟨k, h, rfl⟩; exact .walletPrivateKey ((ofExcept_ok_iff _ _ _).1 h)
    · cases h with
      | walletPrivateKey h => exact ⟨_, (ofExcept_ok_iff _ _ _).2 h, rfl⟩
  | walletPublicKey w =>
    refine (shown_ok_iff _ _ _ _).trans ⟨?_, fun h => ?_⟩
    · rintro ⟨k, h, rfl⟩; exact .walletPublicKey ((ofExcept_ok_iff _ _ _).1 h)
    · cases h with
      | walletPublicKey h => exact ⟨_, (ofExcept_ok_iff _ _ _).2 h, rfl⟩
  | getAddress a v =>
    refine (shown_ok_iff _ _ _ _).trans ⟨?_, fun h => ?_⟩
    · rintro ⟨s, h, rfl⟩; rw [Wallet.getAddress_eq] at h; cases h; exact .getAddress
    · cases h with
      | getAddress => exact ⟨_, Wallet.getAddress_eq a v, rfl⟩
  | accountPrivateKey a =>
    refine (shown_ok_iff _ _ _ _).trans ⟨?_, fun h => ?_⟩
    · rintro ⟨k, h, rfl⟩; exact .accountPrivateKey ((ofExcept_ok_iff _ _ _).1 h)
    · cases h with
      | accountPrivateKey h => exact ⟨_, (ofExcept_ok_iff _ _ _).2 h, rfl⟩
  | accountPublicKey a =>
    refine (shown_ok_iff _ _ _ _).trans ⟨?_, fun h => ?_⟩
    · rintro ⟨k, h, rfl⟩; exact .accountPublicKey ((ofExcept_ok_iff _ _ _).1 h)
    · cases h with
      | accountPublicKey h => exact ⟨_, (ofExcept_ok_iff _ _ _).2 h, rfl⟩
  | rpcInfo r server =>
    refine (shown_ok_iff _ _ _ _).trans ⟨?_, fun h => ?_⟩
    · rintro ⟨x, h, rfl⟩; exact .info ((Rpc.question_ok_iff _ _ (fun _ _ => Rpc.nodeInfo_iff _ _) _ x).1 h)
    · cases h with
      | info h => exact ⟨_, (Rpc.question_ok_iff _ _ (fun _ _ => Rpc.nodeInfo_iff _ _) _ _).2 h, rfl⟩
  | rpcAddress r server a =>
    refine (shown_ok_iff _ _ _ _).trans ⟨?_, fun h => ?_⟩
    · rintro ⟨x, h, rfl⟩; exact .accountInfo ((Rpc.question_ok_iff _ _ (fun _ _ => Rpc.addressInfo_iff _ _) _ x).1 h)
    · cases h with
      | accountInfo h => exact ⟨_, (Rpc.question_ok_iff _ _ (fun _ _ => Rpc.addressInfo_iff _ _) _ _).2 h, rfl⟩
  | rpcEstimateFee r server t =>
    refine (shown_ok_iff _ _ _ _).trans ⟨?_, fun h => ?_⟩
    · rintro ⟨x, h, rfl⟩
      obtain ⟨h1, h2, h3⟩ := (Rpc.fee_ok_iff r server t x).1 h
      exact .fee h1 h2 h3
    · cases h with
      | fee h1 h2 h3 => exact ⟨_, (Rpc.fee_ok_iff r server t _).2 ⟨h1, h2, h3⟩, rfl⟩
  | rpcBroadcast r server t =>
    refine (shown_ok_iff _ _ _ _).trans ⟨?_, fun h => ?_⟩
    · rintro ⟨x, h, rfl⟩
      obtain ⟨h1, h2, h3⟩ := (Rpc.broadcast_ok_iff r server t x).1 h
      exact .broadcast h1 h2 h3
    · cases h with
      | broadcast h1 h2 h3 => exact ⟨_, (Rpc.broadcast_ok_iff r server t _).2 ⟨h1, h2, h3⟩, rfl⟩
  | rpcReadOnly r server a c f args sender =>
    refine (shown_ok_iff _ _ _ _).trans ⟨?_, fun h => ?_⟩
    · rintro ⟨x, h, rfl⟩
      obtain ⟨h1, h2⟩ := (Rpc.readOnly_ok_iff r server a c f args sender x).1 h
      exact .readOnly h1 h2
    · cases h with
      | readOnly h1 h2 => exact ⟨_, (Rpc.readOnly_ok_iff r server a c f args sender _).2 ⟨h1, h2⟩, rfl⟩

/-- **C128** What happens when a function is called, of all functions and for all arguments: the calls of `PanicsOn`
panic, those of `FailsWith` report the error given there, and those of `GivesBack` return the value given there. -/
theorem C128_outcome_exactly (c : Api) :
    (c.outcome = .panic ↔ PanicsOn c) ∧
    (∀ e, c.outcome = .err e ↔ FailsWith c e) ∧
    (∀ x, c.outcome = .ok x ↔ GivesBack c x) :=
  ⟨(outcome_panic_iff c).trans (C124_panics_exactly c), fun e => (outcome_err_iff c e).trans (C125_errors_exactly c e),
    outcome_ok_iff c⟩

/-- **C128** The three lists cover every call, once: of a panic, an error and a value, exactly one is listed. -/
theorem C128_one_outcome (c : Api) :
    (PanicsOn c ∧ (∀ e, ¬ FailsWith c e) ∧ ∀ x, ¬ GivesBack c x) ∨
    (∃ e, FailsWith c e ∧ (∀ e', FailsWith c e' → e' = e) ∧ ¬ PanicsOn c ∧ ∀ x, ¬ GivesBack c x) ∨
    (∃ x, GivesBack c x ∧ (∀ x', GivesBack c x' → x' = x) ∧ ¬ PanicsOn c ∧ ∀ e, ¬ FailsWith c e) := by
  obtain ⟨hp, he, hv⟩ := C128_outcome_exactly c
  cases h : c.outcome with
  | panic =>
    exact .inl ⟨hp.1 h, fun e hf => (by rw [(he e).2 hf] at h; cases h), fun x hx => by rw [(hv x).2 hx] at h; cases h⟩
  | err e =>
    exact .inr (.inl ⟨e, (he e).1 h, fun e' hf => (by rw [(he e').2 hf] at h; cases h; rfl),
      fun hf => (by rw [hp.2 hf] at h; cases h), fun x hx => by rw [(hv x).2 hx] at h; cases h⟩)
  | ok x =>
    exact .inr (.inr ⟨x, (hv x).1 h, fun x' hf => (by rw [(hv x').2 hf] at h; cases h; rfl),
      fun hf => (by rw [hp.2 hf] at h; cases h), fun e hf => by rw [(he e).2 hf] at h; cases h⟩)

end

section
attribute [local instance] Concrete.realHashes Concrete.toySecp Wallet.toyBip Rpc.toyHttp
local instance returnsLawful : Secp.Lawful := Concrete.toyLawful

-- an address of the tests of the crate, and its bytes
example : (Api.addressFromStr "SP2J6ZY48GV1EZ5V2V5RB9MP66SW86PYKKNRV9EJ7".toList).outcome =
    .ok (.address ⟨⟨[0xa4, 0x6f, 0xf8, 0x88, 0x86, 0xc2, 0xef, 0x97, 0x62, 0xd9, 0x70, 0xb4, 0xd2, 0xc6, 0x36, 0x78,
      0x83, 0x5b, 0xd3, 0x9d], rfl⟩, 22⟩) :=
  ((C128_outcome_exactly _).2.2 _).2 (.addressFromStr (C32.decode_iff_isAddress.1 (by
    show C32.c32AddressDecode _ = .ok ([0xa4, 0x6f, 0xf8, 0x88, 0x86, 0xc2, 0xef, 0x97, 0x62, 0xd9, 0x70, 0xb4, 0xd2,
      0xc6, 0x36, 0x78, 0x83, 0x5b, 0xd3, 0x9d], 22)
    decide +kernel)))
-- bytes that a value begins: the rest is ignored
example : (Api.decode [3, 9, 9]).outcome = .ok (.value (.tru)) :=
  ((C128_outcome_exactly _).2.2 _).2 (.decode (v := .tru) (r := [9, 9]) (by simp [Accepted]))
-- a decoder of text takes any type byte
example : (Api.decodeAs .strUtf8 [77, 0, 0, 0, 2, 104, 105]).outcome = .ok (.content .strUtf8 "hi".toList) :=
  ((C128_outcome_exactly _).2.2 _).2 (.anyType (s := "hi".toList) (r := []) (by decide +kernel))
-- three zero bytes have four digits
example : (Api.b58Encode [0, 0, 0]).outcome = .ok (.text "1111".toList) :=
  ((C128_outcome_exactly _).2.2 _).2 (by
    have h : b58Text [0, 0, 0] = "1111".toList := by decide +kernel
    rw [← h]; exact .b58Encode)
-- the list of values answers which calls return nothing at all
example (y : ApiValue) : ¬ GivesBack (.transfer { exTransferBuilder with sponsored := true }) y := by
  intro h
  cases h with
  | transfer h => cases h
-- one signature of a payment, and no further
example : ∃ u, (Api.sign exTx (exKey 1)).outcome = .ok (.transaction u) ∧
    (Api.sign u (exKey 1)).outcome = .err (.transaction .originOversign) := by
  refine ⟨_, ((C128_outcome_exactly _).2.2 _).2 (.sign (wf_encodable_tx _ exTx_wf).2 (by decide +kernel) (by decide +kernel)), ?_⟩
  refine ((C128_outcome_exactly _).2.1 _).2 (.signOversign (wf_encodable_tx _ exTx_wf).2 (by decide +kernel) (by decide +kernel))
-- an account is derived once and remembered
example (w : Wallet.StacksWallet) (i : UInt32) (a : Wallet.StacksAccount) (u : Wallet.StacksWallet)
    (h : GivesBack (.getAccount w i) (.account a u)) : GivesBack (.getAccount u i) (.account a u) := by
  cases h with
  | knownAccount h1 h2 => exact .knownAccount h1 h2
  | newAccount h1 h2 => exact .knownAccount (pre := []) rfl (by simp)

end

end Stacks

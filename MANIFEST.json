{
 "claims": [
  {
   "property": "C01",
   "status": "proved",
   "theorems": [
    "Stacks.Hex.C01_hex_roundtrip",
    "Stacks.Hex.C01_hex_text"
   ],
   "note": ""
  },
  {
   "property": "C02",
   "status": "proved",
   "theorems": [
    "Stacks.Hex.C02_hex_decode_exact"
   ],
   "note": ""
  },
  {
   "property": "C03",
   "status": "proved",
   "theorems": [
    "Stacks.Hex.C03_hex_reencode",
    "Stacks.Hex.C03_hex_same_bytes"
   ],
   "note": ""
  },
  {
   "property": "C04",
   "status": "proved",
   "theorems": [
    "Stacks.C32.C04_c32_encode_value"
   ],
   "note": ""
  },
  {
   "property": "C05",
   "status": "proved",
   "theorems": [
    "Stacks.C32.C05_c32_roundtrip",
    "Stacks.C32.C05_c32_encode_injective"
   ],
   "note": ""
  },
  {
   "property": "C06",
   "status": "proved",
   "theorems": [
    "Stacks.C32.C06_c32_decode_exact",
    "Stacks.C32.C06_c32_accepted_characters"
   ],
   "note": ""
  },
  {
   "property": "C07",
   "status": "proved",
   "theorems": [
    "Stacks.C32.C07_c32_decode_value",
    "Stacks.C32.C07_c32_reencode",
    "Stacks.C32.C07_c32_same_bytes"
   ],
   "note": ""
  },
  {
   "property": "C08",
   "status": "proved",
   "theorems": [
    "Stacks.C32.C08_c32check_roundtrip",
    "Stacks.C32.C08_c32check_encode_panics",
    "Stacks.C32.C08_c32check_shape"
   ],
   "note": ""
  },
  {
   "property": "C09",
   "status": "proved",
   "theorems": [
    "Stacks.C32.C09_c32check_decode_genuine",
    "Stacks.C32.C09_c32check_checksum_decides"
   ],
   "note": ""
  },
  {
   "property": "C10",
   "status": "proved",
   "theorems": [
    "Stacks.C32.C10_c32_address_versions",
    "Stacks.C32.C10_c32_address_shape",
    "Stacks.C32.C10_c32_address_roundtrip",
    "Stacks.C32.C10_c32_address_injective"
   ],
   "note": ""
  },
  {
   "property": "C11",
   "status": "proved",
   "theorems": [
    "Stacks.C32.C11_c32_address_decode_no_panic",
    "Stacks.C32.C11_c32_address_decode_badAddress",
    "Stacks.C32.C11_c32_address_decode_cases"
   ],
   "note": ""
  },
  {
   "property": "C12",
   "status": "proved",
   "theorems": [
    "Stacks.C32.C12_address_from_str",
    "Stacks.C32.C12_address_from_str_roundtrip"
   ],
   "note": ""
  },
  {
   "property": "C13",
   "status": "proved",
   "theorems": [
    "Stacks.B58.C13_b58_encode_value",
    "Stacks.B58.C13_b58_encode_zeros",
    "Stacks.B58.C13_b58_encode_total"
   ],
   "note": ""
  },
  {
   "property": "C14",
   "status": "proved",
   "theorems": [
    "Stacks.B58.C14_b58_roundtrip"
   ],
   "note": ""
  },
  {
   "property": "C15",
   "status": "proved",
   "theorems": [
    "Stacks.B58.C15_b58_decode_value",
    "Stacks.B58.C15_b58_decode_bad",
    "Stacks.B58.C15_b58_decode_injective"
   ],
   "note": ""
  },
  {
   "property": "C16",
   "status": "proved",
   "theorems": [
    "Stacks.B58.C16_base58check_roundtrip",
    "Stacks.B58.C16_base58check_roundtrip_iff"
   ],
   "note": ""
  },
  {
   "property": "C17",
   "status": "proved",
   "theorems": [
    "Stacks.B58.C17_base58check_decode_genuine",
    "Stacks.B58.C17_base58check_decode_exact",
    "Stacks.B58.C17_base58check_decode_panics"
   ],
   "note": ""
  },
  {
   "property": "C18",
   "status": "proved",
   "theorems": [
    "Stacks.C18_presign_binding",
    "Stacks.C18_postsign_binding"
   ],
   "note": ""
  },
  {
   "property": "C19",
   "status": "proved",
   "theorems": [
    "Stacks.C19_message_signature_from_slice",
    "Stacks.C19_message_signature_from_recov",
    "Stacks.C19_message_signature_roundtrip",
    "Stacks.C19_message_signature_bad_id"
   ],
   "note": ""
  },
  {
   "property": "C20",
   "status": "proved",
   "theorems": [
    "Stacks.C32.C20_hash_p2sh",
    "Stacks.C32.C20_hash_p2wsh",
    "Stacks.C32.C20_hash_single_key",
    "Stacks.C32.C20_hash_multisig_panics",
    "Stacks.C32.C20_script_injective"
   ],
   "note": ""
  },
  {
   "property": "C21",
   "status": "proved",
   "theorems": [
    "Stacks.Clarity.C21_clarity_roundtrip",
    "Stacks.Clarity.C21_encodable_but_not_roundtrip"
   ],
   "note": ""
  },
  {
   "property": "C22",
   "status": "proved",
   "theorems": [
    "Stacks.Clarity.C22_encode_succeeds_iff",
    "Stacks.Clarity.C22_encode_error_or_ok",
    "Stacks.Clarity.C22_encode_format",
    "Stacks.Clarity.C22_wellFormed_encodable"
   ],
   "note": ""
  },
  {
   "property": "C23",
   "status": "proved",
   "theorems": [
    "Stacks.Clarity.C23_encode_prefix_free"
   ],
   "note": ""
  },
  {
   "property": "C24",
   "status": "proved",
   "theorems": [
    "Stacks.Clarity.C24_decode_consumes_encoding",
    "Stacks.Clarity.C24_decode_exact",
    "Stacks.Clarity.C24_decode_injective",
    "Stacks.Clarity.C24_decoded_value_may_not_encode"
   ],
   "note": ""
  },
  {
   "property": "C25",
   "status": "proved",
   "theorems": [
    "Stacks.Clarity.C25_decode_ignores_trailing"
   ],
   "note": ""
  },
  {
   "property": "C26",
   "status": "proved",
   "theorems": [
    "Stacks.Clarity.C26_truncated_panics"
   ],
   "note": ""
  },
  {
   "property": "C27",
   "status": "proved",
   "theorems": [
    "Stacks.Clarity.C27_unknown_identifier",
    "Stacks.Clarity.C27_typed_decoders_check_identifier",
    "Stacks.Clarity.C27_strUtf8_decode_ignores_identifier",
    "Stacks.Clarity.C27_typed_decoders_agree"
   ],
   "note": ""
  },
  {
   "property": "C28",
   "status": "proved",
   "theorems": [
    "Stacks.Clarity.C28_int_format",
    "Stacks.Clarity.C28_uint_format",
    "Stacks.Clarity.C28_int_decode",
    "Stacks.Clarity.C28_ranges"
   ],
   "note": ""
  },
  {
   "property": "C29",
   "status": "proved",
   "theorems": [
    "Stacks.Clarity.C29_wire_length",
    "Stacks.Clarity.C29_wire_length_nonstandard"
   ],
   "note": ""
  },
  {
   "property": "C30",
   "status": "proved",
   "theorems": [
    "Stacks.Clarity.C30_decode_terminates"
   ],
   "note": ""
  },
  {
   "property": "C31",
   "status": "proved",
   "theorems": [
    "Stacks.Clarity.C31_eq_equivalence",
    "Stacks.Clarity.C31_eq_on_scalars",
    "Stacks.Clarity.C31_eq_on_plain_values",
    "Stacks.Clarity.C31_addresses_plain",
    "Stacks.Clarity.C31_distinct_values_can_compare_equal"
   ],
   "note": ""
  },
  {
   "property": "C32",
   "status": "proved",
   "theorems": [
    "Stacks.Clarity.C32_cast_cases",
    "Stacks.Clarity.C32_cast_ok_iff",
    "Stacks.Clarity.C32_cast_inner",
    "Stacks.Clarity.C32_cast_injective"
   ],
   "note": ""
  },
  {
   "property": "C33",
   "status": "proved",
   "theorems": [
    "Stacks.Clarity.C33_get",
    "Stacks.Clarity.C33_get_mut",
    "Stacks.Clarity.C33_insert",
    "Stacks.Clarity.C33_remove",
    "Stacks.Clarity.C33_other_keys",
    "Stacks.Clarity.C33_keys_values",
    "Stacks.Clarity.C33_finite_map",
    "Stacks.Clarity.C33_insert_shadowed"
   ],
   "note": ""
  },
  {
   "property": "C34",
   "status": "proved",
   "theorems": [
    "Stacks.Clarity.C34_lps_encode",
    "Stacks.Clarity.C34_lps_decode",
    "Stacks.Clarity.C34_lps_roundtrip"
   ],
   "note": ""
  },
  {
   "property": "C35",
   "status": "proved",
   "theorems": [
    "Stacks.Clarity.C35_fn_arguments_roundtrip",
    "Stacks.Clarity.C35_fn_arguments_exact"
   ],
   "note": ""
  },
  {
   "property": "C36",
   "status": "proved",
   "theorems": [
    "Stacks.Clarity.C36_hex_form",
    "Stacks.Clarity.C36_hex_roundtrip"
   ],
   "note": ""
  },
  {
   "property": "C37",
   "status": "proved",
   "theorems": [
    "Stacks.Tx.C37_long_memo",
    "Stacks.Tx.C37_transfer_layout"
   ],
   "note": ""
  },
  {
   "property": "C38",
   "status": "proved",
   "theorems": [
    "Stacks.Tx.C38_transfer_roundtrip",
    "Stacks.Tx.C38_transfer_decode_exact"
   ],
   "note": ""
  },
  {
   "property": "C39",
   "status": "proved",
   "theorems": [
    "Stacks.Tx.C39_call_layout",
    "Stacks.Tx.C39_call_roundtrip",
    "Stacks.Tx.C39_call_decode_exact",
    "Stacks.Tx.C39_long_name_refused"
   ],
   "note": ""
  },
  {
   "property": "C40",
   "status": "proved",
   "theorems": [
    "Stacks.Tx.C40_dispatch",
    "Stacks.Tx.C40_wrong_type",
    "Stacks.Tx.C40_payload_roundtrip",
    "Stacks.Tx.C40_payload_prefix_free",
    "Stacks.Tx.C40_padding_only",
    "Stacks.Tx.C40_memo_padding_is_lost"
   ],
   "note": ""
  },
  {
   "property": "C41",
   "status": "proved",
   "theorems": [
    "Stacks.Tx.C41_condition_layout",
    "Stacks.Tx.C41_bad_downcast_iff",
    "Stacks.Tx.C41_no_panic"
   ],
   "note": ""
  },
  {
   "property": "C42",
   "status": "proved",
   "theorems": [
    "Stacks.Tx.C42_conditions_layout",
    "Stacks.Tx.C42_reader_recovers",
    "Stacks.Tx.C42_conditions_prefix_free"
   ],
   "note": ""
  },
  {
   "property": "C43",
   "status": "proved",
   "theorems": [
    "Stacks.Tx.C43_value_reader",
    "Stacks.Tx.C43_reader_and_decoder",
    "Stacks.Tx.C43_transaction_layout",
    "Stacks.Tx.C43_reader_recovers",
    "Stacks.Tx.C43_prefix_free",
    "Stacks.Tx.C43_injective",
    "Stacks.Tx.C43_no_panic"
   ],
   "note": ""
  },
  {
   "property": "C44",
   "status": "proved",
   "theorems": [
    "Stacks.Tx.C44_hash_invariant",
    "Stacks.Tx.C44_hash_of_preimage",
    "Stacks.Tx.C44_preimage_determines",
    "Stacks.Tx.C44_hash_determines"
   ],
   "note": ""
  },
  {
   "property": "C45",
   "status": "proved",
   "theorems": [
    "Stacks.Tx.C45_set_fee",
    "Stacks.Tx.C45_set_nonce",
    "Stacks.Tx.C45_last_write_wins",
    "Stacks.Tx.C45_commute",
    "Stacks.Tx.C45_set_fee_bytes",
    "Stacks.Tx.C45_set_nonce_bytes"
   ],
   "note": ""
  },
  {
   "property": "C46",
   "status": "proved",
   "theorems": [
    "Stacks.Tx.C46_sign_length",
    "Stacks.Tx.C46_setters_length",
    "Stacks.Tx.C46_multisig_growth"
   ],
   "note": ""
  },
  {
   "property": "C47",
   "status": "proved",
   "theorems": [
    "Stacks.Tx.C47_sign_then_verify",
    "Stacks.Tx.C47_same_hash160"
   ],
   "note": ""
  },
  {
   "property": "C48",
   "status": "proved",
   "theorems": [
    "Stacks.Tx.C48_only_signature",
    "Stacks.Tx.C48_sign_bytes",
    "Stacks.Tx.C48_no_second_signature",
    "Stacks.Tx.C48_sign_twice",
    "Stacks.Tx.C48_sign_iff",
    "Stacks.Tx.C48_sign_twice_secp256k1"
   ],
   "note": ""
  },
  {
   "property": "C49",
   "status": "proved",
   "theorems": [
    "Stacks.Tx.C49_single_binding",
    "Stacks.Tx.C49_multi_binding"
   ],
   "note": ""
  },
  {
   "property": "C50",
   "status": "proved",
   "theorems": [
    "Stacks.Tx.C50_multisig_flow",
    "Stacks.Tx.C50_too_many_signers"
   ],
   "note": ""
  },
  {
   "property": "C51",
   "status": "proved",
   "theorems": [
    "Stacks.Tx.C51_too_few",
    "Stacks.Tx.C51_bad_signature_count",
    "Stacks.Tx.C51_verified_enough"
   ],
   "note": ""
  },
  {
   "property": "C52",
   "status": "proved",
   "theorems": [
    "Stacks.Tx.C52_never_oversigns",
    "Stacks.Tx.C52_from_new",
    "Stacks.Tx.C52_from_new_sponsor",
    "Stacks.Tx.C52_origin_frozen",
    "Stacks.Tx.C52_post_sponsor_errors",
    "Stacks.Tx.C52_full_refuses"
   ],
   "note": ""
  },
  {
   "property": "C53",
   "status": "proved",
   "theorems": [
    "Stacks.Tx.C53_origin_independent_of_sponsor",
    "Stacks.Tx.C53_sponsored_flow",
    "Stacks.Tx.C53_end_to_end",
    "Stacks.Tx.C53_multisig_sponsor",
    "Stacks.Tx.C53_wrong_sponsor_key",
    "Stacks.Tx.C53_new_sponsor_refuses"
   ],
   "note": ""
  },
  {
   "property": "C54",
   "status": "proved",
   "theorems": [
    "Stacks.Tx.C54_standard_always_ok",
    "Stacks.Tx.C54_accepts_wrong_signature",
    "Stacks.Tx.C54_sponsored_iff"
   ],
   "note": ""
  },
  {
   "property": "C55",
   "status": "proved",
   "theorems": [
    "Stacks.Tx.C55_new_panics_iff",
    "Stacks.Tx.C55_verify_panics",
    "Stacks.Tx.C55_flow_panics",
    "Stacks.Tx.C55_verify_no_panic"
   ],
   "note": ""
  },
  {
   "property": "C56",
   "status": "proved",
   "theorems": [
    "Stacks.Tx.C56_token_transfer",
    "Stacks.Tx.C56_sponsored_panics",
    "Stacks.Tx.C56_defaults",
    "Stacks.Tx.C56_sign_verifies"
   ],
   "note": ""
  },
  {
   "property": "C57",
   "status": "proved",
   "theorems": [
    "Stacks.Tx.C57_contract_call",
    "Stacks.Tx.C57_ok_iff",
    "Stacks.Tx.C57_defaults",
    "Stacks.Tx.C57_sign_verifies"
   ],
   "note": ""
  },
  {
   "property": "C58",
   "status": "proved",
   "theorems": [
    "Stacks.Tx.C58_network_pairs",
    "Stacks.Tx.C58_base_urls",
    "Stacks.Tx.C58_transfer_networks_apart",
    "Stacks.Tx.C58_call_networks_apart",
    "Stacks.Tx.C58_no_replay"
   ],
   "note": ""
  },
  {
   "property": "C59",
   "status": "proved",
   "theorems": [
    "Stacks.Wallet.C59_get_account",
    "Stacks.Wallet.C59_transparent",
    "Stacks.Wallet.C59_from_secret_key",
    "Stacks.Wallet.C59_root_key"
   ],
   "note": ""
  },
  {
   "property": "C60",
   "status": "proved",
   "theorems": [
    "Stacks.Wallet.C60_get_address",
    "Stacks.Wallet.C60_addresses_differ"
   ],
   "note": ""
  },
  {
   "property": "C61",
   "status": "proved",
   "theorems": [
    "Stacks.Wallet.C61_account_transfer",
    "Stacks.Wallet.C61_private_key_exists",
    "Stacks.Wallet.C61_wallet_key_exists"
   ],
   "note": ""
  },
  {
   "property": "C62",
   "status": "proved",
   "theorems": [
    "Stacks.Rpc.C62_broadcast",
    "Stacks.Rpc.C62_broadcast_arrives",
    "Stacks.Rpc.C62_estimate_fee",
    "Stacks.Rpc.C62_sends_once",
    "Stacks.Rpc.C62_estimate_fee_error"
   ],
   "note": ""
  },
  {
   "property": "C63",
   "status": "proved",
   "theorems": [
    "Stacks.Rpc.C63_broadcast",
    "Stacks.Rpc.C63_estimate_fee",
    "Stacks.Rpc.C63_display",
    "Stacks.Rpc.C63_read_only",
    "Stacks.Rpc.C63_read_only_unreadable",
    "Stacks.Rpc.C63_broadcast_unreadable",
    "Stacks.Rpc.C63_estimate_fee_unreadable"
   ],
   "note": ""
  },
  {
   "property": "C64",
   "status": "proved",
   "theorems": [
    "Stacks.Rpc.C64_read_only_request",
    "Stacks.Rpc.C64_arguments_arrive",
    "Stacks.Rpc.C64_url_determines",
    "Stacks.Rpc.C64_first_bad_argument"
   ],
   "note": ""
  },
  {
   "property": "C65",
   "status": "proved",
   "theorems": [
    "Stacks.Derive.C65_success",
    "Stacks.Derive.C65_first_error",
    "Stacks.Derive.C65_no_panic",
    "Stacks.Derive.C65_other_entries_ignored",
    "Stacks.Derive.C65_nested_no_panic"
   ],
   "note": ""
  },
  {
   "property": "C66",
   "status": "proved",
   "theorems": [
    "Stacks.Derive.C66_accepted_structs",
    "Stacks.Derive.C66_rejected_structs",
    "Stacks.Derive.C66_types_unambiguous",
    "Stacks.Derive.C66_field",
    "Stacks.Derive.C66_response_only_for_integers"
   ],
   "note": ""
  },
  {
   "property": "C67",
   "status": "proved",
   "theorems": [
    "Stacks.Derive.C67_option_i128",
    "Stacks.Derive.C67_option_u128",
    "Stacks.Derive.C67_option_string"
   ],
   "note": ""
  },
  {
   "property": "C68",
   "status": "proved",
   "theorems": [
    "Stacks.Rpc.C68_info",
    "Stacks.Rpc.C68_address",
    "Stacks.Rpc.C68_info_unreadable",
    "Stacks.Rpc.C68_address_unreadable"
   ],
   "note": ""
  },
  {
   "property": "C69",
   "status": "proved",
   "theorems": [
    "Stacks.Clarity.C69_display_is_the_literal",
    "Stacks.Clarity.C69_literal_unambiguous"
   ],
   "note": ""
  },
  {
   "property": "C70",
   "status": "proved",
   "theorems": [
    "Stacks.Clarity.C70_encode_error_exact",
    "Stacks.Clarity.C70_tuple_order_kept",
    "Stacks.Clarity.C70_tuple_not_sorted"
   ],
   "note": ""
  },
  {
   "property": "C71",
   "status": "proved",
   "theorems": [
    "Stacks.Clarity.C71_decode_error_exact",
    "Stacks.Clarity.C71_result_stable",
    "Stacks.Clarity.C71_panic_only_when_truncated",
    "Stacks.Clarity.C71_possible_errors"
   ],
   "note": ""
  },
  {
   "property": "C72",
   "status": "proved",
   "theorems": [
    "Stacks.Tx.C72_condition_error_exact",
    "Stacks.Tx.C72_conditions_error_exact",
    "Stacks.Tx.C72_payload_error_exact",
    "Stacks.Tx.C72_transaction_error_exact",
    "Stacks.Tx.C72_signing_hash_error_exact",
    "Stacks.Tx.C72_never_panics"
   ],
   "note": ""
  },
  {
   "property": "C73",
   "status": "proved",
   "theorems": [
    "Stacks.Tx.C73_payload_decode_error_exact",
    "Stacks.Tx.C73_arguments_error_exact",
    "Stacks.Tx.C73_result_stable",
    "Stacks.Tx.C73_panic_only_when_truncated"
   ],
   "note": ""
  },
  {
   "property": "C74",
   "status": "proved",
   "theorems": [
    "Stacks.Tx.C74_single_exact",
    "Stacks.Tx.C74_multi_exact",
    "Stacks.Tx.C74_origin_exact",
    "Stacks.Tx.C74_auth_exact"
   ],
   "note": ""
  },
  {
   "property": "C75",
   "status": "proved",
   "theorems": [
    "Stacks.Tx.C75_sign_origin_exact",
    "Stacks.Tx.C75_sign_sponsor_exact",
    "Stacks.Tx.C75_append_origin_exact",
    "Stacks.Tx.C75_sign_exact",
    "Stacks.Tx.C75_new_signer_exact",
    "Stacks.Tx.C75_new_sponsor_exact",
    "Stacks.Tx.C75_single_new_exact",
    "Stacks.Tx.C75_multi_new_exact"
   ],
   "note": ""
  },
  {
   "property": "C76",
   "status": "proved",
   "theorems": [
    "Stacks.Tx.C76_curve",
    "Stacks.Tx.C76_signatures_verify",
    "Stacks.Tx.C76_sign_then_verify",
    "Stacks.Tx.C76_transfer_verifies",
    "Stacks.Tx.C76_call_verifies",
    "Stacks.Tx.C76_multisig_flow",
    "Stacks.Tx.C76_sponsored",
    "Stacks.Tx.C76_encoding_injective",
    "Stacks.Tx.C76_account_transfer"
   ],
   "note": ""
  },
  {
   "property": "C77",
   "status": "proved",
   "theorems": [
    "Stacks.Tx.C77_equal_iff_same",
    "Stacks.Tx.C77_equivalence",
    "Stacks.Tx.C77_equal_but_different"
   ],
   "note": ""
  },
  {
   "property": "C78",
   "status": "proved",
   "theorems": [
    "Stacks.Tx.C78_call_equal_iff_same",
    "Stacks.Tx.C78_equal_but_different",
    "Stacks.Tx.C78_equal_calls_build_the_same",
    "Stacks.Tx.C78_equal_transfers_build_the_same"
   ],
   "note": ""
  },
  {
   "property": "C79",
   "status": "proved",
   "theorems": [
    "Stacks.Tx.C79_script_iff",
    "Stacks.Tx.C79_hashes",
    "Stacks.Tx.C79_other_numbers"
   ],
   "note": ""
  },
  {
   "property": "C80",
   "status": "proved",
   "theorems": [
    "Stacks.Tx.C80_accepts_iff",
    "Stacks.Tx.C80_single_accepted",
    "Stacks.Tx.C80_transfer_accepted",
    "Stacks.Tx.C80_call_accepted",
    "Stacks.Tx.C80_multisig_accepted",
    "Stacks.Tx.C80_sponsored_accepted",
    "Stacks.Tx.C80_extra_signatures_refused",
    "Stacks.Tx.C80_misfit_refused",
    "Stacks.Tx.C80_large_script_refused"
   ],
   "note": ""
  },
  {
   "property": "C81",
   "status": "proved",
   "theorems": [
    "Stacks.Tx.C81_modify",
    "Stacks.Tx.C81_set_sponsor",
    "Stacks.Tx.C81_signer",
    "Stacks.Tx.C81_refused_unchanged",
    "Stacks.Tx.C81_history"
   ],
   "note": ""
  },
  {
   "property": "C82",
   "status": "proved",
   "theorems": [
    "Stacks.Tx.C82_group_order",
    "Stacks.Tx.C82_key_pairs",
    "Stacks.Tx.C82_recover_iff",
    "Stacks.Tx.C82_bytes_iff",
    "Stacks.Tx.C82_single_iff",
    "Stacks.Tx.C82_origin_verified",
    "Stacks.Tx.C82_multisig_verified"
   ],
   "note": ""
  },
  {
   "property": "C83",
   "status": "proved",
   "theorems": [
    "Stacks.Tx.C83_twin",
    "Stacks.Tx.C83_low",
    "Stacks.Tx.C83_transaction",
    "Stacks.Tx.C83_multisig",
    "Stacks.Tx.C83_sponsored"
   ],
   "note": ""
  },
  {
   "property": "C84",
   "status": "proved",
   "theorems": [
    "Stacks.Clarity.C84_recursion_depth",
    "Stacks.Clarity.C84_depth_le",
    "Stacks.Clarity.C84_depth_unbounded"
   ],
   "note": ""
  },
  {
   "property": "C85",
   "status": "proved",
   "theorems": [
    "Stacks.Clarity.C85_same_results",
    "Stacks.Clarity.C85_encode_work",
    "Stacks.Clarity.C85_decode_work",
    "Stacks.Clarity.C85_cubic"
   ],
   "note": ""
  },
  {
   "property": "C86",
   "status": "proved",
   "theorems": [
    "Stacks.Clarity.C86_accepted",
    "Stacks.Clarity.C86_unchecked"
   ],
   "note": ""
  },
  {
   "property": "C87",
   "status": "proved",
   "theorems": [
    "Stacks.Rpc.C87_transfer",
    "Stacks.Rpc.C87_call",
    "Stacks.Rpc.C87_real_transfer",
    "Stacks.Rpc.C87_real_call"
   ],
   "note": ""
  },
  {
   "property": "C88",
   "status": "proved",
   "theorems": [
    "Stacks.C88_hex",
    "Stacks.C88_c32",
    "Stacks.C88_base58",
    "Stacks.C88_clarity",
    "Stacks.C88_transaction",
    "Stacks.C88_derive",
    "Stacks.C88_base58_reached",
    "Stacks.C88_transaction_reached",
    "Stacks.C88_alphabets"
   ],
   "note": ""
  },
  {
   "property": "C89",
   "status": "proved",
   "theorems": [
    "Stacks.Hex.C89_hex_to_bytes",
    "Stacks.Hex.C89_new",
    "Stacks.Hex.C89_items",
    "Stacks.Hex.C89_first_error",
    "Stacks.Hex.C89_ends",
    "Stacks.Hex.C89_after_error"
   ],
   "note": ""
  },
  {
   "property": "C90",
   "status": "proved",
   "theorems": [
    "Stacks.C90_order",
    "Stacks.C90_order_hex",
    "Stacks.C90_order_eq",
    "Stacks.C90_text",
    "Stacks.C90_text_injective",
    "Stacks.C90_new",
    "Stacks.C90_new_from_slice",
    "Stacks.C90_checksum",
    "Stacks.C90_default"
   ],
   "note": ""
  },
  {
   "property": "C91",
   "status": "proved",
   "theorems": [
    "Stacks.Rpc.C91_node_info",
    "Stacks.Rpc.C91_address_info",
    "Stacks.Rpc.C91_broadcast",
    "Stacks.Rpc.C91_read_only",
    "Stacks.Rpc.C91_estimate_fee"
   ],
   "note": ""
  },
  {
   "property": "C92",
   "status": "proved",
   "theorems": [
    "Stacks.Macro.C92_every_value",
    "Stacks.Macro.C92_by_path",
    "Stacks.Macro.C92_unique",
    "Stacks.Macro.C92_integers",
    "Stacks.Macro.C92_containers",
    "Stacks.Macro.C92_wrappers",
    "Stacks.Macro.C92_named_type",
    "Stacks.Macro.C92_empty_buffer"
   ],
   "note": ""
  },
  {
   "property": "C93",
   "status": "proved",
   "theorems": [
    "Stacks.Macro.C93_one",
    "Stacks.Macro.C93_all",
    "Stacks.Macro.C93_every_list"
   ],
   "note": ""
  },
  {
   "property": "C94",
   "status": "proved",
   "theorems": [
    "Stacks.Rpc.C94_one_reading",
    "Stacks.Rpc.C94_unambiguous",
    "Stacks.Rpc.C94_read_only",
    "Stacks.Rpc.C94_estimate_fee",
    "Stacks.Rpc.C94_same_text"
   ],
   "note": ""
  },
  {
   "property": "C95",
   "status": "proved",
   "theorems": [
    "Stacks.C95_same_results",
    "Stacks.C95_c32_linear",
    "Stacks.C95_b58_quadratic",
    "Stacks.C95_b58_no_less",
    "Stacks.C95_b58_decode_exactly"
   ],
   "note": ""
  },
  {
   "property": "C96",
   "status": "proved",
   "theorems": [
    "Stacks.C96_text_length",
    "Stacks.C96_data_length",
    "Stacks.C96_address_length",
    "Stacks.C96_b58_address_length"
   ],
   "note": ""
  },
  {
   "property": "C97",
   "status": "proved",
   "theorems": [
    "Stacks.Wallet.C97_equal_iff",
    "Stacks.Wallet.C97_asked",
    "Stacks.Wallet.C97_get_changes",
    "Stacks.Wallet.C97_equal_answers"
   ],
   "note": ""
  },
  {
   "property": "C98",
   "status": "proved",
   "theorems": [
    "Stacks.C98_text_tells",
    "Stacks.C98_wrapping"
   ],
   "note": ""
  },
  {
   "property": "C99",
   "status": "proved",
   "theorems": [
    "Stacks.Tx.C99_one_digest",
    "Stacks.Tx.C99_congruent",
    "Stacks.Tx.C99_binding",
    "Stacks.Tx.C99_origin",
    "Stacks.Tx.C99_setters",
    "Stacks.Tx.C99_roles"
   ],
   "note": ""
  },
  {
   "property": "C100",
   "status": "proved",
   "theorems": [
    "Stacks.Tx.C100_origin_hash",
    "Stacks.Tx.C100_sponsor"
   ],
   "note": ""
  },
  {
   "property": "C101",
   "status": "proved",
   "theorems": [
    "Stacks.Tx.C101_fields_in_order",
    "Stacks.Tx.C101_field_at",
    "Stacks.Tx.C101_exact",
    "Stacks.Tx.C101_order"
   ],
   "note": ""
  },
  {
   "property": "C102",
   "status": "proved",
   "theorems": [
    "Stacks.C102_words",
    "Stacks.C102_accepted",
    "Stacks.C102_refused",
    "Stacks.C102_wallet",
    "Stacks.C102_spacing",
    "Stacks.C102_keys"
   ],
   "note": ""
  },
  {
   "property": "C103",
   "status": "proved",
   "theorems": [
    "Stacks.C103_phrase_of_entropy",
    "Stacks.C103_entropy_of_phrase",
    "Stacks.C103_last_word",
    "Stacks.C103_english"
   ],
   "note": ""
  },
  {
   "property": "C104",
   "status": "proved",
   "theorems": [
    "Stacks.C104_wallet",
    "Stacks.C104_account",
    "Stacks.C104_unique",
    "Stacks.C104_public"
   ],
   "note": ""
  },
  {
   "property": "C105",
   "status": "proved",
   "theorems": [
    "Stacks.Rpc.C105_reader",
    "Stacks.Rpc.C105_reader_bytes",
    "Stacks.Rpc.C105_text_roundtrip",
    "Stacks.Rpc.C105_saved_node_info",
    "Stacks.Rpc.C105_saved_address_info",
    "Stacks.Rpc.C105_saved_broadcast",
    "Stacks.Rpc.C105_saved_read_only",
    "Stacks.Rpc.C105_saved_estimate_fee",
    "Stacks.Rpc.C105_info",
    "Stacks.Rpc.C105_address",
    "Stacks.Rpc.C105_read_only",
    "Stacks.Rpc.C105_estimate_fee",
    "Stacks.Rpc.C105_broadcast"
   ],
   "note": ""
  },
  {
   "property": "C106",
   "status": "proved",
   "theorems": [
    "Stacks.Concrete.C106_sha256",
    "Stacks.Concrete.C106_sha512",
    "Stacks.Concrete.C106_sha512_256",
    "Stacks.Concrete.C106_ripemd160",
    "Stacks.Concrete.C106_hashes",
    "Stacks.Concrete.C106_checksum",
    "Stacks.Concrete.C106_address",
    "Stacks.C106_wallet_address"
   ],
   "note": ""
  },
  {
   "property": "C107",
   "status": "proved",
   "theorems": [
    "Stacks.Spec.C107_codecs",
    "Stacks.Spec.C107_new",
    "Stacks.Spec.C107_verify",
    "Stacks.Spec.C107_sign_origin",
    "Stacks.Spec.C107_sign_sponsor",
    "Stacks.Spec.C107_agrees",
    "Stacks.Spec.C107_verified_enough",
    "Stacks.Spec.C107_signer",
    "Stacks.Spec.C107_flow",
    "Stacks.Spec.C107_script_large",
    "Stacks.Spec.C107_large_refused",
    "Stacks.Spec.C107_oversign",
    "Stacks.Spec.C107_wrapped_count"
   ],
   "note": ""
  },
  {
   "property": "C108",
   "status": "proved",
   "theorems": [
    "Stacks.Rpc.C108_pay",
    "Stacks.Rpc.C108_payments",
    "Stacks.Rpc.C108_pay_together",
    "Stacks.Rpc.C108_payments_together",
    "Stacks.Rpc.C108_real_payments"
   ],
   "note": ""
  },
  {
   "property": "C109",
   "status": "proved",
   "theorems": [
    "Stacks.C109_b58_encode",
    "Stacks.C109_b58_decode_agrees",
    "Stacks.C109_base58check_decode_agrees",
    "Stacks.C109_b58_decode_checked",
    "Stacks.C109_b58_decode_wrapping",
    "Stacks.C109_b58_decode_wrong",
    "Stacks.C109_b58_no_roundtrip",
    "Stacks.C109_decode",
    "Stacks.C109_fn_args",
    "Stacks.C109_fn_args_no_roundtrip"
   ],
   "note": ""
  },
  {
   "property": "C110",
   "status": "proved",
   "theorems": [
    "Stacks.Rpc.C110_at_most_once",
    "Stacks.Rpc.C110_any_schedule",
    "Stacks.Rpc.C110_answer",
    "Stacks.Rpc.C110_own_account",
    "Stacks.Rpc.C110_lost_answer",
    "Stacks.Rpc.C110_race"
   ],
   "note": ""
  },
  {
   "property": "C111",
   "status": "proved",
   "theorems": [
    "Stacks.Rpc.C111_pay_sponsored",
    "Stacks.Rpc.C111_sponsored_payments"
   ],
   "note": ""
  },
  {
   "property": "C112",
   "status": "proved",
   "theorems": [
    "Stacks.Tx.C112_sorted",
    "Stacks.Tx.C112_sees_sorted",
    "Stacks.Tx.C112_ascending",
    "Stacks.Tx.C112_call_accepted",
    "Stacks.Tx.C112_repeated_name_refused",
    "Stacks.Tx.C112_other_order_refused"
   ],
   "note": ""
  },
  {
   "property": "C113",
   "status": "proved",
   "theorems": [
    "Stacks.Rpc.C113_asked",
    "Stacks.Rpc.C113_one_question",
    "Stacks.Rpc.C113_call",
    "Stacks.Rpc.C113_question_mark",
    "Stacks.Rpc.C113_slash",
    "Stacks.Rpc.C113_prefix",
    "Stacks.Rpc.C113_trailing_slash"
   ],
   "note": ""
  },
  {
   "property": "C114",
   "status": "proved",
   "theorems": [
    "Stacks.Open.C114_pieces",
    "Stacks.Open.C114_payload_pieces",
    "Stacks.Open.C114_crate_containers",
    "Stacks.Open.C114_texts",
    "Stacks.Open.C114_stand_in",
    "Stacks.Open.C114_equality_by_text",
    "Stacks.Open.C114_post_conditions_misread",
    "Stacks.Open.C114_shown_principal",
    "Stacks.Open.C114_crate_conditions",
    "Stacks.Open.C114_transaction_bytes",
    "Stacks.Open.C114_transaction_stand_in",
    "Stacks.Open.C114_crate_transactions",
    "Stacks.Open.C114_sign_then_verify",
    "Stacks.Open.C114_multisig_flow",
    "Stacks.Open.C114_preimage_determines",
    "Stacks.Open.C114_single_binding",
    "Stacks.Open.C114_origin_binding"
   ],
   "note": ""
  },
  {
   "property": "C115",
   "status": "proved",
   "theorems": [
    "Stacks.Tx.C115_good_names_fit",
    "Stacks.Tx.C115_decides",
    "Stacks.Tx.C115_call",
    "Stacks.Tx.C115_transfer"
   ],
   "note": ""
  },
  {
   "property": "C116",
   "status": "proved",
   "theorems": [
    "Stacks.Tx.C116_enforced",
    "Stacks.Tx.C116_call",
    "Stacks.Tx.C116_limits",
    "Stacks.Tx.C116_deny",
    "Stacks.Tx.C116_default_keeps",
    "Stacks.Tx.C116_allow_still_checks",
    "Stacks.Tx.C116_order"
   ],
   "note": ""
  },
  {
   "property": "C117",
   "status": "proved",
   "theorems": [
    "Stacks.Tx.C117_transfer",
    "Stacks.Tx.C117_default_fee_refused",
    "Stacks.Tx.C117_call"
   ],
   "note": ""
  },
  {
   "property": "C118",
   "status": "proved",
   "theorems": [
    "Stacks.C118_total",
    "Stacks.C118_enumerations",
    "Stacks.C118_single",
    "Stacks.C118_multi",
    "Stacks.C118_field",
    "Stacks.C118_modification",
    "Stacks.C118_answers",
    "Stacks.C118_balance"
   ],
   "note": ""
  },
  {
   "property": "C119",
   "status": "proved",
   "theorems": [
    "Stacks.Tx.C119_inside",
    "Stacks.Tx.C119_list",
    "Stacks.Tx.C119_nesting",
    "Stacks.Tx.C119_typed",
    "Stacks.Tx.C119_call",
    "Stacks.Tx.C119_rules_add",
    "Stacks.Tx.C119_refused"
   ],
   "note": ""
  },
  {
   "property": "C120",
   "status": "proved",
   "theorems": [
    "Stacks.Rpc.C120_laws",
    "Stacks.Rpc.C120_estimate",
    "Stacks.Rpc.C120_rates",
    "Stacks.Rpc.C120_answers",
    "Stacks.Rpc.C120_self",
    "Stacks.Rpc.C120_total",
    "Stacks.Rpc.C120_received"
   ],
   "note": ""
  },
  {
   "property": "C121",
   "status": "proved",
   "theorems": [
    "Stacks.Derive.C121_says",
    "Stacks.Derive.C121_any_order",
    "Stacks.Rpc.C121_struct"
   ],
   "note": ""
  },
  {
   "property": "C122",
   "status": "proved",
   "theorems": [
    "Stacks.Tx.C122_transfer_other_network",
    "Stacks.Tx.C122_call_other_network",
    "Stacks.Tx.C122_call_default_fee",
    "Stacks.Tx.C122_condition_without_address"
   ],
   "note": ""
  },
  {
   "property": "C123",
   "status": "proved",
   "theorems": [
    "Stacks.Tx.C123_rfc6979",
    "Stacks.Tx.C123_same_r_reveals",
    "Stacks.Tx.C123_same_r_iff",
    "Stacks.Tx.C123_bytes",
    "Stacks.Tx.C123_bytes_reveal"
   ],
   "note": ""
  },
  {
   "property": "C124",
   "status": "proved",
   "theorems": [
    "Stacks.C124_panics_exactly",
    "Stacks.C124_no_panic"
   ],
   "note": ""
  },
  {
   "property": "C125",
   "status": "proved",
   "theorems": [
    "Stacks.C125_errors_exactly",
    "Stacks.C125_never_reported",
    "Stacks.C125_one_error",
    "Stacks.C125_error_or_panic"
   ],
   "note": ""
  },
  {
   "property": "C126",
   "status": "proved",
   "theorems": [
    "Stacks.C32.C126_read",
    "Stacks.C32.C126_written",
    "Stacks.C32.C126_parsed",
    "Stacks.C32.C126_spellings",
    "Stacks.C32.C126_one_meaning"
   ],
   "note": ""
  },
  {
   "property": "C127",
   "status": "proved",
   "theorems": [
    "Stacks.Rpc.C127_at_most_once",
    "Stacks.Rpc.C127_any_schedule",
    "Stacks.Rpc.C127_answer",
    "Stacks.Rpc.C127_own_accounts",
    "Stacks.Rpc.C127_at_last",
    "Stacks.Rpc.C127_shared_account"
   ],
   "note": ""
  },
  {
   "property": "C128",
   "status": "proved",
   "theorems": [
    "Stacks.C128_outcome_exactly",
    "Stacks.C128_one_outcome"
   ],
   "note": ""
  },
  {
   "property": "C129",
   "status": "proved",
   "theorems": [
    "Stacks.Tx.C129_id_exactly",
    "Stacks.Tx.C129_identifies",
    "Stacks.Tx.C129_same_id",
    "Stacks.Tx.C129_history",
    "Stacks.Tx.C129_reader_agrees",
    "Stacks.Tx.C129_sign",
    "Stacks.Tx.C129_not_the_signing_hash",
    "Stacks.Tx.C129_broadcast_reply",
    "Stacks.Tx.C129_sign_secp256k1",
    "Stacks.Tx.C129_id_is_malleable"
   ],
   "note": ""
  },
  {
   "property": "C130",
   "status": "proved",
   "theorems": [
    "Stacks.C130_children",
    "Stacks.C130_accounts",
    "Stacks.C130_seeds",
    "Stacks.C130_wallets",
    "Stacks.C130_words"
   ],
   "note": ""
  },
  {
   "property": "C131",
   "status": "proved",
   "theorems": [
    "Stacks.Tx.C131_sponsor_needs_all",
    "Stacks.Tx.C131_never_completed",
    "Stacks.Tx.C131_all_members_sign",
    "Stacks.Tx.C131_by_hand",
    "Stacks.Tx.C131_by_hand_in_place"
   ],
   "note": ""
  },
  {
   "property": "C132",
   "status": "proved",
   "theorems": [
    "Stacks.Tx.C132_relay",
    "Stacks.Tx.C132_relay_verifies",
    "Stacks.Tx.C132_both_parts",
    "Stacks.Tx.C132_start_anew",
    "Stacks.Tx.C132_new_for_sponsor",
    "Stacks.Tx.C132_start_anew_sponsor"
   ],
   "note": ""
  },
  {
   "property": "C133",
   "status": "proved",
   "theorems": [
    "Stacks.Tx.C133_transfer",
    "Stacks.Tx.C133_call",
    "Stacks.Tx.C133_flow",
    "Stacks.Tx.C133_set_fee"
   ],
   "note": ""
  },
  {
   "property": "C134",
   "status": "proved",
   "theorems": [
    "Stacks.Tx.C134_transfer",
    "Stacks.Tx.C134_call",
    "Stacks.Tx.C134_fee_before_signing",
    "Stacks.Tx.C134_estimate_short",
    "Stacks.Tx.C134_estimate_single"
   ],
   "note": ""
  }
 ]
}
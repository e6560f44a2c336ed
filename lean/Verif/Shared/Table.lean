import Verif.Shared.Library

/-! Written by tools/shared.py from the text of src/*.c: every function of the library. -/

namespace Nostr.Shared

/-- All functions of src/*.c, in the order of their names. Those given by `any` neither write one of the library's variables nor use
one of its locks: their parts are taken in any order and number. `cb` is what is called by nostr_config_update (src/config.c:261). -/
def library (cb : Prog) : List Fn := [
  ⟨"add_e_tag", false, any [.call 107]⟩,
  ⟨"add_item", false, any [.call 36, .call 45]⟩,
  ⟨"arena_ensure_capacity", false, .skip⟩,
  ⟨"arena_strdup", false, any [.call 2]⟩,
  ⟨"base64_decode", false, .skip⟩,
  ⟨"base64_encode", false, .skip⟩,
  ⟨"bech32_charset_decode", false, .skip⟩,
  ⟨"bech32_convert_bits", false, .skip⟩,
  ⟨"bech32_create_checksum", false, any [.call 9, .call 10]⟩,
  ⟨"bech32_hrp_expand", false, .skip⟩,
  ⟨"bech32_polymod", false, .skip⟩,
  ⟨"bech32_verify_checksum", false, any [.call 9, .call 10]⟩,
  ⟨"bip39_word_index", false, .skip⟩,
  ⟨"build_delegation_hash", false, any [.call 78, .call 181]⟩,
  ⟨"build_private_content", false, any [.call 28, .call 70, .call 71]⟩,
  ⟨"build_tlv", false, .skip⟩,
  ⟨"calc_padded_len", false, .skip⟩,
  ⟨"callback_nostr_relay", true, any [.call 40, .call 112, .call 114, .user]⟩,
  ⟨"cleanup_conditions", false, .skip⟩,
  ⟨"cleanup_event", false, any [.call 112]⟩,
  ⟨"cleanup_expired_sessions", false, body.cleanupExpired⟩,
  ⟨"clone_string_array", false, .skip⟩,
  ⟨"collect_e_tags", false, any [.call 366]⟩,
  ⟨"compare_event_ids", false, .skip⟩,
  ⟨"contains_unicode_escape", false, .skip⟩,
  ⟨"copy_bounded", false, .skip⟩,
  ⟨"copy_id_and_relay", false, .skip⟩,
  ⟨"copy_str_safe", false, .skip⟩,
  ⟨"count_private_items", false, .skip⟩,
  ⟨"decode_bech32", false, .skip⟩,
  ⟨"decode_bech32_to_bytes", false, any [.call 6, .call 7, .call 11]⟩,
  ⟨"decode_ncryptsec", false, any [.call 6, .call 7, .call 11]⟩,
  ⟨"derive_key_scrypt", false, .skip⟩,
  ⟨"destroy_queue_mutex", false, .skip⟩,
  ⟨"encode_bytes_to_bech32", false, any [.call 7, .call 8]⟩,
  ⟨"encode_utf8", false, .skip⟩,
  ⟨"ensure_capacity", false, .skip⟩,
  ⟨"escape_json_string", false, .skip⟩,
  ⟨"event_sha256", false, .skip⟩,
  ⟨"find_e_tag_by_marker", false, any [.call 22, .call 26]⟩,
  ⟨"find_json_array_end", false, .skip⟩,
  ⟨"find_nonce_tag_index", false, .skip⟩,
  ⟨"find_nostr_uri", false, any [.call 58]⟩,
  ⟨"find_session", false, body.findSession⟩,
  ⟨"free_connection", false, any [.call 377]⟩,
  ⟨"free_item", false, .skip⟩,
  ⟨"free_relay_array", false, .skip⟩,
  ⟨"generate_session_id", false, .skip⟩,
  ⟨"get_relays_by_flag", false, .skip⟩,
  ⟨"hchacha20", false, any [.call 74, .call 377, .call 383]⟩,
  ⟨"hex_char_to_nibble", false, .skip⟩,
  ⟨"hex_decode", false, .skip⟩,
  ⟨"hex_digit_value", false, .skip⟩,
  ⟨"hex_starts_with", false, .skip⟩,
  ⟨"hex_string_to_bytes", false, .skip⟩,
  ⟨"hex_to_bytes", false, .skip⟩,
  ⟨"init_queue_mutex", false, .skip⟩,
  ⟨"is_ascii_string", false, .skip⟩,
  ⟨"is_bech32_char", false, .skip⟩,
  ⟨"is_escaped_quote", false, .skip⟩,
  ⟨"is_hex_char", false, .skip⟩,
  ⟨"is_json_whitespace", false, .skip⟩,
  ⟨"is_parameterized_list", false, .skip⟩,
  ⟨"is_valid_bech32_char", false, .skip⟩,
  ⟨"is_valid_domain", false, .skip⟩,
  ⟨"is_valid_hex", false, .skip⟩,
  ⟨"is_valid_hex64", false, any [.call 52]⟩,
  ⟨"is_valid_hex_string", false, .skip⟩,
  ⟨"is_valid_local_part", false, .skip⟩,
  ⟨"is_valid_relay_url", false, any [.call 24]⟩,
  ⟨"json_escape_to", false, .skip⟩,
  ⟨"json_escaped_len", false, .skip⟩,
  ⟨"json_strstr", false, any [.call 59]⟩,
  ⟨"kind_allowed", false, .skip⟩,
  ⟨"load32_le", false, .skip⟩,
  ⟨"lock_queue_mutex", false, .skip⟩,
  ⟨"mining_thread", true, any [.call 110, .call 245, .call 246]⟩,
  ⟨"nfkd_normalize", false, .skip⟩,
  ⟨"nip26_sha256", false, .skip⟩,
  ⟨"nip47_json_escape", false, .skip⟩,
  ⟨"nostr_bytes_to_hex", true, .skip⟩,
  ⟨"nostr_cleanup", true, body.cleanup⟩,
  ⟨"nostr_client_msg_free", true, any [.call 112, .call 155]⟩,
  ⟨"nostr_client_msg_get_event", true, .skip⟩,
  ⟨"nostr_client_msg_get_filters", true, .skip⟩,
  ⟨"nostr_client_msg_get_subscription_id", true, .skip⟩,
  ⟨"nostr_client_msg_get_type", true, .skip⟩,
  ⟨"nostr_client_msg_parse", true, any [.call 114, .call 356, .call 367]⟩,
  ⟨"nostr_config_get_current", true, body.getCurrent⟩,
  ⟨"nostr_config_get_defaults", true, .skip⟩,
  ⟨"nostr_config_load_env", true, any [.call 370, .call 374]⟩,
  ⟨"nostr_config_set_callback", true, body.setCallback⟩,
  ⟨"nostr_config_update", true, (body.update cb)⟩,
  ⟨"nostr_config_validate", true, .skip⟩,
  ⟨"nostr_constant_time_memcmp", true, .skip⟩,
  ⟨"nostr_delegation_check_conditions", true, any [.call 73]⟩,
  ⟨"nostr_delegation_create", true, any [.read .ncContext, .read .secpContext, .call 13, .call 183, .call 301, .call 365, .call 377]⟩,
  ⟨"nostr_delegation_free", true, any [.call 377]⟩,
  ⟨"nostr_delegation_verify", true, any [.read .ncContext, .read .secpContext, .call 13, .call 183]⟩,
  ⟨"nostr_deletion_authorized", true, any [.call 80]⟩,
  ⟨"nostr_deletion_authorized_address", true, any [.call 80, .call 115, .call 202]⟩,
  ⟨"nostr_deletion_free", true, .skip⟩,
  ⟨"nostr_deletion_parse", true, any [.call 101, .call 353, .call 354]⟩,
  ⟨"nostr_error_string", true, .skip⟩,
  ⟨"nostr_event_add_delegation", true, any [.call 107, .call 181]⟩,
  ⟨"nostr_event_add_mention_tag", true, any [.call 107]⟩,
  ⟨"nostr_event_add_reply_tags", true, any [.call 0]⟩,
  ⟨"nostr_event_add_tag", true, any [.call 88, .call 385]⟩,
  ⟨"nostr_event_compare_addressable", true, any [.call 109]⟩,
  ⟨"nostr_event_compare_replaceable", true, any [.call 23]⟩,
  ⟨"nostr_event_compute_id", true, any [.call 38, .call 378]⟩,
  ⟨"nostr_event_create", true, any [.call 386]⟩,
  ⟨"nostr_event_destroy", true, any [.call 387]⟩,
  ⟨"nostr_event_find_tag", true, .skip⟩,
  ⟨"nostr_event_from_json", true, any [.call 55, .call 88, .call 107, .call 112, .call 386]⟩,
  ⟨"nostr_event_get_d_tag", true, any [.call 129]⟩,
  ⟨"nostr_event_get_delegation", true, any [.call 65, .call 180, .call 365]⟩,
  ⟨"nostr_event_get_e_tags_binary", true, any [.call 54, .call 354]⟩,
  ⟨"nostr_event_get_expiration", true, any [.call 129]⟩,
  ⟨"nostr_event_get_id", true, .skip⟩,
  ⟨"nostr_event_get_id_hex", true, .skip⟩,
  ⟨"nostr_event_get_p_tags_binary", true, any [.call 54, .call 354]⟩,
  ⟨"nostr_event_get_pubkey", true, .skip⟩,
  ⟨"nostr_event_get_pubkey_hex", true, .skip⟩,
  ⟨"nostr_event_get_reply_id", true, any [.call 39]⟩,
  ⟨"nostr_event_get_root_id", true, any [.call 39]⟩,
  ⟨"nostr_event_get_tag", true, .skip⟩,
  ⟨"nostr_event_get_tag_at", true, .skip⟩,
  ⟨"nostr_event_get_tag_count", true, .skip⟩,
  ⟨"nostr_event_get_tag_value", true, .skip⟩,
  ⟨"nostr_event_get_tag_values", true, .skip⟩,
  ⟨"nostr_event_has_tag", true, .skip⟩,
  ⟨"nostr_event_id_from_bech32", true, any [.call 6, .call 7, .call 11]⟩,
  ⟨"nostr_event_id_to_bech32", true, any [.call 7, .call 8]⟩,
  ⟨"nostr_event_is_deletion", true, .skip⟩,
  ⟨"nostr_event_is_expired", true, any [.call 118]⟩,
  ⟨"nostr_event_is_expired_now", true, any [.call 135, .call 349]⟩,
  ⟨"nostr_event_is_reply", true, any [.call 124]⟩,
  ⟨"nostr_event_parse", true, any [.call 114]⟩,
  ⟨"nostr_event_serialize", true, any [.call 143]⟩,
  ⟨"nostr_event_serialize_canonical", true, .skip⟩,
  ⟨"nostr_event_set_content", true, .skip⟩,
  ⟨"nostr_event_sign", true, any [.read .ncContext, .read .secpContext, .call 110, .call 183, .call 301, .call 377]⟩,
  ⟨"nostr_event_to_json", true, .skip⟩,
  ⟨"nostr_event_validate_full", true, any [.call 110, .call 136, .call 145, .call 357]⟩,
  ⟨"nostr_event_verify", true, any [.read .ncContext, .read .secpContext, .call 94, .call 110, .call 183]⟩,
  ⟨"nostr_event_verify_delegation", true, any [.call 95, .call 97, .call 98, .call 116]⟩,
  ⟨"nostr_feature_crypto_backend_info", true, .skip⟩,
  ⟨"nostr_feature_hd_keys_available", true, .skip⟩,
  ⟨"nostr_feature_json_enhanced_available", true, .skip⟩,
  ⟨"nostr_feature_list_enabled", true, body.featureList⟩,
  ⟨"nostr_feature_nip_supported", true, .skip⟩,
  ⟨"nostr_feature_relay_available", true, .skip⟩,
  ⟨"nostr_feature_relay_protocol_available", true, .skip⟩,
  ⟨"nostr_filter_clone", true, any [.call 21, .call 155]⟩,
  ⟨"nostr_filter_free", true, .skip⟩,
  ⟨"nostr_filter_get_authors", true, .skip⟩,
  ⟨"nostr_filter_get_e_tags", true, .skip⟩,
  ⟨"nostr_filter_get_ids", true, .skip⟩,
  ⟨"nostr_filter_get_kinds", true, .skip⟩,
  ⟨"nostr_filter_get_limit", true, .skip⟩,
  ⟨"nostr_filter_get_p_tags", true, .skip⟩,
  ⟨"nostr_filter_get_search", true, .skip⟩,
  ⟨"nostr_filter_get_since", true, .skip⟩,
  ⟨"nostr_filter_get_tag_values", true, any [.call 157, .call 161]⟩,
  ⟨"nostr_filter_get_until", true, .skip⟩,
  ⟨"nostr_filter_has_search", true, .skip⟩,
  ⟨"nostr_filter_has_tag_filters", true, .skip⟩,
  ⟨"nostr_filter_matches", true, any [.call 53, .call 80, .call 130]⟩,
  ⟨"nostr_filter_matches_with_search", true, any [.call 168, .user]⟩,
  ⟨"nostr_filter_parse", true, any [.call 155, .call 369, .call 372]⟩,
  ⟨"nostr_filter_validate", true, any [.call 354, .call 355]⟩,
  ⟨"nostr_filters_match", true, any [.call 168]⟩,
  ⟨"nostr_filters_match_with_search", true, any [.call 169]⟩,
  ⟨"nostr_free", true, .skip⟩,
  ⟨"nostr_free_strings", true, .skip⟩,
  ⟨"nostr_hd_key_derive", true, any [.read .ncContext, .read .secpContext, .call 377]⟩,
  ⟨"nostr_hd_key_derive_path", true, any [.call 176, .call 377]⟩,
  ⟨"nostr_hd_key_from_seed", true, any [.read .ncContext, .read .secpContext, .call 377]⟩,
  ⟨"nostr_hd_key_to_keypair", true, .skip⟩,
  ⟨"nostr_hex_decode", true, any [.call 50]⟩,
  ⟨"nostr_hex_encode", true, .skip⟩,
  ⟨"nostr_hex_to_bytes", true, .skip⟩,
  ⟨"nostr_init", true, body.init⟩,
  ⟨"nostr_init_with_config", true, body.initWithConfig⟩,
  ⟨"nostr_key_ecdh", true, any [.read .contextInit, .read .ncContext, .read .secpContext, .call 183, .call 377]⟩,
  ⟨"nostr_key_from_bech32", true, any [.call 6, .call 7, .call 11]⟩,
  ⟨"nostr_key_from_hex", true, .skip⟩,
  ⟨"nostr_key_generate", true, body.keyGenerate⟩,
  ⟨"nostr_key_to_bech32", true, any [.call 7, .call 8]⟩,
  ⟨"nostr_key_to_hex", true, .skip⟩,
  ⟨"nostr_keypair_destroy", true, any [.call 377]⟩,
  ⟨"nostr_keypair_export_private_hex", true, any [.call 298]⟩,
  ⟨"nostr_keypair_export_public_hex", true, any [.call 190]⟩,
  ⟨"nostr_keypair_from_private_hex", true, any [.call 195, .call 296]⟩,
  ⟨"nostr_keypair_from_private_key", true, any [.read .contextInit, .read .ncContext, .read .secpContext, .call 183, .call 377]⟩,
  ⟨"nostr_keypair_generate", true, any [.call 188]⟩,
  ⟨"nostr_keypair_init", true, .skip⟩,
  ⟨"nostr_keypair_private_key", true, .skip⟩,
  ⟨"nostr_keypair_public_key", true, .skip⟩,
  ⟨"nostr_keypair_validate", true, any [.read .contextInit, .read .ncContext, .read .secpContext, .call 94, .call 183, .call 377]⟩,
  ⟨"nostr_kind_get_type", true, .skip⟩,
  ⟨"nostr_kind_is_addressable", true, any [.call 201]⟩,
  ⟨"nostr_kind_is_ephemeral", true, any [.call 201]⟩,
  ⟨"nostr_kind_is_regular", true, any [.call 201]⟩,
  ⟨"nostr_kind_is_replaceable", true, any [.call 201]⟩,
  ⟨"nostr_list_add_emoji", true, any [.call 1]⟩,
  ⟨"nostr_list_add_event", true, any [.call 1, .call 66]⟩,
  ⟨"nostr_list_add_group", true, any [.call 1]⟩,
  ⟨"nostr_list_add_hashtag", true, any [.call 1]⟩,
  ⟨"nostr_list_add_pubkey", true, any [.call 1, .call 66]⟩,
  ⟨"nostr_list_add_reference", true, any [.call 1]⟩,
  ⟨"nostr_list_add_relay", true, any [.call 1]⟩,
  ⟨"nostr_list_add_word", true, any [.call 1]⟩,
  ⟨"nostr_list_count", true, .skip⟩,
  ⟨"nostr_list_create", true, .skip⟩,
  ⟨"nostr_list_free", true, any [.call 45]⟩,
  ⟨"nostr_list_from_event", true, any [.call 1, .call 198, .call 199, .call 215, .call 216, .call 220, .call 221, .call 222, .call 223, .call 255, .call 371]⟩,
  ⟨"nostr_list_get", true, .skip⟩,
  ⟨"nostr_list_remove", true, any [.call 45]⟩,
  ⟨"nostr_list_set_d_tag", true, any [.call 380]⟩,
  ⟨"nostr_list_set_description", true, any [.call 380]⟩,
  ⟨"nostr_list_set_image", true, any [.call 380]⟩,
  ⟨"nostr_list_set_title", true, any [.call 380]⟩,
  ⟨"nostr_list_to_event", true, any [.call 14, .call 28, .call 62, .call 107, .call 111, .call 112, .call 141, .call 198, .call 199, .call 256]⟩,
  ⟨"nostr_mnemonic_generate", true, any [.call 301, .call 377]⟩,
  ⟨"nostr_mnemonic_to_keypair", true, any [.call 177, .call 178, .call 179, .call 227, .call 377]⟩,
  ⟨"nostr_mnemonic_to_seed", true, any [.call 57, .call 77, .call 228, .call 377]⟩,
  ⟨"nostr_mnemonic_validate", true, any [.call 12, .call 377]⟩,
  ⟨"nostr_naddr_decode", true, any [.call 30, .call 231, .call 373]⟩,
  ⟨"nostr_naddr_encode", true, any [.call 15, .call 34]⟩,
  ⟨"nostr_naddr_free", true, any [.call 46]⟩,
  ⟨"nostr_ncryptsec_decrypt", true, any [.call 31, .call 32, .call 377, .call 392]⟩,
  ⟨"nostr_ncryptsec_encrypt", true, any [.call 7, .call 8, .call 32, .call 377, .call 393]⟩,
  ⟨"nostr_ncryptsec_validate", true, any [.call 31, .call 377]⟩,
  ⟨"nostr_nevent_decode", true, any [.call 30, .call 237, .call 373]⟩,
  ⟨"nostr_nevent_encode", true, any [.call 15, .call 34]⟩,
  ⟨"nostr_nevent_free", true, any [.call 46]⟩,
  ⟨"nostr_nip04_decrypt", true, any [.call 4, .call 185, .call 377]⟩,
  ⟨"nostr_nip04_encrypt", true, any [.call 5, .call 185, .call 377]⟩,
  ⟨"nostr_nip05_build_url", true, .skip⟩,
  ⟨"nostr_nip05_free_relays", true, .skip⟩,
  ⟨"nostr_nip05_parse", true, any [.call 64, .call 68, .call 384]⟩,
  ⟨"nostr_nip05_parse_response", true, any [.call 59, .call 60, .call 69, .call 72, .call 241, .call 382, .call 384]⟩,
  ⟨"nostr_nip05_verify", true, any [.call 94, .call 240, .call 241, .call 242, .call 243, .call 384, .user]⟩,
  ⟨"nostr_nip13_add_nonce_tag", true, any [.call 2, .call 3, .call 41, .call 107]⟩,
  ⟨"nostr_nip13_calculate_difficulty", true, any [.call 394]⟩,
  ⟨"nostr_nip13_mine_event", true, any [.call 41, .call 110, .call 245, .call 246]⟩,
  ⟨"nostr_nip13_mine_event_threaded", true, any [.call 41, .call 76, .call 245, .call 247]⟩,
  ⟨"nostr_nip13_verify_pow", true, any [.call 41, .call 246]⟩,
  ⟨"nostr_nip17_create_gift_wrap", true, any [.call 107, .call 110, .call 111, .call 112, .call 141, .call 142, .call 143, .call 188, .call 256, .call 375, .call 377]⟩,
  ⟨"nostr_nip17_create_rumor", true, any [.call 110, .call 111, .call 112, .call 141]⟩,
  ⟨"nostr_nip17_create_seal", true, any [.read .ncContext, .read .secpContext, .call 110, .call 111, .call 112, .call 141, .call 142, .call 143, .call 256, .call 375, .call 377]⟩,
  ⟨"nostr_nip17_send_dm", true, any [.read .ncContext, .read .secpContext, .call 107, .call 112, .call 250, .call 251, .call 252, .call 377]⟩,
  ⟨"nostr_nip17_unwrap_dm", true, any [.call 112, .call 114, .call 145, .call 255, .call 377]⟩,
  ⟨"nostr_nip44_decrypt", true, any [.read .ncContext, .call 4, .call 183, .call 377, .call 389]⟩,
  ⟨"nostr_nip44_encrypt", true, any [.read .ncContext, .call 5, .call 183, .call 364, .call 377]⟩,
  ⟨"nostr_nip46_create_response", true, any [.call 107, .call 110, .call 111, .call 112, .call 141, .call 142, .call 190, .call 256]⟩,
  ⟨"nostr_nip46_parse_request", true, any [.call 255]⟩,
  ⟨"nostr_nip46_request_free", true, .skip⟩,
  ⟨"nostr_nip46_response_free", true, .skip⟩,
  ⟨"nostr_nip47_create_get_balance_params", true, .skip⟩,
  ⟨"nostr_nip47_create_get_info_params", true, .skip⟩,
  ⟨"nostr_nip47_create_list_transactions_params", true, .skip⟩,
  ⟨"nostr_nip47_create_lookup_invoice_params", true, .skip⟩,
  ⟨"nostr_nip47_create_make_invoice_params", true, any [.call 79]⟩,
  ⟨"nostr_nip47_create_multi_pay_invoice_params", true, .skip⟩,
  ⟨"nostr_nip47_create_pay_invoice_params", true, any [.call 79]⟩,
  ⟨"nostr_nip47_create_pay_keysend_params", true, .skip⟩,
  ⟨"nostr_nip47_create_request_event", true, any [.read .ncContext, .read .secpContext, .call 79, .call 107, .call 110, .call 111, .call 112, .call 141, .call 142, .call 256]⟩,
  ⟨"nostr_nip47_free_connection", true, any [.call 44]⟩,
  ⟨"nostr_nip47_parse_balance_response", true, .skip⟩,
  ⟨"nostr_nip47_parse_connection_uri", true, any [.call 44, .call 51, .call 390]⟩,
  ⟨"nostr_nip47_parse_info_event", true, .skip⟩,
  ⟨"nostr_nip47_parse_info_response", true, .skip⟩,
  ⟨"nostr_nip47_parse_notification_event", true, any [.call 255]⟩,
  ⟨"nostr_nip47_parse_pay_invoice_response", true, .skip⟩,
  ⟨"nostr_nip47_parse_response_event", true, any [.call 51, .call 255]⟩,
  ⟨"nostr_nip47_session_add_permission", true, body.sessionAdd⟩,
  ⟨"nostr_nip47_session_check_permission", true, body.sessionCheck⟩,
  ⟨"nostr_nip47_session_create", true, body.sessionCreate⟩,
  ⟨"nostr_nip47_session_destroy", true, body.sessionDestroy⟩,
  ⟨"nostr_nip47_session_extend", true, body.sessionExtend⟩,
  ⟨"nostr_nip47_session_get_connection", true, body.sessionGet⟩,
  ⟨"nostr_nip47_session_init", true, body.sessionInit⟩,
  ⟨"nostr_nip59_create_gift_wrap", true, any [.call 107, .call 110, .call 111, .call 112, .call 141, .call 142, .call 143, .call 188, .call 256, .call 376, .call 377]⟩,
  ⟨"nostr_nip59_create_rumor", true, any [.call 110, .call 111, .call 112, .call 141]⟩,
  ⟨"nostr_nip59_create_seal", true, any [.read .ncContext, .read .secpContext, .call 110, .call 111, .call 112, .call 141, .call 142, .call 143, .call 256, .call 376, .call 377]⟩,
  ⟨"nostr_nip59_unwrap_event", true, any [.call 112, .call 114, .call 145, .call 255, .call 377]⟩,
  ⟨"nostr_nip59_wrap_event", true, any [.read .ncContext, .read .secpContext, .call 107, .call 110, .call 111, .call 112, .call 141, .call 142, .call 143, .call 188, .call 256, .call 376, .call 377]⟩,
  ⟨"nostr_nprofile_decode", true, any [.call 30, .call 292, .call 373]⟩,
  ⟨"nostr_nprofile_encode", true, any [.call 15, .call 34]⟩,
  ⟨"nostr_nprofile_free", true, any [.call 46]⟩,
  ⟨"nostr_nrelay_decode", true, any [.call 30, .call 373]⟩,
  ⟨"nostr_nrelay_encode", true, any [.call 34]⟩,
  ⟨"nostr_privkey_from_bech32", true, any [.call 6, .call 7, .call 11]⟩,
  ⟨"nostr_privkey_from_hex", true, .skip⟩,
  ⟨"nostr_privkey_to_bech32", true, any [.call 7, .call 8]⟩,
  ⟨"nostr_privkey_to_hex", true, .skip⟩,
  ⟨"nostr_publish_event", true, any [.call 336]⟩,
  ⟨"nostr_quote_tags_from_content", true, any [.call 42, .call 107, .call 181, .call 231, .call 237, .call 352]⟩,
  ⟨"nostr_random_bytes", true, body.randomBytes⟩,
  ⟨"nostr_reaction_create", true, any [.call 19, .call 67, .call 107, .call 111, .call 141]⟩,
  ⟨"nostr_reaction_is_dislike", true, .skip⟩,
  ⟨"nostr_reaction_is_like", true, .skip⟩,
  ⟨"nostr_reaction_parse", true, any [.call 27]⟩,
  ⟨"nostr_relay_connect", true, any [.call 33, .call 56, .call 379, .user]⟩,
  ⟨"nostr_relay_create", true, .skip⟩,
  ⟨"nostr_relay_destroy", true, any [.call 309]⟩,
  ⟨"nostr_relay_disconnect", true, any [.call 33]⟩,
  ⟨"nostr_relay_error_string", true, .skip⟩,
  ⟨"nostr_relay_info_add_nip", true, .skip⟩,
  ⟨"nostr_relay_info_free", true, .skip⟩,
  ⟨"nostr_relay_info_init", true, any [.call 316]⟩,
  ⟨"nostr_relay_info_serialize", true, .skip⟩,
  ⟨"nostr_relay_info_set_nips", true, .skip⟩,
  ⟨"nostr_relay_limitation_init", true, .skip⟩,
  ⟨"nostr_relay_limitation_serialize", true, .skip⟩,
  ⟨"nostr_relay_list_add", true, any [.call 69]⟩,
  ⟨"nostr_relay_list_count", true, .skip⟩,
  ⟨"nostr_relay_list_create", true, .skip⟩,
  ⟨"nostr_relay_list_free", true, .skip⟩,
  ⟨"nostr_relay_list_free_urls", true, .skip⟩,
  ⟨"nostr_relay_list_from_event", true, any [.call 318, .call 320, .call 321]⟩,
  ⟨"nostr_relay_list_get", true, .skip⟩,
  ⟨"nostr_relay_list_get_read_relays", true, any [.call 48]⟩,
  ⟨"nostr_relay_list_get_write_relays", true, any [.call 48]⟩,
  ⟨"nostr_relay_list_to_event", true, any [.call 19, .call 107, .call 111, .call 141]⟩,
  ⟨"nostr_relay_msg_auth", true, .skip⟩,
  ⟨"nostr_relay_msg_closed", true, .skip⟩,
  ⟨"nostr_relay_msg_count", true, .skip⟩,
  ⟨"nostr_relay_msg_eose", true, .skip⟩,
  ⟨"nostr_relay_msg_event", true, .skip⟩,
  ⟨"nostr_relay_msg_notice", true, .skip⟩,
  ⟨"nostr_relay_msg_ok", true, .skip⟩,
  ⟨"nostr_relay_msg_serialize", true, any [.call 143]⟩,
  ⟨"nostr_relay_send_event", true, any [.call 75, .call 143, .call 388]⟩,
  ⟨"nostr_relay_set_message_callback", true, .skip⟩,
  ⟨"nostr_relay_unsubscribe", true, any [.call 75, .call 388, .call 391]⟩,
  ⟨"nostr_repost_create", true, any [.call 19, .call 67, .call 107, .call 111, .call 141]⟩,
  ⟨"nostr_repost_parse", true, any [.call 27]⟩,
  ⟨"nostr_subscribe", true, any [.call 75, .call 388, .call 391]⟩,
  ⟨"nostr_tag_get_name", true, .skip⟩,
  ⟨"nostr_tag_get_value", true, .skip⟩,
  ⟨"nostr_tag_get_value_count", true, .skip⟩,
  ⟨"nostr_tag_is_indexable", true, .skip⟩,
  ⟨"nostr_tag_iterator_init", true, .skip⟩,
  ⟨"nostr_tag_iterator_next", true, .skip⟩,
  ⟨"nostr_tag_iterator_next_info", true, any [.call 347]⟩,
  ⟨"nostr_timestamp_now", true, .skip⟩,
  ⟨"nostr_uri_encode", true, any [.call 133, .call 189, .call 230, .call 236, .call 291, .call 294, .call 297]⟩,
  ⟨"nostr_uri_free", true, any [.call 231, .call 237, .call 292, .call 377]⟩,
  ⟨"nostr_uri_parse", true, any [.call 132, .call 186, .call 229, .call 235, .call 290, .call 293, .call 295]⟩,
  ⟨"nostr_validate_address", true, .skip⟩,
  ⟨"nostr_validate_hex64", true, .skip⟩,
  ⟨"nostr_validate_hex_prefix", true, .skip⟩,
  ⟨"nostr_validate_subscription_id", true, .skip⟩,
  ⟨"nostr_validate_timestamp", true, any [.call 349]⟩,
  ⟨"nostr_validation_error_format", true, .skip⟩,
  ⟨"nostr_version", true, .skip⟩,
  ⟨"nostr_zap_create_request", true, any [.call 107, .call 111, .call 112, .call 141, .call 190]⟩,
  ⟨"nostr_zap_parse_receipt", true, any [.call 114]⟩,
  ⟨"nostr_zap_validate_lnurl", true, any [.call 29]⟩,
  ⟨"nostr_zap_verify", true, any [.call 94, .call 112, .call 145, .call 190, .call 361]⟩,
  ⟨"pad_plaintext", false, any [.call 16, .call 88]⟩,
  ⟨"parse_delegation_conditions", false, any [.call 18]⟩,
  ⟨"parse_e_tag", false, any [.call 25]⟩,
  ⟨"parse_filters", false, any [.call 155, .call 170, .call 171]⟩,
  ⟨"parse_hex4", false, any [.call 52]⟩,
  ⟨"parse_int_array", false, .skip⟩,
  ⟨"parse_int_env", false, .skip⟩,
  ⟨"parse_private_content", false, any [.call 1, .call 35, .call 368, .call 381]⟩,
  ⟨"parse_string_array", false, .skip⟩,
  ⟨"parse_tlv", false, any [.call 69]⟩,
  ⟨"parse_uint32_env", false, .skip⟩,
  ⟨"random_timestamp_past_two_days", false, .skip⟩,
  ⟨"randomize_timestamp", false, .skip⟩,
  ⟨"secure_wipe", true, .skip⟩,
  ⟨"serialize_for_id", false, any [.call 37]⟩,
  ⟨"service_thread_func", true, .skip⟩,
  ⟨"set_string_field", false, .skip⟩,
  ⟨"skip_json_whitespace", false, any [.call 61]⟩,
  ⟨"skip_ws_and_colon", false, .skip⟩,
  ⟨"store32_le", false, .skip⟩,
  ⟨"str_tolower", false, .skip⟩,
  ⟨"tag_arena_alloc", false, .skip⟩,
  ⟨"tag_arena_create", false, .skip⟩,
  ⟨"tag_arena_destroy", false, .skip⟩,
  ⟨"unlock_queue_mutex", false, .skip⟩,
  ⟨"unpad_plaintext", false, any [.call 16, .call 88]⟩,
  ⟨"url_decode", false, .skip⟩,
  ⟨"validate_subscription_id", false, .skip⟩,
  ⟨"xchacha20_poly1305_decrypt", false, any [.call 49, .call 377]⟩,
  ⟨"xchacha20_poly1305_encrypt", false, any [.call 49, .call 377]⟩,
  ⟨"zero_bits", false, .skip⟩
]

end Nostr.Shared

import Verif.Build.Model

/-! # The names of the library

Every function of `/repo/src/*.c` that a public header declares or that the code uses, and the four shared
variables (`nc_ctx`, `secp256k1_ctx`, `BECH32_CHARSET`, `BECH32_GENERATOR`), with all definitions and uses, grouped
by the file of the first definition. The last group has one name for each library that can be missing; its "definition"
is the library itself, linked if the variable is on (CMakeLists.txt:805-920).

The tables were written by a script from the text of the sources (`tools/names.py`). A function is declared in
include/nostr.h, include/nostr_relay_protocol.h or include/nostr_features.h.in; all these declarations are
unconditional. Conditions on other macros than those of the model (compilers, libc versions) are taken as true, for
both branches. Macros, types and fields are not in the tables. -/

namespace Nostr.Build

/-- Names first defined in src/bech32.c. -/
def names_bech32 : List Name := [
  { name := "BECH32_CHARSET", declared := none,
    defs := [⟨.bech32, 10, (d .encoding), false, .works⟩],
    refs := [⟨.bech32, 112, (d .encoding)⟩,
      ⟨.nip21, 89, (d .encoding)⟩,
      ⟨.nip49, 307, (d .nip49)⟩] },
  { name := "BECH32_GENERATOR", declared := none,
    defs := [⟨.bech32, 12, (d .encoding), false, .works⟩],
    refs := [⟨.bech32, 20, (d .encoding)⟩] },
  { name := "bech32_polymod", declared := none,
    defs := [⟨.bech32, 14, (d .encoding), false, .works⟩],
    refs := [⟨.bech32, 54, (d .encoding)⟩] },
  { name := "bech32_hrp_expand", declared := none,
    defs := [⟨.bech32, 26, (d .encoding), false, .works⟩],
    refs := [⟨.bech32, 44, (d .encoding)⟩] },
  { name := "bech32_verify_checksum", declared := none,
    defs := [⟨.bech32, 42, (d .encoding), false, .works⟩],
    refs := [⟨.bech32, 191, (d .encoding)⟩,
      ⟨.nip21, 42, (d .encoding)⟩,
      ⟨.nip49, 234, (d .nip49)⟩] },
  { name := "bech32_create_checksum", declared := none,
    defs := [⟨.bech32, 59, (d .encoding), false, .works⟩],
    refs := [⟨.bech32, 134, (d .encoding)⟩,
      ⟨.nip21, 82, (d .encoding)⟩,
      ⟨.nip49, 301, (d .nip49)⟩] },
  { name := "bech32_convert_bits", declared := none,
    defs := [⟨.bech32, 80, (d .encoding), false, .works⟩],
    refs := [⟨.bech32, 128, (d .encoding)⟩,
      ⟨.nip21, 51, (d .encoding)⟩,
      ⟨.nip49, 238, (d .nip49)⟩] },
  { name := "bech32_charset_decode", declared := none,
    defs := [⟨.bech32, 110, (d .encoding), false, .works⟩],
    refs := [⟨.bech32, 184, (d .encoding)⟩,
      ⟨.nip21, 34, (d .encoding)⟩,
      ⟨.nip49, 227, (d .nip49)⟩] },
  { name := "nostr_key_to_bech32", declared := some "include/nostr.h:498",
    defs := [⟨.bech32, 117, (d .encoding), false, .works⟩,
      ⟨.bech32, 350, (.not (d .encoding)), false, .notSupported⟩],
    refs := [⟨.nip21, 467, (d .encoding)⟩] },
  { name := "nostr_key_from_bech32", declared := some "include/nostr.h:506",
    defs := [⟨.bech32, 153, (d .encoding), false, .works⟩,
      ⟨.bech32, 355, (.not (d .encoding)), false, .notSupported⟩],
    refs := [⟨.nip21, 422, (d .encoding)⟩] },
  { name := "nostr_privkey_to_bech32", declared := some "include/nostr.h:515",
    defs := [⟨.bech32, 205, (d .encoding), false, .works⟩],
    refs := [⟨.nip21, 470, (d .encoding)⟩] },
  { name := "nostr_privkey_from_bech32", declared := some "include/nostr.h:523",
    defs := [⟨.bech32, 239, (d .encoding), false, .works⟩],
    refs := [⟨.nip21, 427, (d .encoding)⟩] },
  { name := "nostr_event_id_to_bech32", declared := some "include/nostr.h:532",
    defs := [⟨.bech32, 276, (d .encoding), false, .works⟩],
    refs := [⟨.nip21, 473, (d .encoding)⟩] },
  { name := "nostr_event_id_from_bech32", declared := some "include/nostr.h:540",
    defs := [⟨.bech32, 310, (d .encoding), false, .works⟩],
    refs := [⟨.nip21, 432, (d .encoding)⟩] } ]

/-- Names first defined in src/config.c. -/
def names_config : List Name := [
  { name := "config_init_lock_callback", declared := none,
    defs := [⟨.config, 23, (.and (d .threading) (d .win32)), true, .works⟩],
    refs := [⟨.config, 38, (.and (d .threading) (d .win32))⟩] },
  { name := "lock_config", declared := none,
    defs := [⟨.config, 35, .tt, true, .works⟩],
    refs := [⟨.config, 178, .tt⟩] },
  { name := "unlock_config", declared := none,
    defs := [⟨.config, 46, .tt, true, .works⟩],
    refs := [⟨.config, 180, .tt⟩] },
  { name := "nostr_config_get_defaults", declared := some "include/nostr.h:242",
    defs := [⟨.config, 56, .tt, false, .works⟩],
    refs := [⟨.config, 211, .tt⟩] },
  { name := "parse_uint32_env", declared := none,
    defs := [⟨.config, 76, .tt, true, .works⟩],
    refs := [⟨.config, 101, .tt⟩] },
  { name := "parse_int_env", declared := none,
    defs := [⟨.config, 87, .tt, true, .works⟩],
    refs := [⟨.config, 111, .tt⟩] },
  { name := "nostr_config_load_env", declared := some "include/nostr.h:249",
    defs := [⟨.config, 98, .tt, false, .works⟩],
    refs := [⟨.config, 216, .tt⟩] },
  { name := "nostr_config_validate", declared := some "include/nostr.h:256",
    defs := [⟨.config, 118, .tt, false, .works⟩],
    refs := [⟨.config, 204, .tt⟩] },
  { name := "nostr_config_get_current", declared := some "include/nostr.h:263",
    defs := [⟨.config, 177, .tt, false, .works⟩],
    refs := [⟨.event, 140, .tt⟩,
      ⟨.event, 510, (d .jsonEnhanced)⟩,
      ⟨.nip44, 68, (d .cryptoNoscrypt)⟩,
      ⟨.nip47_session, 91, .tt⟩] },
  { name := "nostr_init_with_config", declared := some "include/nostr.h:235",
    defs := [⟨.config, 193, .tt, false, .works⟩],
    refs := [] },
  { name := "nostr_config_set_callback", declared := some "include/nostr.h:279",
    defs := [⟨.config, 233, .tt, false, .works⟩],
    refs := [] },
  { name := "nostr_config_update", declared := some "include/nostr.h:286",
    defs := [⟨.config, 241, .tt, false, .works⟩],
    refs := [] } ]

/-- Names first defined in src/event.c. -/
def names_event : List Name := [
  { name := "event_sha256", declared := none,
    defs := [⟨.event, 37, .tt, true, .works⟩],
    refs := [⟨.event, 378, .tt⟩] },
  { name := "tag_arena_create", declared := none,
    defs := [⟨.event, 45, .tt, true, .works⟩],
    refs := [⟨.event, 98, .tt⟩,
      ⟨.event, 474, (d .jsonEnhanced)⟩] },
  { name := "tag_arena_destroy", declared := none,
    defs := [⟨.event, 67, .tt, true, .works⟩],
    refs := [⟨.event, 114, .tt⟩] },
  { name := "tag_arena_alloc", declared := none,
    defs := [⟨.event, 76, .tt, true, .works⟩],
    refs := [⟨.event, 205, .tt⟩] },
  { name := "nostr_event_create", declared := some "include/nostr.h:547",
    defs := [⟨.event, 87, .tt, false, .works⟩],
    refs := [⟨.nip17, 64, (d .nip17)⟩,
      ⟨.nip18, 47, (d .nip18)⟩,
      ⟨.nip25, 44, (d .nip25)⟩,
      ⟨.nip46, 114, (.and (d .nip46) (.and (d .nip44) (d .haveCjson)))⟩,
      ⟨.nip47, 423, (d .nip47)⟩,
      ⟨.nip51, 476, (d .nip51)⟩,
      ⟨.nip59, 62, (d .nip59)⟩,
      ⟨.nip65, 149, (d .nip65)⟩,
      ⟨.zap, 51, (d .nip57)⟩] },
  { name := "nostr_event_destroy", declared := some "include/nostr.h:553",
    defs := [⟨.event, 107, .tt, false, .works⟩],
    refs := [⟨.event, 483, (d .jsonEnhanced)⟩,
      ⟨.nip17, 75, (d .nip17)⟩,
      ⟨.nip17, 137, (.and (d .nip17) (d .cryptoNoscrypt))⟩,
      ⟨.nip17, 149, (.and (d .nip17) (.not (d .cryptoNoscrypt)))⟩,
      ⟨.nip18, 32, (d .nip18)⟩,
      ⟨.nip25, 30, (d .nip25)⟩,
      ⟨.nip46, 124, (.and (d .nip46) (.and (d .nip44) (d .haveCjson)))⟩,
      ⟨.nip47, 439, (.and (d .nip47) (d .cryptoNoscrypt))⟩,
      ⟨.nip47, 448, (.and (d .nip47) (.not (d .cryptoNoscrypt)))⟩,
      ⟨.nip47, 467, (d .nip47)⟩,
      ⟨.nip47, 505, (.and (d .nip47) (d .haveCjson))⟩,
      ⟨.nip47, 513, (.and (d .nip47) (.not (d .haveCjson)))⟩,
      ⟨.nip51, 567, (d .nip51)⟩,
      ⟨.nip59, 79, (.and (d .nip59) (d .cryptoNoscrypt))⟩,
      ⟨.nip59, 90, (.and (d .nip59) (.not (d .cryptoNoscrypt)))⟩,
      ⟨.nip59, 114, (d .nip59)⟩,
      ⟨.nip65, 16, (d .nip65)⟩,
      ⟨.relay, 625, .tt⟩,
      ⟨.relay_message, 265, .tt⟩,
      ⟨.zap, 61, (d .nip57)⟩] },
  { name := "nostr_event_set_content", declared := some "include/nostr.h:561",
    defs := [⟨.event, 119, .tt, false, .works⟩],
    refs := [⟨.nip17, 73, (d .nip17)⟩,
      ⟨.nip18, 53, (d .nip18)⟩,
      ⟨.nip25, 50, (d .nip25)⟩,
      ⟨.nip46, 121, (.and (d .nip46) (.and (d .nip44) (d .haveCjson)))⟩,
      ⟨.nip47, 526, (d .nip47)⟩,
      ⟨.nip51, 552, (.and (d .nip51) (d .nip44))⟩,
      ⟨.nip51, 560, (d .nip51)⟩,
      ⟨.nip59, 118, (d .nip59)⟩,
      ⟨.nip65, 157, (d .nip65)⟩,
      ⟨.zap, 59, (d .nip57)⟩] },
  { name := "nostr_event_add_tag", declared := some "include/nostr.h:570",
    defs := [⟨.event, 134, .tt, false, .works⟩],
    refs := [⟨.event, 563, (d .jsonEnhanced)⟩,
      ⟨.nip10, 172, (d .nip10)⟩,
      ⟨.nip13, 191, (d .nip13)⟩,
      ⟨.nip17, 265, (d .nip17)⟩,
      ⟨.nip18, 60, (d .nip18)⟩,
      ⟨.nip25, 57, (d .nip25)⟩,
      ⟨.nip26, 370, (d .nip26)⟩,
      ⟨.nip46, 132, (.and (d .nip46) (.and (d .nip44) (d .haveCjson)))⟩,
      ⟨.nip47, 481, (d .nip47)⟩,
      ⟨.nip51, 486, (d .nip51)⟩,
      ⟨.nip59, 192, (d .nip59)⟩,
      ⟨.nip65, 173, (d .nip65)⟩,
      ⟨.zap, 72, (d .nip57)⟩] },
  { name := "escape_json_string", declared := none,
    defs := [⟨.event, 228, (.not (d .jsonEnhanced)), true, .works⟩],
    refs := [⟨.event, 319, (.not (d .jsonEnhanced))⟩] },
  { name := "serialize_for_id", declared := none,
    defs := [⟨.event, 283, .tt, true, .works⟩],
    refs := [⟨.event, 372, .tt⟩] },
  { name := "nostr_event_compute_id", declared := some "include/nostr.h:577",
    defs := [⟨.event, 366, .tt, false, .works⟩],
    refs := [⟨.event, 618, (d .haveNoscrypt)⟩,
      ⟨.event, 666, (.and (.not (d .haveNoscrypt)) (d .haveSecp))⟩,
      ⟨.nip13, 230, (d .nip13)⟩,
      ⟨.nip13, 315, (.and (.and (d .nip13) (d .threading)) (d .win32))⟩,
      ⟨.nip13, 377, (.and (.and (d .nip13) (d .threading)) (.not (d .win32)))⟩,
      ⟨.nip17, 80, (d .nip17)⟩,
      ⟨.nip46, 134, (.and (d .nip46) (.and (d .nip44) (d .haveCjson)))⟩,
      ⟨.nip47, 539, (d .nip47)⟩,
      ⟨.nip59, 126, (d .nip59)⟩,
      ⟨.relay_protocol, 484, .tt⟩] },
  { name := "nostr_event_to_json", declared := some "include/nostr.h:600",
    defs := [⟨.event, 385, .tt, false, .works⟩],
    refs := [⟨.nip17, 103, (d .nip17)⟩,
      ⟨.nip59, 56, (d .nip59)⟩,
      ⟨.relay, 386, .tt⟩,
      ⟨.relay_message, 409, (d .jsonEnhanced)⟩,
      ⟨.relay_protocol, 376, (d .jsonEnhanced)⟩] },
  { name := "hex_to_bytes", declared := none,
    defs := [⟨.event, 442, .tt, true, .works⟩],
    refs := [⟨.event, 482, (d .jsonEnhanced)⟩] },
  { name := "nostr_event_from_json", declared := some "include/nostr.h:608",
    defs := [⟨.event, 456, .tt, false, .works⟩],
    refs := [⟨.nip17, 418, (d .nip17)⟩,
      ⟨.nip59, 246, (d .nip59)⟩,
      ⟨.relay, 621, .tt⟩,
      ⟨.relay_message, 124, (d .jsonEnhanced)⟩,
      ⟨.relay_protocol, 297, (d .jsonEnhanced)⟩,
      ⟨.zap, 163, (d .nip57)⟩] },
  { name := "nostr_event_sign", declared := some "include/nostr.h:585",
    defs := [⟨.event, 593, .tt, false, .works⟩],
    refs := [⟨.nip17, 187, (d .nip17)⟩,
      ⟨.nip46, 141, (.and (d .nip46) (.and (d .nip44) (d .haveCjson)))⟩,
      ⟨.nip47, 546, (d .nip47)⟩,
      ⟨.nip59, 132, (d .nip59)⟩] },
  { name := "nostr_event_verify", declared := some "include/nostr.h:592",
    defs := [⟨.event, 694, .tt, false, .works⟩],
    refs := [⟨.nip17, 430, (d .nip17)⟩,
      ⟨.nip59, 259, (d .nip59)⟩,
      ⟨.relay_protocol, 499, .tt⟩,
      ⟨.zap, 263, (d .nip57)⟩] } ]

/-- Names first defined in src/features.c. -/
def names_features : List Name := [
  { name := "nostr_feature_nip_supported", declared := some "include/nostr_features.h.in:89",
    defs := [⟨.features, 5, .tt, false, .works⟩],
    refs := [] },
  { name := "nostr_feature_relay_available", declared := some "include/nostr_features.h.in:95",
    defs := [⟨.features, 69, .tt, false, .works⟩],
    refs := [] },
  { name := "nostr_feature_hd_keys_available", declared := some "include/nostr_features.h.in:101",
    defs := [⟨.features, 78, .tt, false, .works⟩],
    refs := [] },
  { name := "nostr_feature_json_enhanced_available", declared := some "include/nostr_features.h.in:107",
    defs := [⟨.features, 87, .tt, false, .works⟩],
    refs := [] },
  { name := "nostr_feature_relay_protocol_available", declared := some "include/nostr_features.h.in:113",
    defs := [⟨.features, 96, .tt, false, .works⟩],
    refs := [] },
  { name := "nostr_feature_list_enabled", declared := some "include/nostr_features.h.in:119",
    defs := [⟨.features, 105, .tt, false, .works⟩],
    refs := [] },
  { name := "nostr_feature_crypto_backend_info", declared := some "include/nostr_features.h.in:125",
    defs := [⟨.features, 190, .tt, false, .works⟩],
    refs := [] } ]

/-- Names first defined in src/hd_key.c. -/
def names_hd_key : List Name := [
  { name := "nostr_hd_key_from_seed", declared := some "include/nostr.h:426",
    defs := [⟨.hd_key, 37, (d .hdKeys), false, .works⟩,
      ⟨.hd_key, 602, (.not (d .hdKeys)), false, .notSupported⟩],
    refs := [⟨.hd_key, 578, (d .hdKeys)⟩] },
  { name := "nostr_hd_key_derive", declared := some "include/nostr.h:435",
    defs := [⟨.hd_key, 101, (d .hdKeys), false, .works⟩,
      ⟨.hd_key, 607, (.not (d .hdKeys)), false, .notSupported⟩],
    refs := [⟨.hd_key, 258, (d .hdKeys)⟩] },
  { name := "nostr_hd_key_derive_path", declared := some "include/nostr.h:444",
    defs := [⟨.hd_key, 208, (d .hdKeys), false, .works⟩,
      ⟨.hd_key, 612, (.not (d .hdKeys)), false, .notSupported⟩],
    refs := [⟨.hd_key, 588, (d .hdKeys)⟩] },
  { name := "nostr_hd_key_to_keypair", declared := some "include/nostr.h:452",
    defs := [⟨.hd_key, 281, (d .hdKeys), false, .works⟩,
      ⟨.hd_key, 617, (.not (d .hdKeys)), false, .notSupported⟩],
    refs := [⟨.hd_key, 594, (d .hdKeys)⟩] },
  { name := "bip39_word_index", declared := none,
    defs := [⟨.hd_key, 296, (d .hdKeys), true, .works⟩],
    refs := [⟨.hd_key, 397, (d .hdKeys)⟩] },
  { name := "nostr_mnemonic_generate", declared := some "include/nostr.h:461",
    defs := [⟨.hd_key, 315, (d .hdKeys), false, .works⟩,
      ⟨.hd_key, 622, (.not (d .hdKeys)), false, .notSupported⟩],
    refs := [] },
  { name := "nostr_mnemonic_validate", declared := some "include/nostr.h:468",
    defs := [⟨.hd_key, 379, (d .hdKeys), false, .works⟩,
      ⟨.hd_key, 627, (.not (d .hdKeys)), false, .notSupported⟩],
    refs := [⟨.hd_key, 484, (d .hdKeys)⟩] },
  { name := "nfkd_normalize", declared := none,
    defs := [⟨.hd_key, 461, (.and (d .hdKeys) (d .haveUtf8proc)), true, .works⟩],
    refs := [⟨.hd_key, 490, (.and (d .hdKeys) (d .haveUtf8proc))⟩] },
  { name := "is_ascii_string", declared := none,
    defs := [⟨.hd_key, 468, (.and (d .hdKeys) (.not (d .haveUtf8proc))), true, .works⟩],
    refs := [⟨.hd_key, 535, (.and (d .hdKeys) (.not (d .haveUtf8proc)))⟩] },
  { name := "nostr_mnemonic_to_seed", declared := some "include/nostr.h:477",
    defs := [⟨.hd_key, 478, (d .hdKeys), false, .works⟩,
      ⟨.hd_key, 632, (.not (d .hdKeys)), false, .notSupported⟩],
    refs := [⟨.hd_key, 572, (d .hdKeys)⟩] },
  { name := "nostr_mnemonic_to_keypair", declared := some "include/nostr.h:487",
    defs := [⟨.hd_key, 564, (d .hdKeys), false, .works⟩,
      ⟨.hd_key, 637, (.not (d .hdKeys)), false, .notSupported⟩],
    refs := [] } ]

/-- Names first defined in src/key.c. -/
def names_key : List Name := [
  { name := "nc_ctx", declared := none,
    defs := [⟨.key, 32, (d .haveNoscrypt), false, .works⟩],
    refs := [⟨.event, 600, (d .haveNoscrypt)⟩,
      ⟨.hd_key, 61, (.and (d .hdKeys) (d .haveNoscrypt))⟩,
      ⟨.key, 221, (d .haveNoscrypt)⟩,
      ⟨.key, 243, (.and (d .haveSecp) (d .haveNoscrypt))⟩,
      ⟨.nip17, 136, (.and (d .nip17) (d .cryptoNoscrypt))⟩,
      ⟨.nip26, 213, (.and (d .nip26) (d .haveNoscrypt))⟩,
      ⟨.nip44, 268, (d .cryptoNoscrypt)⟩,
      ⟨.nip47, 437, (.and (d .nip47) (d .cryptoNoscrypt))⟩,
      ⟨.nip59, 78, (.and (d .nip59) (d .cryptoNoscrypt))⟩] },
  { name := "secp256k1_ctx", declared := none,
    defs := [⟨.key, 35, (d .haveSecp), false, .works⟩],
    refs := [⟨.event, 640, (.and (.not (d .haveNoscrypt)) (d .haveSecp))⟩,
      ⟨.hd_key, 74, (.and (d .hdKeys) (.not (d .haveNoscrypt)))⟩,
      ⟨.hd_key, 118, (d .hdKeys)⟩,
      ⟨.key, 240, (d .haveSecp)⟩,
      ⟨.key, 340, (.and (.not (d .haveNoscrypt)) (d .haveSecp))⟩,
      ⟨.nip17, 148, (.and (d .nip17) (.not (d .cryptoNoscrypt)))⟩,
      ⟨.nip26, 236, (.and (.and (d .nip26) (.not (d .haveNoscrypt))) (d .haveSecp))⟩,
      ⟨.nip47, 445, (.and (d .nip47) (.not (d .cryptoNoscrypt)))⟩,
      ⟨.nip59, 89, (.and (d .nip59) (.not (d .cryptoNoscrypt)))⟩] },
  { name := "init_lock_callback", declared := none,
    defs := [⟨.key, 44, (.and (d .threading) (d .win32)), true, .works⟩],
    refs := [⟨.key, 101, (.and (d .threading) (d .win32))⟩] },
  { name := "init_rng_lock_callback", declared := none,
    defs := [⟨.key, 67, (.and (d .threading) (d .win32)), true, .works⟩],
    refs := [⟨.key, 80, (.and (d .threading) (d .win32))⟩] },
  { name := "lock_rng", declared := none,
    defs := [⟨.key, 77, .tt, true, .works⟩],
    refs := [⟨.key, 166, (d .haveMbedtls)⟩] },
  { name := "unlock_rng", declared := none,
    defs := [⟨.key, 88, .tt, true, .works⟩],
    refs := [⟨.key, 175, (d .haveMbedtls)⟩] },
  { name := "lock_ctx_init", declared := none,
    defs := [⟨.key, 98, .tt, true, .works⟩],
    refs := [⟨.key, 213, .tt⟩] },
  { name := "unlock_ctx_init", declared := none,
    defs := [⟨.key, 109, .tt, true, .works⟩],
    refs := [⟨.key, 216, .tt⟩,
      ⟨.key, 223, (d .haveNoscrypt)⟩,
      ⟨.key, 246, (d .haveSecp)⟩,
      ⟨.key, 252, (.and (.not (d .haveNoscrypt)) (.not (d .haveSecp)))⟩] },
  { name := "nostr_random_bytes", declared := some "include/nostr.h:730",
    defs := [⟨.key, 125, .tt, false, .works⟩],
    refs := [⟨.event, 625, (d .haveNoscrypt)⟩,
      ⟨.event, 671, (.and (.not (d .haveNoscrypt)) (d .haveSecp))⟩,
      ⟨.hd_key, 334, (d .hdKeys)⟩,
      ⟨.key, 228, (d .haveNoscrypt)⟩,
      ⟨.key, 335, (.and (.not (d .haveNoscrypt)) (d .haveSecp))⟩,
      ⟨.nip26, 221, (.and (d .nip26) (d .haveNoscrypt))⟩,
      ⟨.nip26, 251, (.and (.and (d .nip26) (.not (d .haveNoscrypt))) (d .haveSecp))⟩] },
  { name := "nostr_init", declared := some "include/nostr.h:227",
    defs := [⟨.key, 211, .tt, false, .works⟩],
    refs := [⟨.config, 230, .tt⟩,
      ⟨.event, 601, (d .haveNoscrypt)⟩,
      ⟨.event, 641, (.and (.not (d .haveNoscrypt)) (d .haveSecp))⟩,
      ⟨.key, 290, .tt⟩,
      ⟨.nip26, 196, (d .nip26)⟩,
      ⟨.nip44, 269, (d .cryptoNoscrypt)⟩] },
  { name := "nostr_cleanup", declared := some "include/nostr.h:291",
    defs := [⟨.key, 261, .tt, false, .works⟩],
    refs := [] },
  { name := "nostr_key_generate", declared := some "include/nostr.h:299",
    defs := [⟨.key, 283, .tt, false, .works⟩],
    refs := [⟨.key, 511, .tt⟩,
      ⟨.nip17, 211, (d .nip17)⟩,
      ⟨.nip59, 139, (d .nip59)⟩] },
  { name := "nostr_key_from_hex", declared := some "include/nostr.h:382",
    defs := [⟨.key, 379, .tt, false, .works⟩],
    refs := [] },
  { name := "nostr_key_to_hex", declared := some "include/nostr.h:391",
    defs := [⟨.key, 397, .tt, false, .works⟩],
    refs := [⟨.key, 618, .tt⟩,
      ⟨.nip46, 130, (.and (d .nip46) (.and (d .nip44) (d .haveCjson)))⟩,
      ⟨.zap, 97, (d .nip57)⟩] },
  { name := "nostr_privkey_from_hex", declared := some "include/nostr.h:399",
    defs := [⟨.key, 410, .tt, false, .works⟩],
    refs := [⟨.key, 526, .tt⟩] },
  { name := "nostr_privkey_to_hex", declared := some "include/nostr.h:408",
    defs := [⟨.key, 428, .tt, false, .works⟩],
    refs := [⟨.key, 609, .tt⟩] },
  { name := "nostr_key_ecdh", declared := some "include/nostr.h:417",
    defs := [⟨.key, 441, .tt, false, .works⟩],
    refs := [⟨.nip44, 519, (.and (d .cryptoNoscrypt) (.not (d .haveMbedtls)))⟩] },
  { name := "nostr_keypair_init", declared := some "include/nostr.h:306",
    defs := [⟨.key, 493, .tt, false, .works⟩],
    refs := [] },
  { name := "nostr_keypair_generate", declared := some "include/nostr.h:313",
    defs := [⟨.key, 505, .tt, false, .works⟩],
    refs := [] },
  { name := "nostr_keypair_from_private_hex", declared := some "include/nostr.h:321",
    defs := [⟨.key, 520, .tt, false, .works⟩],
    refs := [] },
  { name := "nostr_keypair_from_private_key", declared := some "include/nostr.h:329",
    defs := [⟨.key, 534, .tt, false, .works⟩],
    refs := [⟨.key, 531, .tt⟩] },
  { name := "nostr_keypair_export_private_hex", declared := some "include/nostr.h:338",
    defs := [⟨.key, 603, .tt, false, .works⟩],
    refs := [] },
  { name := "nostr_keypair_export_public_hex", declared := some "include/nostr.h:347",
    defs := [⟨.key, 612, .tt, false, .works⟩],
    refs := [] },
  { name := "nostr_keypair_validate", declared := some "include/nostr.h:354",
    defs := [⟨.key, 621, .tt, false, .works⟩],
    refs := [] },
  { name := "nostr_keypair_public_key", declared := some "include/nostr.h:361",
    defs := [⟨.key, 686, .tt, false, .works⟩],
    refs := [⟨.nip51, 536, (.and (d .nip51) (d .nip44))⟩] },
  { name := "nostr_keypair_private_key", declared := some "include/nostr.h:368",
    defs := [⟨.key, 695, .tt, false, .works⟩],
    refs := [⟨.nip51, 535, (.and (d .nip51) (d .nip44))⟩] },
  { name := "nostr_keypair_destroy", declared := some "include/nostr.h:374",
    defs := [⟨.key, 704, .tt, false, .works⟩],
    refs := [] },
  { name := "nostr_error_string", declared := some "include/nostr.h:689",
    defs := [⟨.key, 715, .tt, false, .works⟩],
    refs := [] } ]

/-- Names first defined in src/nip05.c. -/
def names_nip05 : List Name := [
  { name := "str_tolower", declared := none,
    defs := [⟨.nip05, 16, (d .nip05), true, .works⟩],
    refs := [⟨.nip05, 120, (d .nip05)⟩] },
  { name := "is_hex_char", declared := none,
    defs := [⟨.nip05, 22, (d .nip05), true, .works⟩],
    refs := [⟨.nip05, 203, (d .nip05)⟩] },
  { name := "is_valid_local_part", declared := none,
    defs := [⟨.nip05, 26, (d .nip05), true, .works⟩],
    refs := [⟨.nip05, 113, (d .nip05)⟩] },
  { name := "is_valid_domain", declared := none,
    defs := [⟨.nip05, 38, (d .nip05), true, .works⟩],
    refs := [⟨.nip05, 114, (d .nip05)⟩] },
  { name := "skip_ws_and_colon", declared := none,
    defs := [⟨.nip05, 55, (d .nip05), true, .works⟩],
    refs := [⟨.nip05, 186, (d .nip05)⟩] },
  { name := "is_escaped_quote", declared := none,
    defs := [⟨.nip05, 61, (d .nip05), true, .works⟩],
    refs := [⟨.nip05, 83, (d .nip05)⟩] },
  { name := "json_strstr", declared := none,
    defs := [⟨.nip05, 73, (d .nip05), true, .works⟩],
    refs := [⟨.nip05, 183, (d .nip05)⟩] },
  { name := "contains_unicode_escape", declared := none,
    defs := [⟨.nip05, 90, (d .nip05), true, .works⟩],
    refs := [⟨.nip05, 98, (d .nip05)⟩] },
  { name := "is_valid_relay_url", declared := none,
    defs := [⟨.nip05, 97, (d .nip05), true, .works⟩,
      ⟨.nip21, 100, (d .encoding), true, .works⟩,
      ⟨.nip65, 57, (d .nip65), true, .works⟩],
    refs := [⟨.nip05, 256, (d .nip05)⟩,
      ⟨.nip21, 137, (d .encoding)⟩,
      ⟨.nip65, 95, (d .nip65)⟩] },
  { name := "nostr_nip05_parse", declared := some "include/nostr.h:1374",
    defs := [⟨.nip05, 102, (d .nip05), false, .works⟩,
      ⟨.nip05, 352, (.not (d .nip05)), false, .notSupported⟩],
    refs := [⟨.nip05, 294, (d .nip05)⟩] },
  { name := "nostr_nip05_build_url", declared := some "include/nostr.h:1378",
    defs := [⟨.nip05, 138, (d .nip05), false, .works⟩,
      ⟨.nip05, 358, (.not (d .nip05)), false, .notSupported⟩],
    refs := [⟨.nip05, 298, (d .nip05)⟩] },
  { name := "nostr_nip05_parse_response", declared := some "include/nostr.h:1382",
    defs := [⟨.nip05, 167, (d .nip05), false, .works⟩,
      ⟨.nip05, 364, (.not (d .nip05)), false, .notSupported⟩],
    refs := [⟨.nip05, 322, (d .nip05)⟩] },
  { name := "nostr_nip05_free_relays", declared := some "include/nostr.h:1387",
    defs := [⟨.nip05, 277, (d .nip05), false, .works⟩,
      ⟨.nip05, 371, (.not (d .nip05)), false, .nothing⟩],
    refs := [⟨.nip05, 262, (d .nip05)⟩] },
  { name := "nostr_nip05_verify", declared := some "include/nostr.h:1390",
    defs := [⟨.nip05, 285, (d .nip05), false, .works⟩,
      ⟨.nip05, 375, (.not (d .nip05)), false, .notSupported⟩],
    refs := [] } ]

/-- Names first defined in src/nip10.c. -/
def names_nip10 : List Name := [
  { name := "copy_bounded", declared := none,
    defs := [⟨.nip10, 15, (d .nip10), true, .works⟩],
    refs := [⟨.nip10, 39, (d .nip10)⟩] },
  { name := "parse_e_tag", declared := none,
    defs := [⟨.nip10, 28, (d .nip10), true, .works⟩],
    refs := [⟨.nip10, 78, (d .nip10)⟩] },
  { name := "collect_e_tags", declared := none,
    defs := [⟨.nip10, 51, (d .nip10), true, .works⟩],
    refs := [⟨.nip10, 119, (d .nip10)⟩] },
  { name := "copy_id_and_relay", declared := none,
    defs := [⟨.nip10, 94, (d .nip10), true, .works⟩],
    refs := [⟨.nip10, 125, (d .nip10)⟩] },
  { name := "find_e_tag_by_marker", declared := none,
    defs := [⟨.nip10, 105, (d .nip10), true, .works⟩],
    refs := [⟨.nip10, 150, (d .nip10)⟩] },
  { name := "nostr_event_get_root_id", declared := some "include/nostr.h:1081",
    defs := [⟨.nip10, 147, (d .nip10), false, .works⟩,
      ⟨.nip10, 226, (.not (d .nip10)), false, .notSupported⟩],
    refs := [] },
  { name := "nostr_event_get_reply_id", declared := some "include/nostr.h:1093",
    defs := [⟨.nip10, 153, (d .nip10), false, .works⟩,
      ⟨.nip10, 234, (.not (d .nip10)), false, .notSupported⟩],
    refs := [⟨.nip10, 217, (d .nip10)⟩] },
  { name := "add_e_tag", declared := none,
    defs := [⟨.nip10, 159, (d .nip10), true, .works⟩],
    refs := [⟨.nip10, 185, (d .nip10)⟩] },
  { name := "nostr_event_add_reply_tags", declared := some "include/nostr.h:1107",
    defs := [⟨.nip10, 175, (d .nip10), false, .works⟩,
      ⟨.nip10, 242, (.not (d .nip10)), false, .notSupported⟩],
    refs := [] },
  { name := "nostr_event_add_mention_tag", declared := some "include/nostr.h:1118",
    defs := [⟨.nip10, 199, (d .nip10), false, .works⟩,
      ⟨.nip10, 251, (.not (d .nip10)), false, .notSupported⟩],
    refs := [] },
  { name := "nostr_event_is_reply", declared := some "include/nostr.h:1126",
    defs := [⟨.nip10, 209, (d .nip10), false, .works⟩,
      ⟨.nip10, 257, (.not (d .nip10)), false, .notSupported⟩],
    refs := [] } ]

/-- Names first defined in src/nip13.c. -/
def names_nip13 : List Name := [
  { name := "zero_bits", declared := none,
    defs := [⟨.nip13, 27, (d .nip13), true, .works⟩],
    refs := [⟨.nip13, 48, (d .nip13)⟩] },
  { name := "nostr_nip13_calculate_difficulty", declared := some "include/nostr.h:1034",
    defs := [⟨.nip13, 40, (d .nip13), false, .works⟩,
      ⟨.nip13, 560, (.not (d .nip13)), false, .minusOne⟩],
    refs := [⟨.nip13, 235, (d .nip13)⟩,
      ⟨.nip13, 321, (.and (.and (d .nip13) (d .threading)) (d .win32))⟩,
      ⟨.nip13, 383, (.and (.and (d .nip13) (d .threading)) (.not (d .win32)))⟩] },
  { name := "find_nonce_tag_index", declared := none,
    defs := [⟨.nip13, 56, (d .nip13), true, .works⟩],
    refs := [⟨.nip13, 154, (d .nip13)⟩,
      ⟨.nip13, 427, (.and (d .nip13) (d .threading))⟩] },
  { name := "arena_ensure_capacity", declared := none,
    defs := [⟨.nip13, 74, (d .nip13), true, .works⟩],
    refs := [⟨.nip13, 121, (d .nip13)⟩] },
  { name := "arena_strdup", declared := none,
    defs := [⟨.nip13, 113, (d .nip13), true, .works⟩],
    refs := [⟨.nip13, 160, (d .nip13)⟩] },
  { name := "nostr_nip13_add_nonce_tag", declared := some "include/nostr.h:1060",
    defs := [⟨.nip13, 131, (d .nip13), false, .works⟩,
      ⟨.nip13, 575, (.not (d .nip13)), false, .notSupported⟩],
    refs := [⟨.nip13, 209, (d .nip13)⟩,
      ⟨.nip13, 307, (.and (.and (d .nip13) (d .threading)) (d .win32))⟩,
      ⟨.nip13, 369, (.and (.and (d .nip13) (d .threading)) (.not (d .win32)))⟩,
      ⟨.nip13, 429, (.and (d .nip13) (d .threading))⟩] },
  { name := "nostr_nip13_mine_event", declared := some "include/nostr.h:1043",
    defs := [⟨.nip13, 200, (d .nip13), false, .works⟩,
      ⟨.nip13, 565, (.not (d .nip13)), false, .notSupported⟩],
    refs := [⟨.nip13, 552, (.and (d .nip13) (.not (d .threading)))⟩] },
  { name := "nostr_nip13_verify_pow", declared := some "include/nostr.h:1051",
    defs := [⟨.nip13, 247, (d .nip13), false, .works⟩,
      ⟨.nip13, 570, (.not (d .nip13)), false, .notSupported⟩],
    refs := [] },
  { name := "mining_thread", declared := none,
    defs := [⟨.nip13, 292, (.and (.and (d .nip13) (d .threading)) (d .win32)), true, .works⟩,
      ⟨.nip13, 354, (.and (.and (d .nip13) (d .threading)) (.not (d .win32))), true, .works⟩],
    refs := [⟨.nip13, 458, (.and (.and (d .nip13) (d .threading)) (d .win32))⟩,
      ⟨.nip13, 514, (.and (.and (d .nip13) (d .threading)) (.not (d .win32)))⟩] },
  { name := "nostr_nip13_mine_event_threaded", declared := some "include/nostr.h:1070",
    defs := [⟨.nip13, 406, (.and (d .nip13) (d .threading)), false, .works⟩,
      ⟨.nip13, 548, (.and (d .nip13) (.not (d .threading))), false, .works⟩,
      ⟨.nip13, 580, (.not (d .nip13)), false, .notSupported⟩],
    refs := [] } ]

/-- Names first defined in src/nip17.c. -/
def names_nip17 : List Name := [
  { name := "random_timestamp_past_two_days", declared := none,
    defs := [⟨.nip17, 38, (d .nip17), true, .works⟩],
    refs := [⟨.nip17, 121, (d .nip17)⟩] },
  { name := "nostr_nip17_create_rumor", declared := some "include/nostr.h:831",
    defs := [⟨.nip17, 55, (d .nip17), false, .works⟩],
    refs := [⟨.nip17, 339, (d .nip17)⟩] },
  { name := "nostr_nip17_create_seal", declared := some "include/nostr.h:842",
    defs := [⟨.nip17, 92, (d .nip17), false, .works⟩],
    refs := [⟨.nip17, 382, (d .nip17)⟩] },
  { name := "nostr_nip17_create_gift_wrap", declared := some "include/nostr.h:852",
    defs := [⟨.nip17, 197, (d .nip17), false, .works⟩],
    refs := [⟨.nip17, 388, (d .nip17)⟩] },
  { name := "nostr_nip17_send_dm", declared := some "include/nostr.h:866",
    defs := [⟨.nip17, 292, (d .nip17), false, .works⟩,
      ⟨.nip17, 469, (.not (d .nip17)), false, .notSupported⟩],
    refs := [] },
  { name := "nostr_nip17_unwrap_dm", declared := some "include/nostr.h:878",
    defs := [⟨.nip17, 394, (d .nip17), false, .works⟩,
      ⟨.nip17, 476, (.not (d .nip17)), false, .notSupported⟩],
    refs := [] } ]

/-- Names first defined in src/nip18.c. -/
def names_nip18 : List Name := [
  { name := "is_valid_hex_string", declared := none,
    defs := [⟨.nip18, 16, (d .nip18), true, .works⟩,
      ⟨.nip25, 14, (d .nip25), true, .works⟩],
    refs := [⟨.nip18, 44, (d .nip18)⟩,
      ⟨.nip25, 41, (d .nip25)⟩] },
  { name := "cleanup_event", declared := none,
    defs := [⟨.nip18, 30, (d .nip18), true, .works⟩,
      ⟨.nip25, 28, (d .nip25), true, .works⟩,
      ⟨.nip65, 14, (d .nip65), true, .works⟩],
    refs := [⟨.nip18, 55, (d .nip18)⟩,
      ⟨.nip25, 52, (d .nip25)⟩,
      ⟨.nip65, 159, (d .nip65)⟩] },
  { name := "nostr_repost_create", declared := some "include/nostr.h:1186",
    defs := [⟨.nip18, 36, (d .nip18), false, .works⟩,
      ⟨.nip18, 289, (.not (d .nip18)), false, .notSupported⟩],
    refs := [] },
  { name := "copy_str_safe", declared := none,
    defs := [⟨.nip18, 108, (d .nip18), true, .works⟩,
      ⟨.nip25, 84, (d .nip25), true, .works⟩],
    refs := [⟨.nip18, 159, (d .nip18)⟩,
      ⟨.nip25, 107, (d .nip25)⟩] },
  { name := "nostr_repost_parse", declared := some "include/nostr.h:1203",
    defs := [⟨.nip18, 120, (d .nip18), false, .works⟩,
      ⟨.nip18, 299, (.not (d .nip18)), false, .notSupported⟩],
    refs := [] },
  { name := "is_bech32_char", declared := none,
    defs := [⟨.nip18, 168, (d .nip18), true, .works⟩],
    refs := [⟨.nip18, 182, (d .nip18)⟩] },
  { name := "find_nostr_uri", declared := none,
    defs := [⟨.nip18, 173, (d .nip18), true, .works⟩],
    refs := [⟨.nip18, 204, (d .nip18)⟩] },
  { name := "nostr_quote_tags_from_content", declared := some "include/nostr.h:1223",
    defs := [⟨.nip18, 192, (d .nip18), false, .works⟩,
      ⟨.nip18, 310, (.not (d .nip18)), false, .notSupported⟩],
    refs := [] } ]

/-- Names first defined in src/nip21.c. -/
def names_nip21 : List Name := [
  { name := "decode_bech32_to_bytes", declared := none,
    defs := [⟨.nip21, 15, (d .encoding), true, .works⟩],
    refs := [⟨.nip21, 249, (d .encoding)⟩] },
  { name := "encode_bytes_to_bech32", declared := none,
    defs := [⟨.nip21, 60, (d .encoding), true, .works⟩],
    refs := [⟨.nip21, 239, (d .encoding)⟩] },
  { name := "parse_tlv", declared := none,
    defs := [⟨.nip21, 111, (d .encoding), true, .works⟩],
    refs := [⟨.nip21, 253, (d .encoding)⟩] },
  { name := "build_tlv", declared := none,
    defs := [⟨.nip21, 179, (d .encoding), true, .works⟩],
    refs := [⟨.nip21, 233, (d .encoding)⟩] },
  { name := "nostr_nprofile_encode", declared := some "include/nostr.h:1284",
    defs := [⟨.nip21, 229, (d .encoding), false, .works⟩,
      ⟨.nip21, 533, (.not (d .encoding)), false, .notSupported⟩],
    refs := [⟨.nip21, 476, (d .encoding)⟩] },
  { name := "nostr_nprofile_decode", declared := some "include/nostr.h:1285",
    defs := [⟨.nip21, 242, (d .encoding), false, .works⟩,
      ⟨.nip21, 538, (.not (d .encoding)), false, .notSupported⟩],
    refs := [⟨.nip21, 437, (d .encoding)⟩] },
  { name := "free_relay_array", declared := none,
    defs := [⟨.nip21, 266, (d .encoding), true, .works⟩],
    refs := [⟨.nip21, 276, (d .encoding)⟩] },
  { name := "nostr_nprofile_free", declared := some "include/nostr.h:1286",
    defs := [⟨.nip21, 274, (d .encoding), false, .works⟩,
      ⟨.nip21, 543, (.not (d .encoding)), false, .nothing⟩],
    refs := [⟨.nip21, 259, (d .encoding)⟩] },
  { name := "nostr_nevent_encode", declared := some "include/nostr.h:1288",
    defs := [⟨.nip21, 279, (d .encoding), false, .works⟩,
      ⟨.nip21, 547, (.not (d .encoding)), false, .notSupported⟩],
    refs := [⟨.nip21, 479, (d .encoding)⟩] },
  { name := "nostr_nevent_decode", declared := some "include/nostr.h:1289",
    defs := [⟨.nip21, 293, (d .encoding), false, .works⟩,
      ⟨.nip21, 552, (.not (d .encoding)), false, .notSupported⟩],
    refs := [⟨.nip21, 442, (d .encoding)⟩] },
  { name := "nostr_nevent_free", declared := some "include/nostr.h:1290",
    defs := [⟨.nip21, 318, (d .encoding), false, .works⟩,
      ⟨.nip21, 557, (.not (d .encoding)), false, .nothing⟩],
    refs := [⟨.nip18, 250, (d .nip18)⟩,
      ⟨.nip21, 311, (d .encoding)⟩] },
  { name := "nostr_naddr_encode", declared := some "include/nostr.h:1292",
    defs := [⟨.nip21, 323, (d .encoding), false, .works⟩,
      ⟨.nip21, 561, (.not (d .encoding)), false, .notSupported⟩],
    refs := [⟨.nip21, 482, (d .encoding)⟩] },
  { name := "nostr_naddr_decode", declared := some "include/nostr.h:1293",
    defs := [⟨.nip21, 337, (d .encoding), false, .works⟩,
      ⟨.nip21, 566, (.not (d .encoding)), false, .notSupported⟩],
    refs := [⟨.nip21, 447, (d .encoding)⟩] },
  { name := "nostr_naddr_free", declared := some "include/nostr.h:1294",
    defs := [⟨.nip21, 368, (d .encoding), false, .works⟩,
      ⟨.nip21, 571, (.not (d .encoding)), false, .nothing⟩],
    refs := [⟨.nip18, 269, (d .nip18)⟩,
      ⟨.nip21, 358, (d .encoding)⟩] },
  { name := "nostr_nrelay_encode", declared := some "include/nostr.h:1296",
    defs := [⟨.nip21, 373, (d .encoding), false, .works⟩,
      ⟨.nip21, 575, (.not (d .encoding)), false, .notSupported⟩],
    refs := [⟨.nip21, 485, (d .encoding)⟩] },
  { name := "nostr_nrelay_decode", declared := some "include/nostr.h:1297",
    defs := [⟨.nip21, 387, (d .encoding), false, .works⟩,
      ⟨.nip21, 580, (.not (d .encoding)), false, .notSupported⟩],
    refs := [⟨.nip21, 452, (d .encoding)⟩] },
  { name := "nostr_uri_parse", declared := some "include/nostr.h:1280",
    defs := [⟨.nip21, 412, (d .encoding), false, .works⟩,
      ⟨.nip21, 519, (.not (d .encoding)), false, .notSupported⟩],
    refs := [⟨.nip18, 213, (d .nip18)⟩] },
  { name := "nostr_uri_encode", declared := some "include/nostr.h:1281",
    defs := [⟨.nip21, 458, (d .encoding), false, .works⟩,
      ⟨.nip21, 524, (.not (d .encoding)), false, .notSupported⟩],
    refs := [] },
  { name := "nostr_uri_free", declared := some "include/nostr.h:1282",
    defs := [⟨.nip21, 498, (d .encoding), false, .works⟩,
      ⟨.nip21, 529, (.not (d .encoding)), false, .nothing⟩],
    refs := [] } ]

/-- Names first defined in src/nip25.c. -/
def names_nip25 : List Name := [
  { name := "nostr_reaction_create", declared := some "include/nostr.h:1138",
    defs := [⟨.nip25, 34, (d .nip25), false, .works⟩,
      ⟨.nip25, 175, (.not (d .nip25)), false, .notSupported⟩],
    refs := [] },
  { name := "nostr_reaction_parse", declared := some "include/nostr.h:1154",
    defs := [⟨.nip25, 96, (d .nip25), false, .works⟩,
      ⟨.nip25, 184, (.not (d .nip25)), false, .notSupported⟩],
    refs := [] },
  { name := "nostr_reaction_is_like", declared := some "include/nostr.h:1165",
    defs := [⟨.nip25, 148, (d .nip25), false, .works⟩,
      ⟨.nip25, 195, (.not (d .nip25)), false, .notSupported⟩],
    refs := [] },
  { name := "nostr_reaction_is_dislike", declared := some "include/nostr.h:1173",
    defs := [⟨.nip25, 161, (d .nip25), false, .works⟩,
      ⟨.nip25, 201, (.not (d .nip25)), false, .notSupported⟩],
    refs := [] } ]

/-- Names first defined in src/nip26.c. -/
def names_nip26 : List Name := [
  { name := "nip26_sha256", declared := none,
    defs := [⟨.nip26, 33, (d .nip26), true, .works⟩],
    refs := [⟨.nip26, 178, (d .nip26)⟩] },
  { name := "is_valid_hex", declared := none,
    defs := [⟨.nip26, 42, (d .nip26), true, .works⟩],
    refs := [⟨.nip26, 397, (d .nip26)⟩] },
  { name := "cleanup_conditions", declared := none,
    defs := [⟨.nip26, 57, (d .nip26), true, .works⟩],
    refs := [⟨.nip26, 80, (d .nip26)⟩] },
  { name := "parse_delegation_conditions", declared := none,
    defs := [⟨.nip26, 64, (d .nip26), true, .works⟩],
    refs := [⟨.nip26, 272, (d .nip26)⟩] },
  { name := "build_delegation_hash", declared := none,
    defs := [⟨.nip26, 157, (d .nip26), true, .works⟩],
    refs := [⟨.nip26, 203, (d .nip26)⟩] },
  { name := "nostr_delegation_create", declared := some "include/nostr.h:1424",
    defs := [⟨.nip26, 184, (d .nip26), false, .works⟩,
      ⟨.nip26, 463, (.not (d .nip26)), false, .notSupported⟩],
    refs := [] },
  { name := "nostr_delegation_verify", declared := some "include/nostr.h:1435",
    defs := [⟨.nip26, 281, (d .nip26), false, .works⟩,
      ⟨.nip26, 467, (.not (d .nip26)), false, .notSupported⟩],
    refs := [⟨.nip26, 436, (d .nip26)⟩] },
  { name := "kind_allowed", declared := none,
    defs := [⟨.nip26, 319, (d .nip26), true, .works⟩],
    refs := [⟨.nip26, 339, (d .nip26)⟩] },
  { name := "nostr_delegation_check_conditions", declared := some "include/nostr.h:1445",
    defs := [⟨.nip26, 330, (d .nip26), false, .works⟩,
      ⟨.nip26, 470, (.not (d .nip26)), false, .notSupported⟩],
    refs := [⟨.nip26, 440, (d .nip26)⟩] },
  { name := "nostr_event_add_delegation", declared := some "include/nostr.h:1455",
    defs := [⟨.nip26, 351, (d .nip26), false, .works⟩,
      ⟨.nip26, 473, (.not (d .nip26)), false, .notSupported⟩],
    refs := [] },
  { name := "nostr_event_get_delegation", declared := some "include/nostr.h:1464",
    defs := [⟨.nip26, 373, (d .nip26), false, .works⟩,
      ⟨.nip26, 476, (.not (d .nip26)), false, .notSupported⟩],
    refs := [⟨.nip26, 432, (d .nip26)⟩] },
  { name := "nostr_event_verify_delegation", declared := some "include/nostr.h:1472",
    defs := [⟨.nip26, 426, (d .nip26), false, .works⟩,
      ⟨.nip26, 479, (.not (d .nip26)), false, .notSupported⟩],
    refs := [] },
  { name := "nostr_delegation_free", declared := some "include/nostr.h:1478",
    defs := [⟨.nip26, 447, (d .nip26), false, .works⟩,
      ⟨.nip26, 482, (.not (d .nip26)), false, .nothing⟩],
    refs := [⟨.nip26, 443, (d .nip26)⟩] } ]

/-- Names first defined in src/nip44.c. -/
def names_nip44 : List Name := [
  { name := "calc_padded_len", declared := none,
    defs := [⟨.nip44, 36, (d .cryptoNoscrypt), true, .works⟩],
    refs := [⟨.nip44, 76, (d .cryptoNoscrypt)⟩] },
  { name := "pad_plaintext", declared := none,
    defs := [⟨.nip44, 62, (d .cryptoNoscrypt), true, .works⟩],
    refs := [⟨.nip44, 290, (d .cryptoNoscrypt)⟩] },
  { name := "unpad_plaintext", declared := none,
    defs := [⟨.nip44, 92, (d .cryptoNoscrypt), true, .works⟩],
    refs := [⟨.nip44, 464, (d .cryptoNoscrypt)⟩] },
  { name := "base64_encode", declared := none,
    defs := [⟨.nip44, 131, (.and (d .cryptoNoscrypt) (d .haveMbedtls)), true, .works⟩,
      ⟨.nip44, 170, (.and (d .cryptoNoscrypt) (.not (d .haveMbedtls))), true, .works⟩],
    refs := [⟨.nip44, 350, (d .cryptoNoscrypt)⟩,
      ⟨.nip44, 558, (.and (d .cryptoNoscrypt) (.not (d .haveMbedtls)))⟩] },
  { name := "base64_decode", declared := none,
    defs := [⟨.nip44, 150, (.and (d .cryptoNoscrypt) (d .haveMbedtls)), true, .works⟩,
      ⟨.nip44, 200, (.and (d .cryptoNoscrypt) (.and (.not (d .haveMbedtls)) (d .esp))), true, .works⟩,
      ⟨.nip44, 220, (.and (.and (d .cryptoNoscrypt) (.not (.and (.not (d .haveMbedtls)) (d .esp)))) (.not (d .haveMbedtls))), true, .works⟩],
    refs := [⟨.nip44, 396, (d .cryptoNoscrypt)⟩,
      ⟨.nip44, 621, (.and (d .cryptoNoscrypt) (.not (d .haveMbedtls)))⟩] },
  { name := "nostr_nip44_encrypt", declared := some "include/nostr.h:783",
    defs := [⟨.nip44, 248, (d .cryptoNoscrypt), false, .works⟩,
      ⟨.nip44, 691, (.not (d .cryptoNoscrypt)), false, .notSupported⟩],
    refs := [⟨.nip17, 108, (d .nip17)⟩,
      ⟨.nip46, 107, (.and (d .nip46) (.and (d .nip44) (d .haveCjson)))⟩,
      ⟨.nip47, 524, (d .nip47)⟩,
      ⟨.nip51, 544, (.and (d .nip51) (d .nip44))⟩,
      ⟨.nip59, 111, (d .nip59)⟩] },
  { name := "nostr_nip44_decrypt", declared := some "include/nostr.h:807",
    defs := [⟨.nip44, 363, (d .cryptoNoscrypt), false, .works⟩,
      ⟨.nip44, 697, (.not (d .cryptoNoscrypt)), false, .notSupported⟩],
    refs := [⟨.nip17, 412, (d .nip17)⟩,
      ⟨.nip46, 30, (.and (d .nip46) (d .nip44))⟩,
      ⟨.nip47, 595, (d .nip47)⟩,
      ⟨.nip51, 813, (.and (d .nip51) (d .nip44))⟩,
      ⟨.nip59, 239, (d .nip59)⟩] },
  { name := "nostr_nip04_encrypt", declared := some "include/nostr.h:795",
    defs := [⟨.nip44, 488, (.and (d .cryptoNoscrypt) (d .haveMbedtls)), false, .notSupported⟩,
      ⟨.nip44, 502, (.and (d .cryptoNoscrypt) (.not (d .haveMbedtls))), false, .works⟩,
      ⟨.nip44, 703, (.not (d .cryptoNoscrypt)), false, .notSupported⟩],
    refs := [] },
  { name := "nostr_nip04_decrypt", declared := some "include/nostr.h:819",
    defs := [⟨.nip44, 495, (.and (d .cryptoNoscrypt) (d .haveMbedtls)), false, .notSupported⟩,
      ⟨.nip44, 587, (.and (d .cryptoNoscrypt) (.not (d .haveMbedtls))), false, .works⟩,
      ⟨.nip44, 709, (.not (d .cryptoNoscrypt)), false, .notSupported⟩],
    refs := [] } ]

/-- Names first defined in src/nip46.c. -/
def names_nip46 : List Name := [
  { name := "nostr_nip46_parse_request", declared := some "include/nostr.h:954",
    defs := [⟨.nip46, 12, (d .nip46), false, .works⟩,
      ⟨.nip46, 174, (.not (d .nip46)), false, .notSupported⟩],
    refs := [] },
  { name := "nostr_nip46_create_response", declared := some "include/nostr.h:958",
    defs := [⟨.nip46, 73, (d .nip46), false, .works⟩,
      ⟨.nip46, 181, (.not (d .nip46)), false, .notSupported⟩],
    refs := [] },
  { name := "nostr_nip46_request_free", declared := some "include/nostr.h:963",
    defs := [⟨.nip46, 154, (d .nip46), false, .works⟩,
      ⟨.nip46, 189, (.not (d .nip46)), false, .nothing⟩],
    refs := [] },
  { name := "nostr_nip46_response_free", declared := some "include/nostr.h:964",
    defs := [⟨.nip46, 162, (d .nip46), false, .works⟩,
      ⟨.nip46, 193, (.not (d .nip46)), false, .nothing⟩],
    refs := [] } ]

/-- Names first defined in src/nip47.c. -/
def names_nip47 : List Name := [
  { name := "nip47_json_escape", declared := none,
    defs := [⟨.nip47, 29, (d .nip47), true, .works⟩],
    refs := [⟨.nip47, 499, (d .nip47)⟩,
      ⟨.nip47, 685, (.and (d .nip47) (.not (d .haveCjson)))⟩] },
  { name := "free_connection", declared := none,
    defs := [⟨.nip47, 94, (d .nip47), true, .works⟩],
    refs := [⟨.nip47, 180, (d .nip47)⟩] },
  { name := "hex_decode", declared := none,
    defs := [⟨.nip47, 113, (d .nip47), true, .works⟩],
    refs := [⟨.nip47, 179, (d .nip47)⟩] },
  { name := "url_decode", declared := none,
    defs := [⟨.nip47, 128, (d .nip47), true, .works⟩],
    refs := [⟨.nip47, 221, (d .nip47)⟩] },
  { name := "nostr_nip47_parse_connection_uri", declared := some "include/nostr.h:969",
    defs := [⟨.nip47, 155, (d .nip47), false, .works⟩,
      ⟨.nip47, 854, (.not (d .nip47)), false, .notSupported⟩],
    refs := [⟨.nip47_session, 126, .tt⟩] },
  { name := "nostr_nip47_parse_info_event", declared := some "include/nostr.h:972",
    defs := [⟨.nip47, 266, (d .nip47), false, .works⟩],
    refs := [] },
  { name := "nostr_nip47_create_request_event", declared := some "include/nostr.h:977",
    defs := [⟨.nip47, 415, (d .nip47), false, .works⟩,
      ⟨.nip47, 863, (.not (d .nip47)), false, .notSupported⟩],
    refs := [] },
  { name := "nostr_nip47_parse_response_event", declared := some "include/nostr.h:981",
    defs := [⟨.nip47, 556, (d .nip47), false, .works⟩],
    refs := [] },
  { name := "nostr_nip47_create_pay_invoice_params", declared := some "include/nostr.h:989",
    defs := [⟨.nip47, 658, (d .nip47), false, .works⟩],
    refs := [] },
  { name := "nostr_nip47_create_get_balance_params", declared := some "include/nostr.h:991",
    defs := [⟨.nip47, 703, (d .nip47), false, .works⟩],
    refs := [] },
  { name := "nostr_nip47_create_make_invoice_params", declared := some "include/nostr.h:992",
    defs := [⟨.nip47, 717, (d .nip47), false, .works⟩],
    refs := [] },
  { name := "nostr_nip47_parse_notification_event", declared := some "include/nostr.h:985",
    defs := [⟨.nip47, 786, (d .nip47), false, .works⟩],
    refs := [] },
  { name := "nostr_nip47_free_connection", declared := some "include/nostr.h:970",
    defs := [⟨.nip47, 846, (d .nip47), false, .works⟩,
      ⟨.nip47, 859, (.not (d .nip47)), false, .nothing⟩],
    refs := [⟨.nip47_session, 72, .tt⟩] } ]

/-- Names first defined in src/nip47_commands.c. -/
def names_nip47_commands : List Name := [
  { name := "nostr_nip47_create_list_transactions_params", declared := some "include/nostr.h:995",
    defs := [⟨.nip47_commands, 11, .tt, false, .works⟩],
    refs := [] },
  { name := "nostr_nip47_create_lookup_invoice_params", declared := some "include/nostr.h:998",
    defs := [⟨.nip47_commands, 106, .tt, false, .works⟩],
    refs := [] },
  { name := "nostr_nip47_create_pay_keysend_params", declared := some "include/nostr.h:1000",
    defs := [⟨.nip47_commands, 157, .tt, false, .works⟩],
    refs := [] },
  { name := "nostr_nip47_create_multi_pay_invoice_params", declared := some "include/nostr.h:1003",
    defs := [⟨.nip47_commands, 249, .tt, false, .works⟩],
    refs := [] },
  { name := "nostr_nip47_create_get_info_params", declared := some "include/nostr.h:1008",
    defs := [⟨.nip47_commands, 337, .tt, false, .works⟩],
    refs := [] },
  { name := "nostr_nip47_parse_balance_response", declared := some "include/nostr.h:1011",
    defs := [⟨.nip47_commands, 351, .tt, false, .works⟩],
    refs := [] },
  { name := "nostr_nip47_parse_pay_invoice_response", declared := some "include/nostr.h:1012",
    defs := [⟨.nip47_commands, 386, .tt, false, .works⟩],
    refs := [] },
  { name := "nostr_nip47_parse_info_response", declared := some "include/nostr.h:1014",
    defs := [⟨.nip47_commands, 444, .tt, false, .works⟩],
    refs := [] } ]

/-- Names first defined in src/nip47_session.c. -/
def names_nip47_session : List Name := [
  { name := "find_session", declared := none,
    defs := [⟨.nip47_session, 39, .tt, true, .works⟩],
    refs := [⟨.nip47_session, 196, .tt⟩] },
  { name := "generate_session_id", declared := none,
    defs := [⟨.nip47_session, 49, .tt, true, .works⟩],
    refs := [⟨.nip47_session, 164, .tt⟩] },
  { name := "cleanup_expired_sessions", declared := none,
    defs := [⟨.nip47_session, 63, .tt, true, .works⟩],
    refs := [⟨.nip47_session, 145, .tt⟩] },
  { name := "nostr_nip47_session_init", declared := some "include/nostr.h:1019",
    defs := [⟨.nip47_session, 86, .tt, false, .works⟩],
    refs := [⟨.nip47_session, 122, .tt⟩] },
  { name := "nostr_nip47_session_create", declared := some "include/nostr.h:1020",
    defs := [⟨.nip47_session, 115, .tt, false, .works⟩],
    refs := [] },
  { name := "nostr_nip47_session_add_permission", declared := some "include/nostr.h:1021",
    defs := [⟨.nip47_session, 187, .tt, false, .works⟩],
    refs := [] },
  { name := "nostr_nip47_session_check_permission", declared := some "include/nostr.h:1023",
    defs := [⟨.nip47_session, 234, .tt, false, .works⟩],
    refs := [] },
  { name := "nostr_nip47_session_get_connection", declared := some "include/nostr.h:1025",
    defs := [⟨.nip47_session, 290, .tt, false, .works⟩],
    refs := [] },
  { name := "nostr_nip47_session_extend", declared := some "include/nostr.h:1026",
    defs := [⟨.nip47_session, 320, .tt, false, .works⟩],
    refs := [] },
  { name := "nostr_nip47_session_destroy", declared := some "include/nostr.h:1027",
    defs := [⟨.nip47_session, 343, .tt, false, .works⟩],
    refs := [] } ]

/-- Names first defined in src/nip49.c. -/
def names_nip49 : List Name := [
  { name := "load32_le", declared := none,
    defs := [⟨.nip49, 24, (d .nip49), true, .works⟩],
    refs := [⟨.nip49, 48, (d .nip49)⟩] },
  { name := "store32_le", declared := none,
    defs := [⟨.nip49, 29, (d .nip49), true, .works⟩],
    refs := [⟨.nip49, 77, (d .nip49)⟩] },
  { name := "hchacha20", declared := none,
    defs := [⟨.nip49, 37, (d .nip49), true, .works⟩],
    refs := [⟨.nip49, 98, (d .nip49)⟩] },
  { name := "xchacha20_poly1305_encrypt", declared := none,
    defs := [⟨.nip49, 86, (d .nip49), true, .works⟩],
    refs := [⟨.nip49, 281, (d .nip49)⟩] },
  { name := "xchacha20_poly1305_decrypt", declared := none,
    defs := [⟨.nip49, 138, (d .nip49), true, .works⟩],
    refs := [⟨.nip49, 366, (d .nip49)⟩] },
  { name := "derive_key_scrypt", declared := none,
    defs := [⟨.nip49, 191, (d .nip49), true, .works⟩],
    refs := [⟨.nip49, 277, (d .nip49)⟩] },
  { name := "decode_ncryptsec", declared := none,
    defs := [⟨.nip49, 207, (d .nip49), true, .works⟩],
    refs := [⟨.nip49, 335, (d .nip49)⟩] },
  { name := "nostr_ncryptsec_encrypt", declared := some "include/nostr.h:1310",
    defs := [⟨.nip49, 247, (d .nip49), false, .works⟩,
      ⟨.nip49, 414, (.not (d .nip49)), false, .notSupported⟩],
    refs := [] },
  { name := "nostr_ncryptsec_decrypt", declared := some "include/nostr.h:1324",
    defs := [⟨.nip49, 324, (d .nip49), false, .works⟩,
      ⟨.nip49, 424, (.not (d .nip49)), false, .notSupported⟩],
    refs := [] },
  { name := "nostr_ncryptsec_validate", declared := some "include/nostr.h:1333",
    defs := [⟨.nip49, 383, (d .nip49), false, .works⟩,
      ⟨.nip49, 432, (.not (d .nip49)), false, .notSupported⟩],
    refs := [] } ]

/-- Names first defined in src/nip51.c. -/
def names_nip51 : List Name := [
  { name := "json_escaped_len", declared := none,
    defs := [⟨.nip51, 14, (d .nip51), true, .works⟩],
    refs := [⟨.nip51, 390, (d .nip51)⟩] },
  { name := "json_escape_to", declared := none,
    defs := [⟨.nip51, 31, (d .nip51), true, .works⟩],
    refs := [⟨.nip51, 428, (d .nip51)⟩] },
  { name := "is_parameterized_list", declared := none,
    defs := [⟨.nip51, 59, (d .nip51), true, .works⟩],
    refs := [⟨.nip51, 484, (d .nip51)⟩] },
  { name := "hex_digit_value", declared := none,
    defs := [⟨.nip51, 64, (d .nip51), true, .works⟩],
    refs := [⟨.nip51, 78, (d .nip51)⟩] },
  { name := "is_valid_hex64", declared := none,
    defs := [⟨.nip51, 72, (d .nip51), true, .works⟩],
    refs := [⟨.nip51, 265, (d .nip51)⟩] },
  { name := "is_json_whitespace", declared := none,
    defs := [⟨.nip51, 85, (d .nip51), true, .works⟩],
    refs := [⟨.nip51, 92, (d .nip51)⟩] },
  { name := "skip_json_whitespace", declared := none,
    defs := [⟨.nip51, 90, (d .nip51), true, .works⟩],
    refs := [⟨.nip51, 626, (d .nip51)⟩] },
  { name := "parse_hex4", declared := none,
    defs := [⟨.nip51, 98, (d .nip51), true, .works⟩],
    refs := [⟨.nip51, 687, (d .nip51)⟩] },
  { name := "free_item", declared := none,
    defs := [⟨.nip51, 112, (d .nip51), true, .works⟩],
    refs := [⟨.nip51, 155, (d .nip51)⟩] },
  { name := "nostr_list_create", declared := some "include/nostr.h:1531",
    defs := [⟨.nip51, 123, (d .nip51), false, .works⟩,
      ⟨.nip51, 840, (.not (d .nip51)), false, .notSupported⟩],
    refs := [⟨.nip51, 759, (d .nip51)⟩] },
  { name := "nostr_list_free", declared := some "include/nostr.h:1532",
    defs := [⟨.nip51, 148, (d .nip51), false, .works⟩,
      ⟨.nip51, 846, (.not (d .nip51)), false, .nothing⟩],
    refs := [⟨.nip51, 833, (d .nip51)⟩] },
  { name := "set_string_field", declared := none,
    defs := [⟨.nip51, 165, (d .nip51), true, .works⟩],
    refs := [⟨.nip51, 181, (d .nip51)⟩] },
  { name := "nostr_list_set_d_tag", declared := some "include/nostr.h:1534",
    defs := [⟨.nip51, 178, (d .nip51), false, .works⟩,
      ⟨.nip51, 851, (.not (d .nip51)), false, .notSupported⟩],
    refs := [⟨.nip51, 774, (d .nip51)⟩] },
  { name := "nostr_list_set_title", declared := some "include/nostr.h:1535",
    defs := [⟨.nip51, 184, (d .nip51), false, .works⟩,
      ⟨.nip51, 857, (.not (d .nip51)), false, .notSupported⟩],
    refs := [⟨.nip51, 779, (d .nip51)⟩] },
  { name := "nostr_list_set_description", declared := some "include/nostr.h:1536",
    defs := [⟨.nip51, 190, (d .nip51), false, .works⟩,
      ⟨.nip51, 863, (.not (d .nip51)), false, .notSupported⟩],
    refs := [⟨.nip51, 784, (d .nip51)⟩] },
  { name := "nostr_list_set_image", declared := some "include/nostr.h:1537",
    defs := [⟨.nip51, 196, (d .nip51), false, .works⟩,
      ⟨.nip51, 869, (.not (d .nip51)), false, .notSupported⟩],
    refs := [⟨.nip51, 789, (d .nip51)⟩] },
  { name := "ensure_capacity", declared := none,
    defs := [⟨.nip51, 202, (d .nip51), true, .works⟩],
    refs := [⟨.nip51, 238, (d .nip51)⟩] },
  { name := "add_item", declared := none,
    defs := [⟨.nip51, 231, (d .nip51), true, .works⟩],
    refs := [⟨.nip51, 268, (d .nip51)⟩] },
  { name := "nostr_list_add_pubkey", declared := some "include/nostr.h:1539",
    defs := [⟨.nip51, 262, (d .nip51), false, .works⟩,
      ⟨.nip51, 875, (.not (d .nip51)), false, .notSupported⟩],
    refs := [] },
  { name := "nostr_list_add_event", declared := some "include/nostr.h:1541",
    defs := [⟨.nip51, 271, (d .nip51), false, .works⟩,
      ⟨.nip51, 882, (.not (d .nip51)), false, .notSupported⟩],
    refs := [] },
  { name := "nostr_list_add_hashtag", declared := some "include/nostr.h:1543",
    defs := [⟨.nip51, 280, (d .nip51), false, .works⟩,
      ⟨.nip51, 889, (.not (d .nip51)), false, .notSupported⟩],
    refs := [] },
  { name := "nostr_list_add_word", declared := some "include/nostr.h:1544",
    defs := [⟨.nip51, 288, (d .nip51), false, .works⟩,
      ⟨.nip51, 895, (.not (d .nip51)), false, .notSupported⟩],
    refs := [] },
  { name := "nostr_list_add_relay", declared := some "include/nostr.h:1545",
    defs := [⟨.nip51, 296, (d .nip51), false, .works⟩,
      ⟨.nip51, 901, (.not (d .nip51)), false, .notSupported⟩],
    refs := [] },
  { name := "nostr_list_add_reference", declared := some "include/nostr.h:1546",
    defs := [⟨.nip51, 304, (d .nip51), false, .works⟩,
      ⟨.nip51, 907, (.not (d .nip51)), false, .notSupported⟩],
    refs := [] },
  { name := "nostr_list_add_group", declared := some "include/nostr.h:1548",
    defs := [⟨.nip51, 313, (d .nip51), false, .works⟩,
      ⟨.nip51, 914, (.not (d .nip51)), false, .notSupported⟩],
    refs := [] },
  { name := "nostr_list_add_emoji", declared := some "include/nostr.h:1550",
    defs := [⟨.nip51, 322, (d .nip51), false, .works⟩,
      ⟨.nip51, 921, (.not (d .nip51)), false, .notSupported⟩],
    refs := [] },
  { name := "nostr_list_count", declared := some "include/nostr.h:1558",
    defs := [⟨.nip51, 331, (d .nip51), false, .works⟩,
      ⟨.nip51, 942, (.not (d .nip51)), false, .zero⟩],
    refs := [] },
  { name := "nostr_list_get", declared := some "include/nostr.h:1559",
    defs := [⟨.nip51, 339, (d .nip51), false, .works⟩,
      ⟨.nip51, 948, (.not (d .nip51)), false, .null⟩],
    refs := [] },
  { name := "nostr_list_remove", declared := some "include/nostr.h:1560",
    defs := [⟨.nip51, 347, (d .nip51), false, .works⟩,
      ⟨.nip51, 954, (.not (d .nip51)), false, .notSupported⟩],
    refs := [] },
  { name := "count_private_items", declared := none,
    defs := [⟨.nip51, 366, (d .nip51), true, .works⟩],
    refs := [⟨.nip51, 379, (d .nip51)⟩] },
  { name := "build_private_content", declared := none,
    defs := [⟨.nip51, 377, (d .nip51), true, .works⟩],
    refs := [⟨.nip51, 529, (.and (d .nip51) (d .nip44))⟩] },
  { name := "nostr_list_to_event", declared := some "include/nostr.h:1553",
    defs := [⟨.nip51, 464, (d .nip51), false, .works⟩,
      ⟨.nip51, 928, (.not (d .nip51)), false, .notSupported⟩],
    refs := [] },
  { name := "encode_utf8", declared := none,
    defs := [⟨.nip51, 572, (d .nip51), true, .works⟩],
    refs := [⟨.nip51, 711, (d .nip51)⟩] },
  { name := "parse_private_content", declared := none,
    defs := [⟨.nip51, 610, (d .nip51), true, .works⟩],
    refs := [⟨.nip51, 820, (.and (d .nip51) (d .nip44))⟩] },
  { name := "nostr_list_from_event", declared := some "include/nostr.h:1555",
    defs := [⟨.nip51, 752, (d .nip51), false, .works⟩,
      ⟨.nip51, 935, (.not (d .nip51)), false, .notSupported⟩],
    refs := [] } ]

/-- Names first defined in src/nip59.c. -/
def names_nip59 : List Name := [
  { name := "randomize_timestamp", declared := none,
    defs := [⟨.nip59, 25, (d .nip59), true, .works⟩],
    refs := [⟨.nip59, 69, (d .nip59)⟩] },
  { name := "nostr_nip59_wrap_event", declared := some "include/nostr.h:889",
    defs := [⟨.nip59, 37, (d .nip59), false, .works⟩,
      ⟨.nip59, 544, (.not (d .nip59)), false, .notSupported⟩],
    refs := [] },
  { name := "nostr_nip59_unwrap_event", declared := some "include/nostr.h:900",
    defs := [⟨.nip59, 220, (d .nip59), false, .works⟩,
      ⟨.nip59, 549, (.not (d .nip59)), false, .notSupported⟩],
    refs := [] },
  { name := "nostr_nip59_create_rumor", declared := some "include/nostr.h:911",
    defs := [⟨.nip59, 287, (d .nip59), false, .works⟩],
    refs := [] },
  { name := "nostr_nip59_create_seal", declared := some "include/nostr.h:922",
    defs := [⟨.nip59, 328, (d .nip59), false, .works⟩],
    refs := [] },
  { name := "nostr_nip59_create_gift_wrap", declared := some "include/nostr.h:934",
    defs := [⟨.nip59, 431, (d .nip59), false, .works⟩],
    refs := [] } ]

/-- Names first defined in src/nip65.c. -/
def names_nip65 : List Name := [
  { name := "nostr_relay_list_create", declared := some "include/nostr.h:1355",
    defs := [⟨.nip65, 20, (d .nip65), false, .works⟩,
      ⟨.nip65, 321, (.not (d .nip65)), false, .notSupported⟩],
    refs := [⟨.nip65, 193, (d .nip65)⟩] },
  { name := "nostr_relay_list_free", declared := some "include/nostr.h:1356",
    defs := [⟨.nip65, 44, (d .nip65), false, .works⟩,
      ⟨.nip65, 327, (.not (d .nip65)), false, .nothing⟩],
    refs := [⟨.nip65, 224, (d .nip65)⟩] },
  { name := "nostr_relay_list_add", declared := some "include/nostr.h:1357",
    defs := [⟨.nip65, 89, (d .nip65), false, .works⟩,
      ⟨.nip65, 332, (.not (d .nip65)), false, .notSupported⟩],
    refs := [⟨.nip65, 222, (d .nip65)⟩] },
  { name := "nostr_relay_list_to_event", declared := some "include/nostr.h:1358",
    defs := [⟨.nip65, 143, (d .nip65), false, .works⟩,
      ⟨.nip65, 338, (.not (d .nip65)), false, .notSupported⟩],
    refs := [] },
  { name := "nostr_relay_list_from_event", declared := some "include/nostr.h:1359",
    defs := [⟨.nip65, 183, (d .nip65), false, .works⟩,
      ⟨.nip65, 344, (.not (d .nip65)), false, .notSupported⟩],
    refs := [] },
  { name := "nostr_relay_list_count", declared := some "include/nostr.h:1360",
    defs := [⟨.nip65, 233, (d .nip65), false, .works⟩,
      ⟨.nip65, 350, (.not (d .nip65)), false, .zero⟩],
    refs := [] },
  { name := "nostr_relay_list_get", declared := some "include/nostr.h:1361",
    defs := [⟨.nip65, 241, (d .nip65), false, .works⟩,
      ⟨.nip65, 356, (.not (d .nip65)), false, .null⟩],
    refs := [] },
  { name := "get_relays_by_flag", declared := none,
    defs := [⟨.nip65, 249, (d .nip65), true, .works⟩],
    refs := [⟨.nip65, 299, (d .nip65)⟩] },
  { name := "nostr_relay_list_get_read_relays", declared := some "include/nostr.h:1362",
    defs := [⟨.nip65, 296, (d .nip65), false, .works⟩,
      ⟨.nip65, 362, (.not (d .nip65)), false, .notSupported⟩],
    refs := [] },
  { name := "nostr_relay_list_get_write_relays", declared := some "include/nostr.h:1363",
    defs := [⟨.nip65, 302, (d .nip65), false, .works⟩,
      ⟨.nip65, 369, (.not (d .nip65)), false, .notSupported⟩],
    refs := [] },
  { name := "nostr_relay_list_free_urls", declared := some "include/nostr.h:1364",
    defs := [⟨.nip65, 308, (d .nip65), false, .works⟩,
      ⟨.nip65, 376, (.not (d .nip65)), false, .nothing⟩],
    refs := [] } ]

/-- Names first defined in src/relay.c. -/
def names_relay : List Name := [
  { name := "validate_subscription_id", declared := none,
    defs := [⟨.relay, 15, .tt, true, .works⟩],
    refs := [⟨.relay, 432, .tt⟩] },
  { name := "find_json_array_end", declared := none,
    defs := [⟨.relay, 26, .tt, true, .works⟩],
    refs := [⟨.relay, 599, .tt⟩] },
  { name := "service_thread_func", declared := none,
    defs := [⟨.relay, 91, (.and (d .threading) (d .win32)), true, .nothing⟩,
      ⟨.relay, 93, (.and (d .threading) (.not (d .win32))), true, .works⟩],
    refs := [⟨.relay, 298, (.and (d .threading) (d .win32))⟩,
      ⟨.relay, 309, (.and (d .threading) (.not (d .win32)))⟩] },
  { name := "init_queue_mutex", declared := none,
    defs := [⟨.relay, 113, (d .threading), true, .works⟩,
      ⟨.relay, 150, (.not (d .threading)), true, .zero⟩],
    refs := [⟨.relay, 270, .tt⟩] },
  { name := "destroy_queue_mutex", declared := none,
    defs := [⟨.relay, 126, (d .threading), true, .works⟩,
      ⟨.relay, 151, (.not (d .threading)), true, .nothing⟩],
    refs := [⟨.relay, 301, (.and (d .threading) (d .win32))⟩,
      ⟨.relay, 311, (.and (d .threading) (.not (d .win32)))⟩,
      ⟨.relay, 361, .tt⟩] },
  { name := "lock_queue_mutex", declared := none,
    defs := [⟨.relay, 134, (d .threading), true, .works⟩,
      ⟨.relay, 152, (.not (d .threading)), true, .nothing⟩],
    refs := [⟨.relay, 415, .tt⟩] },
  { name := "unlock_queue_mutex", declared := none,
    defs := [⟨.relay, 142, (d .threading), true, .works⟩,
      ⟨.relay, 153, (.not (d .threading)), true, .nothing⟩],
    refs := [⟨.relay, 417, .tt⟩] },
  { name := "nostr_relay_create", declared := some "include/nostr.h:616",
    defs := [⟨.relay, 161, .tt, false, .works⟩],
    refs := [] },
  { name := "nostr_relay_destroy", declared := some "include/nostr.h:622",
    defs := [⟨.relay, 186, .tt, false, .works⟩],
    refs := [] },
  { name := "nostr_relay_connect", declared := some "include/nostr.h:631",
    defs := [⟨.relay, 197, .tt, false, .works⟩],
    refs := [] },
  { name := "nostr_relay_disconnect", declared := some "include/nostr.h:638",
    defs := [⟨.relay, 329, .tt, false, .works⟩],
    refs := [⟨.relay, 190, .tt⟩] },
  { name := "nostr_relay_send_event", declared := some "include/nostr.h:646",
    defs := [⟨.relay, 380, .tt, false, .works⟩],
    refs := [⟨.relay, 488, .tt⟩] },
  { name := "nostr_subscribe", declared := some "include/nostr.h:657",
    defs := [⟨.relay, 426, .tt, false, .works⟩],
    refs := [] },
  { name := "nostr_publish_event", declared := some "include/nostr.h:665",
    defs := [⟨.relay, 487, .tt, false, .works⟩],
    refs := [] },
  { name := "nostr_relay_set_message_callback", declared := some "include/nostr.h:682",
    defs := [⟨.relay, 491, .tt, false, .works⟩],
    refs := [] },
  { name := "nostr_relay_unsubscribe", declared := some "include/nostr.h:673",
    defs := [⟨.relay, 508, .tt, false, .works⟩],
    refs := [] },
  { name := "callback_nostr_relay", declared := none,
    defs := [⟨.relay, 560, .tt, true, .works⟩],
    refs := [⟨.relay, 157, .tt⟩] } ]

/-- Names first defined in src/relay_filter.c. -/
def names_relay_filter : List Name := [
  { name := "parse_string_array", declared := none,
    defs := [⟨.relay_filter, 18, (d .jsonEnhanced), true, .works⟩],
    refs := [⟨.relay_filter, 113, (d .jsonEnhanced)⟩] },
  { name := "parse_int_array", declared := none,
    defs := [⟨.relay_filter, 63, (d .jsonEnhanced), true, .works⟩],
    refs := [⟨.relay_filter, 119, (d .jsonEnhanced)⟩] },
  { name := "nostr_filter_parse", declared := some "include/nostr_relay_protocol.h:252",
    defs := [⟨.relay_filter, 98, (d .jsonEnhanced), false, .works⟩,
      ⟨.relay_filter, 209, (.not (d .jsonEnhanced)), false, .invalidJson⟩],
    refs := [⟨.relay_message, 49, (d .jsonEnhanced)⟩] },
  { name := "nostr_filter_free", declared := some "include/nostr_relay_protocol.h:311",
    defs := [⟨.relay_filter, 219, .tt, false, .works⟩],
    refs := [⟨.relay_filter, 203, (d .jsonEnhanced)⟩,
      ⟨.relay_filter, 708, .tt⟩,
      ⟨.relay_message, 41, (d .jsonEnhanced)⟩,
      ⟨.relay_message, 271, .tt⟩] },
  { name := "nostr_filter_validate", declared := some "include/nostr_relay_protocol.h:305",
    defs := [⟨.relay_filter, 270, .tt, false, .works⟩],
    refs := [⟨.relay_message, 64, (d .jsonEnhanced)⟩] },
  { name := "hex_starts_with", declared := none,
    defs := [⟨.relay_filter, 339, .tt, true, .works⟩],
    refs := [⟨.relay_filter, 356, .tt⟩] },
  { name := "nostr_filter_matches", declared := some "include/nostr_relay_protocol.h:261",
    defs := [⟨.relay_filter, 346, .tt, false, .works⟩],
    refs := [⟨.relay_filter, 451, .tt⟩] },
  { name := "nostr_filter_matches_with_search", declared := some "include/nostr_relay_protocol.h:273",
    defs := [⟨.relay_filter, 448, .tt, false, .works⟩],
    refs := [⟨.relay_filter, 478, .tt⟩] },
  { name := "nostr_filters_match", declared := some "include/nostr_relay_protocol.h:284",
    defs := [⟨.relay_filter, 460, .tt, false, .works⟩],
    refs := [] },
  { name := "nostr_filters_match_with_search", declared := some "include/nostr_relay_protocol.h:296",
    defs := [⟨.relay_filter, 472, .tt, false, .works⟩],
    refs := [] },
  { name := "nostr_filter_get_e_tags", declared := some "include/nostr_relay_protocol.h:820",
    defs := [⟨.relay_filter, 485, .tt, false, .works⟩],
    refs := [⟨.relay_filter, 515, .tt⟩] },
  { name := "nostr_filter_get_p_tags", declared := some "include/nostr_relay_protocol.h:822",
    defs := [⟨.relay_filter, 496, .tt, false, .works⟩],
    refs := [⟨.relay_filter, 518, .tt⟩] },
  { name := "nostr_filter_get_tag_values", declared := some "include/nostr_relay_protocol.h:824",
    defs := [⟨.relay_filter, 507, .tt, false, .works⟩],
    refs := [] },
  { name := "nostr_filter_has_tag_filters", declared := some "include/nostr_relay_protocol.h:828",
    defs := [⟨.relay_filter, 532, .tt, false, .works⟩],
    refs := [] },
  { name := "nostr_filter_get_ids", declared := some "include/nostr_relay_protocol.h:840",
    defs := [⟨.relay_filter, 541, .tt, false, .works⟩],
    refs := [] },
  { name := "nostr_filter_get_authors", declared := some "include/nostr_relay_protocol.h:848",
    defs := [⟨.relay_filter, 551, .tt, false, .works⟩],
    refs := [] },
  { name := "nostr_filter_get_kinds", declared := some "include/nostr_relay_protocol.h:856",
    defs := [⟨.relay_filter, 561, .tt, false, .works⟩],
    refs := [] },
  { name := "nostr_filter_get_since", declared := some "include/nostr_relay_protocol.h:863",
    defs := [⟨.relay_filter, 571, .tt, false, .works⟩],
    refs := [] },
  { name := "nostr_filter_get_until", declared := some "include/nostr_relay_protocol.h:870",
    defs := [⟨.relay_filter, 577, .tt, false, .works⟩],
    refs := [] },
  { name := "nostr_filter_get_limit", declared := some "include/nostr_relay_protocol.h:877",
    defs := [⟨.relay_filter, 583, .tt, false, .works⟩],
    refs := [] },
  { name := "nostr_filter_get_search", declared := some "include/nostr_relay_protocol.h:884",
    defs := [⟨.relay_filter, 589, .tt, false, .works⟩],
    refs := [] },
  { name := "nostr_filter_has_search", declared := some "include/nostr_relay_protocol.h:891",
    defs := [⟨.relay_filter, 595, .tt, false, .works⟩],
    refs := [] },
  { name := "clone_string_array", declared := none,
    defs := [⟨.relay_filter, 601, .tt, true, .works⟩],
    refs := [⟨.relay_filter, 650, .tt⟩] },
  { name := "nostr_filter_clone", declared := some "include/nostr_relay_protocol.h:320",
    defs := [⟨.relay_filter, 632, .tt, false, .works⟩],
    refs := [] } ]

/-- Names first defined in src/relay_message.c. -/
def names_relay_message : List Name := [
  { name := "parse_filters", declared := none,
    defs := [⟨.relay_message, 16, (d .jsonEnhanced), true, .works⟩],
    refs := [⟨.relay_message, 154, (d .jsonEnhanced)⟩] },
  { name := "nostr_client_msg_parse", declared := some "include/nostr_relay_protocol.h:334",
    defs := [⟨.relay_message, 82, (d .jsonEnhanced), false, .works⟩,
      ⟨.relay_message, 248, (.not (d .jsonEnhanced)), false, .invalidJson⟩],
    refs := [] },
  { name := "nostr_client_msg_free", declared := some "include/nostr_relay_protocol.h:340",
    defs := [⟨.relay_message, 258, .tt, false, .works⟩],
    refs := [] },
  { name := "nostr_relay_msg_event", declared := some "include/nostr_relay_protocol.h:359",
    defs := [⟨.relay_message, 297, .tt, false, .works⟩],
    refs := [] },
  { name := "nostr_relay_msg_ok", declared := some "include/nostr_relay_protocol.h:364",
    defs := [⟨.relay_message, 309, .tt, false, .works⟩],
    refs := [] },
  { name := "nostr_relay_msg_eose", declared := some "include/nostr_relay_protocol.h:369",
    defs := [⟨.relay_message, 325, .tt, false, .works⟩],
    refs := [] },
  { name := "nostr_relay_msg_closed", declared := some "include/nostr_relay_protocol.h:374",
    defs := [⟨.relay_message, 336, .tt, false, .works⟩],
    refs := [] },
  { name := "nostr_relay_msg_notice", declared := some "include/nostr_relay_protocol.h:379",
    defs := [⟨.relay_message, 351, .tt, false, .works⟩],
    refs := [] },
  { name := "nostr_relay_msg_auth", declared := some "include/nostr_relay_protocol.h:384",
    defs := [⟨.relay_message, 362, .tt, false, .works⟩],
    refs := [] },
  { name := "nostr_relay_msg_count", declared := some "include/nostr_relay_protocol.h:389",
    defs := [⟨.relay_message, 373, .tt, false, .works⟩],
    refs := [] },
  { name := "nostr_relay_msg_serialize", declared := some "include/nostr_relay_protocol.h:354",
    defs := [⟨.relay_message, 388, (d .jsonEnhanced), false, .works⟩,
      ⟨.relay_message, 495, (.not (d .jsonEnhanced)), false, .invalidJson⟩],
    refs := [] },
  { name := "nostr_client_msg_get_type", declared := some "include/nostr_relay_protocol.h:902",
    defs := [⟨.relay_message, 506, .tt, false, .works⟩],
    refs := [] },
  { name := "nostr_client_msg_get_event", declared := some "include/nostr_relay_protocol.h:909",
    defs := [⟨.relay_message, 512, .tt, false, .works⟩],
    refs := [] },
  { name := "nostr_client_msg_get_subscription_id", declared := some "include/nostr_relay_protocol.h:916",
    defs := [⟨.relay_message, 526, .tt, false, .works⟩],
    refs := [] },
  { name := "nostr_client_msg_get_filters", declared := some "include/nostr_relay_protocol.h:924",
    defs := [⟨.relay_message, 542, .tt, false, .works⟩],
    refs := [] } ]

/-- Names first defined in src/relay_nip11.c. -/
def names_relay_nip11 : List Name := [
  { name := "nostr_relay_limitation_init", declared := some "include/nostr_relay_protocol.h:773",
    defs := [⟨.relay_nip11, 14, .tt, false, .works⟩],
    refs := [⟨.relay_nip11, 40, .tt⟩] },
  { name := "nostr_relay_info_init", declared := some "include/nostr_relay_protocol.h:771",
    defs := [⟨.relay_nip11, 35, .tt, false, .works⟩],
    refs := [] },
  { name := "nostr_relay_info_set_nips", declared := some "include/nostr_relay_protocol.h:785",
    defs := [⟨.relay_nip11, 43, .tt, false, .works⟩],
    refs := [] },
  { name := "nostr_relay_info_add_nip", declared := some "include/nostr_relay_protocol.h:789",
    defs := [⟨.relay_nip11, 68, .tt, false, .works⟩],
    refs := [] },
  { name := "nostr_relay_info_free", declared := some "include/nostr_relay_protocol.h:791",
    defs := [⟨.relay_nip11, 86, .tt, false, .works⟩],
    refs := [] },
  { name := "nostr_relay_limitation_serialize", declared := some "include/nostr_relay_protocol.h:780",
    defs := [⟨.relay_nip11, 139, (d .jsonEnhanced), false, .works⟩,
      ⟨.relay_nip11, 437, (.not (d .jsonEnhanced)), false, .invalidJson⟩],
    refs := [] },
  { name := "nostr_relay_info_serialize", declared := some "include/nostr_relay_protocol.h:775",
    defs := [⟨.relay_nip11, 208, (d .jsonEnhanced), false, .works⟩,
      ⟨.relay_nip11, 447, (.not (d .jsonEnhanced)), false, .invalidJson⟩],
    refs := [] } ]

/-- Names first defined in src/relay_protocol.c. -/
def names_relay_protocol : List Name := [
  { name := "nostr_relay_error_string", declared := some "include/nostr_relay_protocol.h:676",
    defs := [⟨.relay_protocol, 16, .tt, false, .works⟩],
    refs := [] },
  { name := "nostr_validation_error_format", declared := some "include/nostr_relay_protocol.h:686",
    defs := [⟨.relay_protocol, 42, .tt, false, .works⟩],
    refs := [] },
  { name := "nostr_validate_hex64", declared := some "include/nostr_relay_protocol.h:547",
    defs := [⟨.relay_protocol, 60, .tt, false, .works⟩],
    refs := [⟨.relay_filter, 306, .tt⟩,
      ⟨.relay_protocol, 591, .tt⟩] },
  { name := "nostr_validate_hex_prefix", declared := some "include/nostr_relay_protocol.h:554",
    defs := [⟨.relay_protocol, 76, .tt, false, .works⟩],
    refs := [⟨.relay_filter, 286, .tt⟩] },
  { name := "nostr_validate_subscription_id", declared := some "include/nostr_relay_protocol.h:561",
    defs := [⟨.relay_protocol, 92, .tt, false, .works⟩],
    refs := [⟨.relay_message, 146, (d .jsonEnhanced)⟩] },
  { name := "nostr_validate_timestamp", declared := some "include/nostr_relay_protocol.h:569",
    defs := [⟨.relay_protocol, 108, .tt, false, .works⟩],
    refs := [⟨.relay_protocol, 466, .tt⟩] },
  { name := "nostr_validate_address", declared := some "include/nostr_relay_protocol.h:576",
    defs := [⟨.relay_protocol, 114, .tt, false, .works⟩],
    refs := [⟨.relay_protocol, 600, .tt⟩] },
  { name := "nostr_timestamp_now", declared := some "include/nostr_relay_protocol.h:582",
    defs := [⟨.relay_protocol, 152, .tt, false, .works⟩],
    refs := [⟨.relay_protocol, 110, .tt⟩] },
  { name := "nostr_kind_get_type", declared := some "include/nostr_relay_protocol.h:440",
    defs := [⟨.relay_protocol, 157, .tt, false, .works⟩],
    refs := [⟨.relay_protocol, 173, .tt⟩] },
  { name := "nostr_kind_is_regular", declared := some "include/nostr_relay_protocol.h:445",
    defs := [⟨.relay_protocol, 171, .tt, false, .works⟩],
    refs := [] },
  { name := "nostr_kind_is_replaceable", declared := some "include/nostr_relay_protocol.h:450",
    defs := [⟨.relay_protocol, 176, .tt, false, .works⟩],
    refs := [] },
  { name := "nostr_kind_is_ephemeral", declared := some "include/nostr_relay_protocol.h:455",
    defs := [⟨.relay_protocol, 181, .tt, false, .works⟩],
    refs := [] },
  { name := "nostr_kind_is_addressable", declared := some "include/nostr_relay_protocol.h:460",
    defs := [⟨.relay_protocol, 186, .tt, false, .works⟩],
    refs := [⟨.relay_protocol, 646, .tt⟩] },
  { name := "nostr_event_get_tag_value", declared := some "include/nostr_relay_protocol.h:502",
    defs := [⟨.relay_protocol, 191, .tt, false, .works⟩],
    refs := [⟨.relay_protocol, 209, .tt⟩] },
  { name := "nostr_event_get_d_tag", declared := some "include/nostr_relay_protocol.h:509",
    defs := [⟨.relay_protocol, 207, .tt, false, .works⟩],
    refs := [⟨.relay_protocol, 657, .tt⟩] },
  { name := "nostr_event_get_tag_values", declared := some "include/nostr_relay_protocol.h:519",
    defs := [⟨.relay_protocol, 212, .tt, false, .works⟩],
    refs := [⟨.relay_filter, 398, .tt⟩] },
  { name := "nostr_event_has_tag", declared := some "include/nostr_relay_protocol.h:527",
    defs := [⟨.relay_protocol, 229, .tt, false, .works⟩],
    refs := [] },
  { name := "nostr_event_get_tag_at", declared := some "include/nostr_relay_protocol.h:536",
    defs := [⟨.relay_protocol, 245, .tt, false, .works⟩],
    refs := [] },
  { name := "nostr_event_get_expiration", declared := some "include/nostr_relay_protocol.h:593",
    defs := [⟨.relay_protocol, 258, .tt, false, .works⟩],
    refs := [⟨.relay_protocol, 275, .tt⟩] },
  { name := "nostr_event_is_expired", declared := some "include/nostr_relay_protocol.h:601",
    defs := [⟨.relay_protocol, 273, .tt, false, .works⟩],
    refs := [⟨.relay_protocol, 284, .tt⟩] },
  { name := "nostr_event_is_expired_now", declared := some "include/nostr_relay_protocol.h:608",
    defs := [⟨.relay_protocol, 282, .tt, false, .works⟩],
    refs := [⟨.relay_protocol, 474, .tt⟩] },
  { name := "nostr_event_parse", declared := some "include/nostr_relay_protocol.h:402",
    defs := [⟨.relay_protocol, 289, (d .jsonEnhanced), false, .works⟩,
      ⟨.relay_protocol, 398, (.not (d .jsonEnhanced)), false, .invalidJson⟩],
    refs := [] },
  { name := "nostr_event_serialize_canonical", declared := some "include/nostr_relay_protocol.h:416",
    defs := [⟨.relay_protocol, 313, (d .jsonEnhanced), false, .works⟩,
      ⟨.relay_protocol, 406, (.not (d .jsonEnhanced)), false, .invalidJson⟩],
    refs := [] },
  { name := "nostr_event_serialize", declared := some "include/nostr_relay_protocol.h:429",
    defs := [⟨.relay_protocol, 369, (d .jsonEnhanced), false, .works⟩,
      ⟨.relay_protocol, 415, (.not (d .jsonEnhanced)), false, .invalidJson⟩],
    refs := [] },
  { name := "compare_event_ids", declared := none,
    defs := [⟨.relay_protocol, 426, .tt, true, .works⟩],
    refs := [⟨.relay_protocol, 438, .tt⟩] },
  { name := "nostr_event_compare_replaceable", declared := some "include/nostr_relay_protocol.h:482",
    defs := [⟨.relay_protocol, 431, .tt, false, .works⟩],
    refs := [⟨.relay_protocol, 446, .tt⟩] },
  { name := "nostr_event_compare_addressable", declared := some "include/nostr_relay_protocol.h:490",
    defs := [⟨.relay_protocol, 444, .tt, false, .works⟩],
    refs := [] },
  { name := "nostr_event_validate_full", declared := some "include/nostr_relay_protocol.h:473",
    defs := [⟨.relay_protocol, 449, .tt, false, .works⟩],
    refs := [] },
  { name := "nostr_deletion_free", declared := some "include/nostr_relay_protocol.h:665",
    defs := [⟨.relay_protocol, 511, .tt, false, .works⟩],
    refs := [⟨.relay_protocol, 554, .tt⟩] },
  { name := "nostr_deletion_parse", declared := some "include/nostr_relay_protocol.h:633",
    defs := [⟨.relay_protocol, 534, .tt, false, .works⟩],
    refs := [] },
  { name := "nostr_deletion_authorized", declared := some "include/nostr_relay_protocol.h:646",
    defs := [⟨.relay_protocol, 615, .tt, false, .works⟩],
    refs := [] },
  { name := "nostr_deletion_authorized_address", declared := some "include/nostr_relay_protocol.h:659",
    defs := [⟨.relay_protocol, 640, .tt, false, .works⟩],
    refs := [] },
  { name := "nostr_tag_iterator_init", declared := some "include/nostr_relay_protocol.h:808",
    defs := [⟨.relay_protocol, 678, .tt, false, .works⟩],
    refs := [] },
  { name := "nostr_tag_iterator_next", declared := some "include/nostr_relay_protocol.h:810",
    defs := [⟨.relay_protocol, 686, .tt, false, .works⟩],
    refs := [⟨.relay_protocol, 712, .tt⟩] },
  { name := "nostr_tag_iterator_next_info", declared := some "include/nostr_relay_protocol.h:812",
    defs := [⟨.relay_protocol, 705, .tt, false, .works⟩],
    refs := [] },
  { name := "nostr_tag_is_indexable", declared := some "include/nostr_relay_protocol.h:814",
    defs := [⟨.relay_protocol, 733, .tt, false, .works⟩],
    refs := [] },
  { name := "nostr_event_get_id", declared := some "include/nostr_relay_protocol.h:935",
    defs := [⟨.relay_protocol, 743, .tt, false, .works⟩],
    refs := [] },
  { name := "nostr_event_get_pubkey", declared := some "include/nostr_relay_protocol.h:942",
    defs := [⟨.relay_protocol, 749, .tt, false, .works⟩],
    refs := [] },
  { name := "nostr_event_get_id_hex", declared := some "include/nostr_relay_protocol.h:949",
    defs := [⟨.relay_protocol, 755, .tt, false, .works⟩],
    refs := [] },
  { name := "nostr_event_get_pubkey_hex", declared := some "include/nostr_relay_protocol.h:956",
    defs := [⟨.relay_protocol, 764, .tt, false, .works⟩],
    refs := [] },
  { name := "nostr_event_get_tag_count", declared := some "include/nostr_relay_protocol.h:963",
    defs := [⟨.relay_protocol, 773, .tt, false, .works⟩],
    refs := [] },
  { name := "nostr_event_get_tag", declared := some "include/nostr_relay_protocol.h:971",
    defs := [⟨.relay_protocol, 779, .tt, false, .works⟩],
    refs := [] },
  { name := "nostr_tag_get_name", declared := some "include/nostr_relay_protocol.h:978",
    defs := [⟨.relay_protocol, 787, .tt, false, .works⟩],
    refs := [] },
  { name := "nostr_tag_get_value_count", declared := some "include/nostr_relay_protocol.h:985",
    defs := [⟨.relay_protocol, 795, .tt, false, .works⟩],
    refs := [] },
  { name := "nostr_tag_get_value", declared := some "include/nostr_relay_protocol.h:993",
    defs := [⟨.relay_protocol, 801, .tt, false, .works⟩],
    refs := [] },
  { name := "nostr_event_find_tag", declared := some "include/nostr_relay_protocol.h:1001",
    defs := [⟨.relay_protocol, 809, .tt, false, .works⟩],
    refs := [] },
  { name := "nostr_event_is_deletion", declared := some "include/nostr_relay_protocol.h:1008",
    defs := [⟨.relay_protocol, 825, .tt, false, .works⟩],
    refs := [] },
  { name := "hex_string_to_bytes", declared := none,
    defs := [⟨.relay_protocol, 831, .tt, true, .works⟩],
    refs := [⟨.relay_protocol, 884, .tt⟩] },
  { name := "nostr_event_get_e_tags_binary", declared := some "include/nostr_relay_protocol.h:1016",
    defs := [⟨.relay_protocol, 848, .tt, false, .works⟩],
    refs := [] },
  { name := "nostr_event_get_p_tags_binary", declared := some "include/nostr_relay_protocol.h:1024",
    defs := [⟨.relay_protocol, 894, .tt, false, .works⟩],
    refs := [] },
  { name := "nostr_hex_to_bytes", declared := some "include/nostr_relay_protocol.h:1038",
    defs := [⟨.relay_protocol, 940, .tt, false, .works⟩],
    refs := [] },
  { name := "nostr_bytes_to_hex", declared := some "include/nostr_relay_protocol.h:1046",
    defs := [⟨.relay_protocol, 977, .tt, false, .works⟩],
    refs := [⟨.relay_filter, 353, .tt⟩,
      ⟨.relay_protocol, 622, .tt⟩] },
  { name := "nostr_free", declared := some "include/nostr_relay_protocol.h:1052",
    defs := [⟨.relay_protocol, 989, .tt, false, .works⟩],
    refs := [] },
  { name := "nostr_free_strings", declared := some "include/nostr_relay_protocol.h:1059",
    defs := [⟨.relay_protocol, 994, .tt, false, .works⟩],
    refs := [] },
  { name := "nostr_version", declared := some "include/nostr_relay_protocol.h:1065",
    defs := [⟨.relay_protocol, 1004, .tt, false, .works⟩],
    refs := [] } ]

/-- Names first defined in src/utils.c. -/
def names_utils : List Name := [
  { name := "nostr_constant_time_memcmp", declared := some "include/nostr.h:698",
    defs := [⟨.utils, 14, .tt, false, .works⟩],
    refs := [⟨.event, 717, (d .haveNoscrypt)⟩,
      ⟨.event, 745, (.and (.not (d .haveNoscrypt)) (d .haveSecp))⟩,
      ⟨.key, 652, (d .haveNoscrypt)⟩,
      ⟨.key, 678, (.and (.not (d .haveNoscrypt)) (d .haveSecp))⟩,
      ⟨.nip05, 339, (d .nip05)⟩,
      ⟨.nip47_session, 42, .tt⟩,
      ⟨.zap, 222, (d .nip57)⟩] },
  { name := "secure_wipe", declared := some "include/nostr.h:705",
    defs := [⟨.utils, 26, .tt, false, .works⟩],
    refs := [⟨.event, 612, (d .haveNoscrypt)⟩,
      ⟨.event, 682, (.and (.not (d .haveNoscrypt)) (d .haveSecp))⟩,
      ⟨.hd_key, 62, (.and (d .hdKeys) (d .haveNoscrypt))⟩,
      ⟨.hd_key, 75, (.and (d .hdKeys) (.not (d .haveNoscrypt)))⟩,
      ⟨.hd_key, 97, (d .hdKeys)⟩,
      ⟨.hd_key, 524, (.and (d .hdKeys) (d .haveUtf8proc))⟩,
      ⟨.hd_key, 557, (.and (d .hdKeys) (.not (d .haveUtf8proc)))⟩,
      ⟨.key, 315, (d .haveNoscrypt)⟩,
      ⟨.key, 347, (.and (.not (d .haveNoscrypt)) (d .haveSecp))⟩,
      ⟨.key, 595, (.and (.not (d .haveNoscrypt)) (.not (d .haveSecp)))⟩,
      ⟨.key, 710, .tt⟩,
      ⟨.nip17, 140, (.and (d .nip17) (d .cryptoNoscrypt))⟩,
      ⟨.nip17, 218, (d .nip17)⟩,
      ⟨.nip21, 514, (d .encoding)⟩,
      ⟨.nip26, 214, (.and (d .nip26) (d .haveNoscrypt))⟩,
      ⟨.nip26, 241, (.and (.and (d .nip26) (.not (d .haveNoscrypt))) (d .haveSecp))⟩,
      ⟨.nip26, 268, (d .nip26)⟩,
      ⟨.nip44, 358, (d .cryptoNoscrypt)⟩,
      ⟨.nip44, 578, (.and (d .cryptoNoscrypt) (.not (d .haveMbedtls)))⟩,
      ⟨.nip47, 109, (d .nip47)⟩,
      ⟨.nip49, 83, (d .nip49)⟩,
      ⟨.nip59, 81, (.and (d .nip59) (d .cryptoNoscrypt))⟩,
      ⟨.nip59, 149, (d .nip59)⟩] },
  { name := "hex_char_to_nibble", declared := none,
    defs := [⟨.utils, 47, .tt, true, .works⟩],
    refs := [⟨.utils, 59, .tt⟩] },
  { name := "nostr_hex_decode", declared := some "include/nostr.h:714",
    defs := [⟨.utils, 54, .tt, false, .works⟩],
    refs := [⟨.nip26, 403, (d .nip26)⟩] },
  { name := "nostr_hex_encode", declared := some "include/nostr.h:722",
    defs := [⟨.utils, 67, .tt, false, .works⟩],
    refs := [⟨.nip18, 227, (d .nip18)⟩,
      ⟨.nip26, 168, (d .nip26)⟩] } ]

/-- Names first defined in src/zap.c. -/
def names_zap : List Name := [
  { name := "decode_bech32", declared := none,
    defs := [⟨.zap, 19, (d .nip57), true, .works⟩],
    refs := [⟨.zap, 126, (d .nip57)⟩] },
  { name := "nostr_zap_create_request", declared := some "include/nostr.h:743",
    defs := [⟨.zap, 45, (d .nip57), false, .works⟩,
      ⟨.zap, 273, (.not (d .nip57)), false, .notSupported⟩],
    refs := [] },
  { name := "nostr_zap_validate_lnurl", declared := some "include/nostr.h:752",
    defs := [⟨.zap, 112, (d .nip57), false, .works⟩],
    refs := [] },
  { name := "nostr_zap_parse_receipt", declared := some "include/nostr.h:763",
    defs := [⟨.zap, 137, (d .nip57), false, .works⟩,
      ⟨.zap, 283, (.not (d .nip57)), false, .notSupported⟩],
    refs := [⟨.zap, 229, (d .nip57)⟩] },
  { name := "nostr_zap_verify", declared := some "include/nostr.h:772",
    defs := [⟨.zap, 205, (d .nip57), false, .works⟩,
      ⟨.zap, 278, (.not (d .nip57)), false, .notSupported⟩],
    refs := [] } ]

/-- Names first defined in the libraries: CMakeLists.txt:805-920. -/
def names_libraries : List Name := [
  { name := "library cjson", declared := none,
    defs := [⟨.libraries, 0, (d .haveCjson), false, .works⟩],
    refs := [⟨.event, 294, (d .jsonEnhanced)⟩,
      ⟨.nip46, 37, (.and (.and (d .nip46) (d .nip44)) (d .haveCjson))⟩,
      ⟨.nip46, 82, (.and (d .nip46) (.and (d .nip44) (d .haveCjson)))⟩,
      ⟨.nip47, 503, (.and (d .nip47) (d .haveCjson))⟩,
      ⟨.nip47_commands, 20, (d .haveCjson)⟩,
      ⟨.relay, 447, .tt⟩,
      ⟨.relay_filter, 20, (d .jsonEnhanced)⟩,
      ⟨.relay_message, 37, (d .jsonEnhanced)⟩,
      ⟨.relay_nip11, 146, (d .jsonEnhanced)⟩,
      ⟨.relay_protocol, 325, (d .jsonEnhanced)⟩] },
  { name := "library libwebsockets", declared := none,
    defs := [⟨.libraries, 0, (d .haveLws), false, .works⟩],
    refs := [⟨.relay, 99, (d .threading)⟩,
      ⟨.relay, 214, .tt⟩,
      ⟨.relay, 303, (.and (d .threading) (d .win32))⟩,
      ⟨.relay, 313, (.and (d .threading) (.not (d .win32)))⟩] },
  { name := "library mbedtls", declared := none,
    defs := [⟨.libraries, 0, (d .haveMbedtls), false, .works⟩],
    refs := [⟨.event, 39, (d .haveMbedtls)⟩,
      ⟨.key, 168, (d .haveMbedtls)⟩,
      ⟨.nip26, 36, (.and (d .nip26) (d .haveMbedtls))⟩,
      ⟨.nip44, 134, (.and (d .cryptoNoscrypt) (d .haveMbedtls))⟩,
      ⟨.nip44, 205, (.and (d .cryptoNoscrypt) (.and (.not (d .haveMbedtls)) (d .esp)))⟩] },
  { name := "library noscrypt", declared := none,
    defs := [⟨.libraries, 0, (d .haveNoscrypt), false, .works⟩],
    refs := [⟨.event, 611, (d .haveNoscrypt)⟩,
      ⟨.hd_key, 61, (.and (d .hdKeys) (d .haveNoscrypt))⟩,
      ⟨.key, 221, (d .haveNoscrypt)⟩,
      ⟨.key, 243, (.and (d .haveSecp) (d .haveNoscrypt))⟩,
      ⟨.nip17, 136, (.and (d .nip17) (d .cryptoNoscrypt))⟩,
      ⟨.nip26, 213, (.and (d .nip26) (d .haveNoscrypt))⟩,
      ⟨.nip44, 275, (d .cryptoNoscrypt)⟩,
      ⟨.nip47, 438, (.and (d .nip47) (d .cryptoNoscrypt))⟩,
      ⟨.nip59, 78, (.and (d .nip59) (d .cryptoNoscrypt))⟩] },
  { name := "library secp256k1", declared := none,
    defs := [⟨.libraries, 0, (d .haveSecp), false, .works⟩],
    refs := [⟨.event, 648, (.and (.not (d .haveNoscrypt)) (d .haveSecp))⟩,
      ⟨.hd_key, 74, (.and (d .hdKeys) (.not (d .haveNoscrypt)))⟩,
      ⟨.hd_key, 118, (d .hdKeys)⟩,
      ⟨.key, 240, (d .haveSecp)⟩,
      ⟨.key, 340, (.and (.not (d .haveNoscrypt)) (d .haveSecp))⟩,
      ⟨.nip17, 148, (.and (d .nip17) (.not (d .cryptoNoscrypt)))⟩,
      ⟨.nip26, 236, (.and (.and (d .nip26) (.not (d .haveNoscrypt))) (d .haveSecp))⟩,
      ⟨.nip47, 447, (.and (d .nip47) (.not (d .cryptoNoscrypt)))⟩,
      ⟨.nip59, 89, (.and (d .nip59) (.not (d .cryptoNoscrypt)))⟩] },
  { name := "library utf8proc", declared := none,
    defs := [⟨.libraries, 0, (d .haveUtf8proc), false, .works⟩],
    refs := [⟨.hd_key, 464, (.and (d .hdKeys) (d .haveUtf8proc))⟩] } ]

/-- All names. -/
def names : List Name :=
  names_bech32 ++ names_config ++ names_event ++ names_features ++ names_hd_key ++ names_key ++ names_nip05 ++ names_nip10 ++
  names_nip13 ++ names_nip17 ++ names_nip18 ++ names_nip21 ++ names_nip25 ++ names_nip26 ++ names_nip44 ++ names_nip46 ++
  names_nip47 ++ names_nip47_commands ++ names_nip47_session ++ names_nip49 ++ names_nip51 ++ names_nip59 ++ names_nip65 ++
  names_relay ++ names_relay_filter ++ names_relay_message ++ names_relay_nip11 ++ names_relay_protocol ++ names_utils ++
  names_zap ++ names_libraries

end Nostr.Build

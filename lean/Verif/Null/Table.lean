import Verif.Null.Model

/-! # The pointer arguments of the public functions

Written by `tools/nulls.py` from the text of the sources: for every function of a public header the pointer
arguments in the order of the declaration (numbered from 0), the tests for NULL and the first use of each argument in
the order of the text. `byHand` marks the functions whose entry is from the reading of the code, because the test
is in a helper (`add_item`, `find_e_tag_by_marker`, `get_relays_by_flag`, `copy_str_safe`, `free_connection`,
`nostr_event_get_tag_value`, `nostr_relay_send_event`), or does something before it returns. An argument `x[i]` is an
element of the array `x`. -/

namespace Nostr.Null

/-- The public functions of src/bech32.c. -/
def fns_bech32 : List Fn := [
  -- src/bech32.c:117-151
  { name := "nostr_key_to_bech32", args := ["key", "prefix", "bech32"], needs := [[0], [1], [2]], byHand := false,
    body := [.refuse [0, 1, 2] [] (.code .invalidParam), .use 1, .use 0, .use 2] },
  -- src/bech32.c:153-203
  { name := "nostr_key_from_bech32", args := ["bech32", "key"], needs := [[0], [1]], byHand := false,
    body := [.refuse [0, 1] [] (.code .invalidParam), .use 0, .use 1] },
  -- src/bech32.c:205-237
  { name := "nostr_privkey_to_bech32", args := ["privkey", "bech32"], needs := [[0], [1]], byHand := false,
    body := [.refuse [0, 1] [] (.code .invalidParam), .use 0, .use 1] },
  -- src/bech32.c:239-274
  { name := "nostr_privkey_from_bech32", args := ["bech32", "privkey"], needs := [[0], [1]], byHand := false,
    body := [.refuse [0, 1] [] (.code .invalidParam), .use 0, .use 1] },
  -- src/bech32.c:276-308
  { name := "nostr_event_id_to_bech32", args := ["id", "bech32"], needs := [[0], [1]], byHand := false,
    body := [.refuse [0, 1] [] (.code .invalidParam), .use 0, .use 1] },
  -- src/bech32.c:310-345
  { name := "nostr_event_id_from_bech32", args := ["bech32", "id"], needs := [[0], [1]], byHand := false,
    body := [.refuse [0, 1] [] (.code .invalidParam), .use 0, .use 1] }]

/-- The public functions of src/config.c. -/
def fns_config : List Fn := [
  -- src/config.c:56-74
  { name := "nostr_config_get_defaults", args := ["config"], needs := [[0]], byHand := false,
    body := [.refuse [0] [] (.code .invalidParam), .use 0] },
  -- src/config.c:98-116
  { name := "nostr_config_load_env", args := ["config"], needs := [[0]], byHand := false,
    body := [.refuse [0] [] (.code .invalidParam), .use 0] },
  -- src/config.c:118-175
  { name := "nostr_config_validate", args := ["config"], needs := [[0]], byHand := false,
    body := [.refuse [0] [] (.code .invalidParam), .use 0] },
  -- src/config.c:177-191
  { name := "nostr_config_get_current", args := [], needs := [], byHand := false,
    body := [] },
  -- src/config.c:193-231
  { name := "nostr_init_with_config", args := ["config"], needs := [], byHand := false,
    body := [.when [0] [0]] },
  -- src/config.c:233-239
  { name := "nostr_config_set_callback", args := ["callback", "user_data"], needs := [], byHand := true,
    body := [] },
  -- src/config.c:241-266
  { name := "nostr_config_update", args := ["config"], needs := [[0]], byHand := false,
    body := [.refuse [0] [] (.code .invalidParam), .use 0] }]

/-- The public functions of src/event.c. -/
def fns_event : List Fn := [
  -- src/event.c:87-105
  { name := "nostr_event_create", args := ["event"], needs := [[0]], byHand := false,
    body := [.refuse [0] [] (.code .invalidParam), .use 0] },
  -- src/event.c:107-117
  { name := "nostr_event_destroy", args := ["event"], needs := [[0]], byHand := false,
    body := [.refuse [0] [] .nothing, .use 0] },
  -- src/event.c:119-132
  { name := "nostr_event_set_content", args := ["event", "content"], needs := [[0], [1]], byHand := false,
    body := [.refuse [0, 1] [] (.code .invalidParam), .use 0, .use 1] },
  -- src/event.c:134-225
  { name := "nostr_event_add_tag", args := ["event", "values", "values[i]"], needs := [[0], [1], [2]], byHand := true,
    body := [.refuse [0, 1] [] (.code .invalidParam), .use 1, .refuse [2] [] (.code .invalidParam), .use 2, .use 0] },
  -- src/event.c:366-383
  { name := "nostr_event_compute_id", args := ["event"], needs := [[0]], byHand := false,
    body := [.refuse [0] [] (.code .invalidParam), .use 0] },
  -- src/event.c:385-440
  { name := "nostr_event_to_json", args := ["event", "json"], needs := [[0], [1]], byHand := false,
    body := [.refuse [0, 1] [] (.code .invalidParam), .use 0, .use 1] },
  -- src/event.c:456-591
  { name := "nostr_event_from_json", args := ["json", "event"], needs := [[0], [1]], byHand := false,
    body := [.refuse [0, 1] [] (.code .invalidParam), .use 0, .use 1] },
  -- src/event.c:593-692
  { name := "nostr_event_sign", args := ["event", "privkey"], needs := [[0], [1]], byHand := false,
    body := [.refuse [0, 1] [] (.code .invalidParam), .use 1, .use 0] },
  -- src/event.c:694-762
  { name := "nostr_event_verify", args := ["event"], needs := [[0]], byHand := false,
    body := [.refuse [0] [] (.code .invalidParam), .use 0] }]

/-- The public functions of src/features.c. -/
def fns_features : List Fn := [
  -- src/features.c:5-67
  { name := "nostr_feature_nip_supported", args := [], needs := [], byHand := false,
    body := [] },
  -- src/features.c:69-76
  { name := "nostr_feature_relay_available", args := [], needs := [], byHand := false,
    body := [] },
  -- src/features.c:78-85
  { name := "nostr_feature_hd_keys_available", args := [], needs := [], byHand := false,
    body := [] },
  -- src/features.c:87-94
  { name := "nostr_feature_json_enhanced_available", args := [], needs := [], byHand := false,
    body := [] },
  -- src/features.c:96-103
  { name := "nostr_feature_relay_protocol_available", args := [], needs := [], byHand := false,
    body := [] },
  -- src/features.c:105-117
  { name := "nostr_feature_list_enabled", args := [], needs := [], byHand := false,
    body := [] },
  -- src/features.c:190-203
  { name := "nostr_feature_crypto_backend_info", args := [], needs := [], byHand := false,
    body := [] }]

/-- The public functions of src/hd_key.c. -/
def fns_hd_key : List Fn := [
  -- src/hd_key.c:37-99
  { name := "nostr_hd_key_from_seed", args := ["seed", "master"], needs := [[0], [1]], byHand := false,
    body := [.refuse [0, 1] [] (.code .invalidParam), .use 1, .use 0] },
  -- src/hd_key.c:101-206
  { name := "nostr_hd_key_derive", args := ["parent", "child"], needs := [[0], [1]], byHand := false,
    body := [.refuse [0, 1] [] (.code .invalidParam), .use 1, .use 0] },
  -- src/hd_key.c:208-279
  { name := "nostr_hd_key_derive_path", args := ["master", "path", "derived"], needs := [[0], [1], [2]], byHand := false,
    body := [.refuse [0, 1, 2] [] (.code .invalidParam), .use 1, .use 2, .use 0] },
  -- src/hd_key.c:281-294
  { name := "nostr_hd_key_to_keypair", args := ["hd_key", "keypair"], needs := [[0], [1]], byHand := false,
    body := [.refuse [0, 1] [] (.code .invalidParam), .use 1, .use 0] },
  -- src/hd_key.c:315-377
  { name := "nostr_mnemonic_generate", args := ["mnemonic"], needs := [[0]], byHand := false,
    body := [.refuse [0] [] (.code .invalidParam), .use 0] },
  -- src/hd_key.c:379-458
  { name := "nostr_mnemonic_validate", args := ["mnemonic"], needs := [[0]], byHand := false,
    body := [.refuse [0] [] (.code .invalidParam), .use 0] },
  -- src/hd_key.c:478-562
  { name := "nostr_mnemonic_to_seed", args := ["mnemonic", "passphrase", "seed"], needs := [[0], [2]], byHand := false,
    body := [.refuse [0, 2] [] (.code .invalidParam), .use 0, .when [1] [1], .use 2] },
  -- src/hd_key.c:564-598
  { name := "nostr_mnemonic_to_keypair", args := ["mnemonic", "passphrase", "keypair"], needs := [[0], [2]], byHand := false,
    body := [.refuse [0, 2] [] (.code .invalidParam), .use 0, .when [1] [1], .use 2] }]

/-- The public functions of src/key.c. -/
def fns_key : List Fn := [
  -- src/key.c:125-209
  { name := "nostr_random_bytes", args := ["buf"], needs := [], byHand := true,
    body := [.use 0] },
  -- src/key.c:211-259
  { name := "nostr_init", args := [], needs := [], byHand := false,
    body := [] },
  -- src/key.c:261-280
  { name := "nostr_cleanup", args := [], needs := [], byHand := false,
    body := [] },
  -- src/key.c:283-377
  { name := "nostr_key_generate", args := ["privkey", "pubkey"], needs := [[0], [1]], byHand := false,
    body := [.refuse [0, 1] [] (.code .invalidParam), .use 0, .use 1] },
  -- src/key.c:379-395
  { name := "nostr_key_from_hex", args := ["hex", "key"], needs := [[0], [1]], byHand := false,
    body := [.refuse [0, 1] [] (.code .invalidParam), .use 0, .use 1] },
  -- src/key.c:397-408
  { name := "nostr_key_to_hex", args := ["key", "hex"], needs := [[0], [1]], byHand := false,
    body := [.refuse [0, 1] [] (.code .invalidParam), .use 1, .use 0] },
  -- src/key.c:410-426
  { name := "nostr_privkey_from_hex", args := ["hex", "privkey"], needs := [[0], [1]], byHand := false,
    body := [.refuse [0, 1] [] (.code .invalidParam), .use 0, .use 1] },
  -- src/key.c:428-439
  { name := "nostr_privkey_to_hex", args := ["privkey", "hex"], needs := [[0], [1]], byHand := false,
    body := [.refuse [0, 1] [] (.code .invalidParam), .use 1, .use 0] },
  -- src/key.c:441-491
  { name := "nostr_key_ecdh", args := ["privkey", "pubkey", "shared_secret"], needs := [[0], [1], [2]], byHand := false,
    body := [.refuse [0, 1, 2] [] (.code .invalidParam), .use 0, .use 1, .use 2] },
  -- src/key.c:493-503
  { name := "nostr_keypair_init", args := ["keypair"], needs := [[0]], byHand := false,
    body := [.refuse [0] [] (.code .invalidParam), .use 0] },
  -- src/key.c:505-518
  { name := "nostr_keypair_generate", args := ["keypair"], needs := [[0]], byHand := false,
    body := [.refuse [0] [] (.code .invalidParam), .use 0] },
  -- src/key.c:520-532
  { name := "nostr_keypair_from_private_hex", args := ["keypair", "privkey_hex"], needs := [[0], [1]], byHand := false,
    body := [.refuse [0, 1] [] (.code .invalidParam), .use 1, .use 0] },
  -- src/key.c:534-601
  { name := "nostr_keypair_from_private_key", args := ["keypair", "privkey"], needs := [[0], [1]], byHand := false,
    body := [.refuse [0, 1] [] (.code .invalidParam), .use 0, .use 1] },
  -- src/key.c:603-610
  { name := "nostr_keypair_export_private_hex", args := ["keypair", "hex"], needs := [[0], [1]], byHand := false,
    body := [.refuse [0, 1] [] (.code .invalidParam), .use 0, .use 1] },
  -- src/key.c:612-619
  { name := "nostr_keypair_export_public_hex", args := ["keypair", "hex"], needs := [[0], [1]], byHand := false,
    body := [.refuse [0, 1] [] (.code .invalidParam), .use 0, .use 1] },
  -- src/key.c:621-684
  { name := "nostr_keypair_validate", args := ["keypair"], needs := [[0]], byHand := false,
    body := [.refuse [0] [] (.code .invalidParam), .use 0] },
  -- src/key.c:686-693
  { name := "nostr_keypair_public_key", args := ["keypair"], needs := [[0]], byHand := false,
    body := [.refuse [0] [] .null, .use 0] },
  -- src/key.c:695-702
  { name := "nostr_keypair_private_key", args := ["keypair"], needs := [[0]], byHand := false,
    body := [.refuse [0] [] .null, .use 0] },
  -- src/key.c:704-713
  { name := "nostr_keypair_destroy", args := ["keypair"], needs := [[0]], byHand := false,
    body := [.refuse [0] [] .nothing, .use 0] },
  -- src/key.c:715-732
  { name := "nostr_error_string", args := [], needs := [], byHand := false,
    body := [] }]

/-- The public functions of src/nip05.c. -/
def fns_nip05 : List Fn := [
  -- src/nip05.c:102-127
  { name := "nostr_nip05_parse", args := ["identifier", "name", "domain"], needs := [[0], [1], [2]], byHand := false,
    body := [.refuse [0, 1, 2] [] (.code .invalidParam), .use 0, .use 1, .use 2] },
  -- src/nip05.c:138-165
  { name := "nostr_nip05_build_url", args := ["name", "domain", "url"], needs := [[0], [1], [2]], byHand := false,
    body := [.refuse [0, 1, 2] [] (.code .invalidParam), .use 0, .use 1, .use 2] },
  -- src/nip05.c:167-275
  { name := "nostr_nip05_parse_response", args := ["json", "name", "pubkey_hex", "relays", "relay_count"], needs := [[0], [1], [2]], byHand := true,
    body := [.refuse [0, 1, 2] [] (.code .invalidParam), .when [3] [3], .when [4] [4], .use 0, .use 1, .use 2, .finish [3, 4], .use 3, .use 4] },
  -- src/nip05.c:277-283
  { name := "nostr_nip05_free_relays", args := ["relays"], needs := [[0]], byHand := false,
    body := [.refuse [0] [] .nothing, .use 0] },
  -- src/nip05.c:285-348
  { name := "nostr_nip05_verify", args := ["identifier", "expected_pubkey", "http_callback", "user_data", "relays_out", "relay_count_out"], needs := [[0], [1], [2]], byHand := false,
    body := [.refuse [0, 1, 2] [] (.code .invalidParam), .when [4] [4], .when [5] [5], .use 0, .use 2, .use 1] }]

/-- The public functions of src/nip10.c. -/
def fns_nip10 : List Fn := [
  -- src/nip10.c:147-151
  { name := "nostr_event_get_root_id", args := ["event", "root_id", "relay_hint"], needs := [[0], [1]], byHand := true,
    body := [.refuse [0, 1] [] (.code .invalidParam), .use 1, .when [2] [2], .use 0] },
  -- src/nip10.c:153-157
  { name := "nostr_event_get_reply_id", args := ["event", "reply_id", "relay_hint"], needs := [[0], [1]], byHand := true,
    body := [.refuse [0, 1] [] (.code .invalidParam), .use 1, .when [2] [2], .use 0] },
  -- src/nip10.c:175-197
  { name := "nostr_event_add_reply_tags", args := ["event", "root_id", "root_relay", "root_pubkey", "reply_id", "reply_relay", "reply_pubkey"], needs := [[0], [1, 4]], byHand := true,
    body := [.refuse [0] [] (.code .invalidParam), .refuseAll [1, 4] (.code .invalidParam), .when [1] [1], .when [1, 2] [1, 2], .when [1, 3] [1, 3], .when [1] [0], .when [4] [4], .when [4, 5] [4, 5], .when [4, 6] [4, 6], .when [4] [0]] },
  -- src/nip10.c:199-207
  { name := "nostr_event_add_mention_tag", args := ["event", "pubkey", "relay_hint"], needs := [[0], [1]], byHand := false,
    body := [.refuse [0, 1] [] (.code .invalidParam), .use 1, .when [2] [2], .use 0] },
  -- src/nip10.c:209-222
  { name := "nostr_event_is_reply", args := ["event", "is_reply"], needs := [[0], [1]], byHand := false,
    body := [.refuse [0, 1] [] (.code .invalidParam), .use 1, .use 0] }]

/-- The public functions of src/nip13.c. -/
def fns_nip13 : List Fn := [
  -- src/nip13.c:40-54
  { name := "nostr_nip13_calculate_difficulty", args := ["event_id"], needs := [[0]], byHand := false,
    body := [.refuse [0] [] .zero, .use 0] },
  -- src/nip13.c:131-198
  { name := "nostr_nip13_add_nonce_tag", args := ["event"], needs := [[0]], byHand := false,
    body := [.refuse [0] [] (.code .invalidParam), .use 0] },
  -- src/nip13.c:200-245
  { name := "nostr_nip13_mine_event", args := ["event"], needs := [[0]], byHand := false,
    body := [.refuse [0] [] (.code .invalidParam), .use 0] },
  -- src/nip13.c:247-276
  { name := "nostr_nip13_verify_pow", args := ["event"], needs := [[0]], byHand := false,
    body := [.refuse [0] [] (.code .invalidParam), .use 0] },
  -- src/nip13.c:406-543
  { name := "nostr_nip13_mine_event_threaded", args := ["event"], needs := [[0]], byHand := false,
    body := [.refuse [0] [] (.code .invalidParam), .use 0] }]

/-- The public functions of src/nip17.c. -/
def fns_nip17 : List Fn := [
  -- src/nip17.c:55-90
  { name := "nostr_nip17_create_rumor", args := ["rumor", "pubkey", "content"], needs := [[0], [1], [2]], byHand := false,
    body := [.refuse [0, 1, 2] [] (.code .invalidParam), .use 0, .use 1, .use 2] },
  -- src/nip17.c:92-195
  { name := "nostr_nip17_create_seal", args := ["seal", "rumor", "sender_privkey", "recipient_pubkey"], needs := [[0], [1], [2], [3]], byHand := false,
    body := [.refuse [0, 1, 2, 3] [] (.code .invalidParam), .use 1, .use 2, .use 3, .use 0] },
  -- src/nip17.c:197-290
  { name := "nostr_nip17_create_gift_wrap", args := ["wrap", "seal", "recipient_pubkey"], needs := [[0], [1], [2]], byHand := false,
    body := [.refuse [0, 1, 2] [] (.code .invalidParam), .use 1, .use 2, .use 0] },
  -- src/nip17.c:292-392
  { name := "nostr_nip17_send_dm", args := ["dm", "content", "sender_privkey", "recipient_pubkey", "subject", "reply_to"], needs := [[0], [1], [2], [3]], byHand := false,
    body := [.refuse [0, 1, 2, 3] [] (.code .invalidParam), .use 2, .use 1, .use 3, .when [4] [4], .when [5] [5], .use 0] },
  -- src/nip17.c:394-464
  { name := "nostr_nip17_unwrap_dm", args := ["wrap", "recipient_privkey", "rumor", "sender_pubkey"], needs := [[0], [1], [2]], byHand := false,
    body := [.refuse [0, 1, 2] [] (.code .invalidParam), .use 0, .use 1, .when [3] [3], .use 2] }]

/-- The public functions of src/nip18.c. -/
def fns_nip18 : List Fn := [
  -- src/nip18.c:36-106
  { name := "nostr_repost_create", args := ["event", "reposted_event_id", "reposted_pubkey", "relay_hint", "d_tag", "embedded_json"], needs := [[0], [1], [2], [3]], byHand := false,
    body := [.refuse [0, 1, 2, 3] [] (.code .invalidParam), .use 1, .use 2, .use 0, .when [5] [5], .use 3, .when [4] [4]] },
  -- src/nip18.c:120-166
  { name := "nostr_repost_parse", args := ["event", "reposted_event_id", "reposted_pubkey", "relay_hint", "reposted_kind"], needs := [[0]], byHand := true,
    body := [.refuse [0] [] (.code .invalidParam), .use 0, .when [1] [1], .when [2] [2], .when [3] [3], .when [4] [4]] },
  -- src/nip18.c:192-285
  { name := "nostr_quote_tags_from_content", args := ["event"], needs := [[0]], byHand := false,
    body := [.refuse [0] [] (.code .invalidParam), .use 0] }]

/-- The public functions of src/nip21.c. -/
def fns_nip21 : List Fn := [
  -- src/nip21.c:229-240
  { name := "nostr_nprofile_encode", args := ["profile", "bech32"], needs := [[0], [1]], byHand := false,
    body := [.refuse [0, 1] [] (.code .invalidParam), .use 0, .use 1] },
  -- src/nip21.c:242-264
  { name := "nostr_nprofile_decode", args := ["bech32", "profile"], needs := [[0], [1]], byHand := false,
    body := [.refuse [0, 1] [] (.code .invalidParam), .use 1, .use 0] },
  -- src/nip21.c:274-277
  { name := "nostr_nprofile_free", args := ["profile"], needs := [[0]], byHand := false,
    body := [.refuse [0] [] .nothing, .use 0] },
  -- src/nip21.c:279-291
  { name := "nostr_nevent_encode", args := ["nevent", "bech32"], needs := [[0], [1]], byHand := false,
    body := [.refuse [0, 1] [] (.code .invalidParam), .use 0, .use 1] },
  -- src/nip21.c:293-316
  { name := "nostr_nevent_decode", args := ["bech32", "nevent"], needs := [[0], [1]], byHand := false,
    body := [.refuse [0, 1] [] (.code .invalidParam), .use 1, .use 0] },
  -- src/nip21.c:318-321
  { name := "nostr_nevent_free", args := ["nevent"], needs := [[0]], byHand := false,
    body := [.refuse [0] [] .nothing, .use 0] },
  -- src/nip21.c:323-335
  { name := "nostr_naddr_encode", args := ["addr", "bech32"], needs := [[0], [1]], byHand := false,
    body := [.refuse [0, 1] [] (.code .invalidParam), .use 0, .use 1] },
  -- src/nip21.c:337-366
  { name := "nostr_naddr_decode", args := ["bech32", "addr"], needs := [[0], [1]], byHand := false,
    body := [.refuse [0, 1] [] (.code .invalidParam), .use 1, .use 0] },
  -- src/nip21.c:368-371
  { name := "nostr_naddr_free", args := ["addr"], needs := [[0]], byHand := false,
    body := [.refuse [0] [] .nothing, .use 0] },
  -- src/nip21.c:373-385
  { name := "nostr_nrelay_encode", args := ["relay", "bech32"], needs := [[0], [1]], byHand := false,
    body := [.refuse [0, 1] [] (.code .invalidParam), .use 0, .use 1] },
  -- src/nip21.c:387-410
  { name := "nostr_nrelay_decode", args := ["bech32", "relay"], needs := [[0], [1]], byHand := false,
    body := [.refuse [0, 1] [] (.code .invalidParam), .use 1, .use 0] },
  -- src/nip21.c:412-456
  { name := "nostr_uri_parse", args := ["uri", "result"], needs := [[0], [1]], byHand := false,
    body := [.refuse [0, 1] [] (.code .invalidParam), .use 1, .use 0] },
  -- src/nip21.c:458-496
  { name := "nostr_uri_encode", args := ["uri", "output"], needs := [[0], [1]], byHand := false,
    body := [.refuse [0, 1] [] (.code .invalidParam), .use 1, .use 0] },
  -- src/nip21.c:498-515
  { name := "nostr_uri_free", args := ["uri"], needs := [[0]], byHand := false,
    body := [.refuse [0] [] .nothing, .use 0] }]

/-- The public functions of src/nip25.c. -/
def fns_nip25 : List Fn := [
  -- src/nip25.c:34-82
  { name := "nostr_reaction_create", args := ["event", "reaction_content", "target_event_id", "target_pubkey", "relay_hint"], needs := [[0], [2], [3]], byHand := false,
    body := [.refuse [0, 2, 3] [] (.code .invalidParam), .use 2, .use 3, .use 0, .when [1] [1], .when [4] [4]] },
  -- src/nip25.c:96-146
  { name := "nostr_reaction_parse", args := ["event", "reaction_content", "target_event_id", "target_pubkey", "target_kind"], needs := [[0]], byHand := true,
    body := [.refuse [0] [] (.code .invalidParam), .use 0, .when [1] [1], .when [2] [2], .when [3] [3], .when [4] [4]] },
  -- src/nip25.c:148-159
  { name := "nostr_reaction_is_like", args := ["event", "is_like"], needs := [[0], [1]], byHand := false,
    body := [.refuse [0, 1] [] (.code .invalidParam), .use 0, .use 1] },
  -- src/nip25.c:161-171
  { name := "nostr_reaction_is_dislike", args := ["event", "is_dislike"], needs := [[0], [1]], byHand := false,
    body := [.refuse [0, 1] [] (.code .invalidParam), .use 0, .use 1] }]

/-- The public functions of src/nip26.c. -/
def fns_nip26 : List Fn := [
  -- src/nip26.c:184-279
  { name := "nostr_delegation_create", args := ["delegator_privkey", "delegatee_pubkey", "conditions", "delegation"], needs := [[0], [1], [2], [3]], byHand := false,
    body := [.refuse [0, 1, 2, 3] [] (.code .invalidParam), .use 3, .use 1, .use 2, .use 0] },
  -- src/nip26.c:281-317
  { name := "nostr_delegation_verify", args := ["delegation", "delegatee_pubkey"], needs := [[0], [1]], byHand := false,
    body := [.refuse [0, 1] [] (.code .invalidParam), .use 1, .use 0] },
  -- src/nip26.c:330-349
  { name := "nostr_delegation_check_conditions", args := ["delegation"], needs := [[0]], byHand := false,
    body := [.refuse [0] [] (.code .invalidParam), .use 0] },
  -- src/nip26.c:351-371
  { name := "nostr_event_add_delegation", args := ["event", "delegation"], needs := [[0], [1]], byHand := false,
    body := [.refuse [0, 1] [] (.code .invalidParam), .use 1, .use 0] },
  -- src/nip26.c:373-424
  { name := "nostr_event_get_delegation", args := ["event", "delegation"], needs := [[0], [1]], byHand := false,
    body := [.refuse [0, 1] [] (.code .invalidParam), .use 1, .use 0] },
  -- src/nip26.c:426-445
  { name := "nostr_event_verify_delegation", args := ["event"], needs := [[0]], byHand := false,
    body := [.refuse [0] [] (.code .invalidParam), .use 0] },
  -- src/nip26.c:447-456
  { name := "nostr_delegation_free", args := ["delegation"], needs := [[0]], byHand := false,
    body := [.refuse [0] [] .nothing, .use 0] }]

/-- The public functions of src/nip44.c. -/
def fns_nip44 : List Fn := [
  -- src/nip44.c:248-361
  { name := "nostr_nip44_encrypt", args := ["sender_privkey", "recipient_pubkey", "plaintext", "ciphertext"], needs := [[0], [1], [2], [3]], byHand := false,
    body := [.refuse [0, 1, 2, 3] [] (.code .invalidParam), .use 0, .use 1, .use 2, .use 3] },
  -- src/nip44.c:363-485
  { name := "nostr_nip44_decrypt", args := ["recipient_privkey", "sender_pubkey", "ciphertext", "plaintext", "plaintext_len"], needs := [[0], [1], [2], [3], [4]], byHand := false,
    body := [.refuse [0, 1, 2, 3, 4] [] (.code .invalidParam), .use 2, .use 0, .use 1, .use 3, .use 4] },
  -- src/nip44.c:502-585
  { name := "nostr_nip04_encrypt", args := ["sender_privkey", "recipient_pubkey", "plaintext", "ciphertext"], needs := [[0], [1], [2], [3]], byHand := false,
    body := [.refuse [0, 1, 2, 3] [] (.code .invalidParam), .use 0, .use 1, .use 2, .use 3] },
  -- src/nip44.c:587-686
  { name := "nostr_nip04_decrypt", args := ["recipient_privkey", "sender_pubkey", "ciphertext", "plaintext"], needs := [[0], [1], [2], [3]], byHand := false,
    body := [.refuse [0, 1, 2, 3] [] (.code .invalidParam), .use 2, .use 0, .use 1, .use 3] }]

/-- The public functions of src/nip46.c. -/
def fns_nip46 : List Fn := [
  -- src/nip46.c:12-71
  { name := "nostr_nip46_parse_request", args := ["event", "recipient_privkey", "request"], needs := [[0], [1], [2]], byHand := false,
    body := [.refuse [0, 1, 2] [] (.code .invalidParam), .use 2, .use 0, .use 1] },
  -- src/nip46.c:73-152
  { name := "nostr_nip46_create_response", args := ["response", "signer_privkey", "recipient_pubkey", "event_out"], needs := [[0], [1], [2], [3]], byHand := false,
    body := [.refuse [0, 1, 2, 3] [] (.code .invalidParam), .use 0, .use 1, .use 2, .use 3] },
  -- src/nip46.c:154-160
  { name := "nostr_nip46_request_free", args := ["request"], needs := [], byHand := true,
    body := [.when [0] [0]] },
  -- src/nip46.c:162-170
  { name := "nostr_nip46_response_free", args := ["response"], needs := [[0]], byHand := false,
    body := [.refuse [0] [] .nothing, .use 0] }]

/-- The public functions of src/nip47.c. -/
def fns_nip47 : List Fn := [
  -- src/nip47.c:155-264
  { name := "nostr_nip47_parse_connection_uri", args := ["uri", "connection"], needs := [[0], [1]], byHand := false,
    body := [.refuse [0, 1] [] (.code .invalidParam), .use 0, .use 1] },
  -- src/nip47.c:266-413
  { name := "nostr_nip47_parse_info_event", args := ["event", "capabilities", "cap_count", "notifications", "notif_count", "encryptions", "enc_count"], needs := [[0]], byHand := true,
    body := [.refuse [0] [] (.code .invalidParam), .use 0, .when [1, 2] [1, 2], .when [3, 4] [3, 4], .when [5, 6] [5, 6]] },
  -- src/nip47.c:415-554
  { name := "nostr_nip47_create_request_event", args := ["event", "conn", "method", "params_json"], needs := [[0], [1], [2], [3]], byHand := false,
    body := [.refuse [0, 1, 2, 3] [] (.code .invalidParam), .use 0, .use 1, .use 2, .use 3] },
  -- src/nip47.c:556-656
  { name := "nostr_nip47_parse_response_event", args := ["event", "client_secret", "result_type", "result_json", "error_code", "error_message"], needs := [[0], [1]], byHand := false,
    body := [.refuse [0, 1] [] (.code .invalidParam), .use 0, .use 1, .when [2] [2], .when [3] [3], .when [4] [4], .when [5] [5]] },
  -- src/nip47.c:658-701
  { name := "nostr_nip47_create_pay_invoice_params", args := ["params_json", "invoice", "amount_msats"], needs := [[0], [1]], byHand := false,
    body := [.refuse [0, 1] [] (.code .invalidParam), .use 1, .when [2] [2], .use 0] },
  -- src/nip47.c:703-715
  { name := "nostr_nip47_create_get_balance_params", args := ["params_json"], needs := [[0]], byHand := false,
    body := [.refuse [0] [] (.code .invalidParam), .use 0] },
  -- src/nip47.c:717-784
  { name := "nostr_nip47_create_make_invoice_params", args := ["params_json", "description", "description_hash", "expiry_secs"], needs := [[0]], byHand := false,
    body := [.refuse [0] [] (.code .invalidParam), .when [1] [1], .when [2] [2], .when [3] [3], .use 0] },
  -- src/nip47.c:786-844
  { name := "nostr_nip47_parse_notification_event", args := ["event", "client_secret", "notification_type", "notification_json"], needs := [[0], [1]], byHand := false,
    body := [.refuse [0, 1] [] (.code .invalidParam), .use 0, .use 1, .when [2] [2], .when [3] [3]] },
  -- src/nip47.c:846-850
  { name := "nostr_nip47_free_connection", args := ["conn"], needs := [[0]], byHand := true,
    body := [.refuse [0] [] .nothing, .use 0] }]

/-- The public functions of src/nip47_commands.c. -/
def fns_nip47_commands : List Fn := [
  -- src/nip47_commands.c:11-104
  { name := "nostr_nip47_create_list_transactions_params", args := ["params_json", "from", "until", "limit", "offset", "unpaid", "type"], needs := [[0]], byHand := false,
    body := [.refuse [0] [] (.code .invalidParam), .when [1] [1], .when [2] [2], .when [3] [3], .when [4] [4], .when [5] [5], .when [6] [6], .use 0] },
  -- src/nip47_commands.c:106-155
  { name := "nostr_nip47_create_lookup_invoice_params", args := ["params_json", "payment_hash", "invoice"], needs := [[0], [1, 2]], byHand := true,
    body := [.refuse [0] [] (.code .invalidParam), .refuseAll [1, 2] (.code .invalidParam), .when [1] [1], .when [2] [2], .use 0] },
  -- src/nip47_commands.c:157-247
  { name := "nostr_nip47_create_pay_keysend_params", args := ["params_json", "pubkey", "preimage", "tlv_records", "tlv_records[i]"], needs := [[0], [1]], byHand := true,
    body := [.refuse [0, 1] [] (.code .invalidParam), .use 1, .when [2] [2], .when [3] [3], .when [3] [4], .use 0] },
  -- src/nip47_commands.c:249-335
  { name := "nostr_nip47_create_multi_pay_invoice_params", args := ["params_json", "invoice_ids", "invoices", "amounts", "invoices[i]", "invoice_ids[i]"], needs := [[0], [2]], byHand := true,
    body := [.refuse [0, 2] [] (.code .invalidParam), .when [1] [1], .when [1, 5] [5], .use 2, .use 4, .when [3] [3], .use 0] },
  -- src/nip47_commands.c:337-349
  { name := "nostr_nip47_create_get_info_params", args := ["params_json"], needs := [[0]], byHand := false,
    body := [.refuse [0] [] (.code .invalidParam), .use 0] },
  -- src/nip47_commands.c:351-384
  { name := "nostr_nip47_parse_balance_response", args := ["result_json", "balance_msats"], needs := [[0], [1]], byHand := false,
    body := [.refuse [0, 1] [] (.code .invalidParam), .use 0, .use 1] },
  -- src/nip47_commands.c:386-442
  { name := "nostr_nip47_parse_pay_invoice_response", args := ["result_json", "preimage", "fees_paid"], needs := [[0]], byHand := false,
    body := [.refuse [0] [] (.code .invalidParam), .use 0, .when [1] [1], .when [2] [2]] },
  -- src/nip47_commands.c:444-523
  { name := "nostr_nip47_parse_info_response", args := ["result_json", "alias", "color", "pubkey", "network", "block_height", "methods", "method_count"], needs := [[0]], byHand := true,
    body := [.refuse [0] [] (.code .invalidParam), .use 0, .when [1] [1], .when [2] [2], .when [3] [3], .when [4] [4], .when [5] [5], .when [6, 7] [6, 7]] }]

/-- The public functions of src/nip47_session.c. -/
def fns_nip47_session : List Fn := [
  -- src/nip47_session.c:86-113
  { name := "nostr_nip47_session_init", args := [], needs := [], byHand := false,
    body := [] },
  -- src/nip47_session.c:115-185
  { name := "nostr_nip47_session_create", args := ["connection_uri", "session_id"], needs := [[0], [1]], byHand := false,
    body := [.refuse [0, 1] [] (.code .invalidParam), .use 0, .use 1] },
  -- src/nip47_session.c:187-232
  { name := "nostr_nip47_session_add_permission", args := ["session_id", "permission"], needs := [[0], [1]], byHand := false,
    body := [.refuse [0, 1] [] (.code .invalidParam), .use 0, .use 1] },
  -- src/nip47_session.c:234-288
  { name := "nostr_nip47_session_check_permission", args := ["session_id", "method"], needs := [[0], [1]], byHand := false,
    body := [.refuse [0, 1] [] (.code .invalidParam), .use 0, .use 1] },
  -- src/nip47_session.c:290-318
  { name := "nostr_nip47_session_get_connection", args := ["session_id", "connection"], needs := [[0], [1]], byHand := false,
    body := [.refuse [0, 1] [] (.code .invalidParam), .use 0, .use 1] },
  -- src/nip47_session.c:320-341
  { name := "nostr_nip47_session_extend", args := ["session_id"], needs := [[0]], byHand := false,
    body := [.refuse [0] [] (.code .invalidParam), .use 0] },
  -- src/nip47_session.c:343-375
  { name := "nostr_nip47_session_destroy", args := ["session_id"], needs := [[0]], byHand := false,
    body := [.refuse [0] [] (.code .invalidParam), .use 0] }]

/-- The public functions of src/nip49.c. -/
def fns_nip49 : List Fn := [
  -- src/nip49.c:247-322
  { name := "nostr_ncryptsec_encrypt", args := ["privkey", "password", "ncryptsec"], needs := [[0], [1], [2]], byHand := false,
    body := [.refuse [0, 1, 2] [] (.code .invalidParam), .use 1, .use 0, .use 2] },
  -- src/nip49.c:324-381
  { name := "nostr_ncryptsec_decrypt", args := ["ncryptsec", "password", "privkey"], needs := [[0], [1], [2]], byHand := false,
    body := [.refuse [0, 1, 2] [] (.code .invalidParam), .use 0, .use 1, .use 2] },
  -- src/nip49.c:383-410
  { name := "nostr_ncryptsec_validate", args := ["ncryptsec"], needs := [[0]], byHand := false,
    body := [.refuse [0] [] (.code .invalidParam), .use 0] }]

/-- The public functions of src/nip51.c. -/
def fns_nip51 : List Fn := [
  -- src/nip51.c:123-146
  { name := "nostr_list_create", args := ["list"], needs := [[0]], byHand := false,
    body := [.refuse [0] [] (.code .invalidParam), .use 0] },
  -- src/nip51.c:148-163
  { name := "nostr_list_free", args := ["list"], needs := [[0]], byHand := false,
    body := [.refuse [0] [] .nothing, .use 0] },
  -- src/nip51.c:178-182
  { name := "nostr_list_set_d_tag", args := ["list", "d_tag"], needs := [[0]], byHand := true,
    body := [.refuse [0] [] (.code .invalidParam), .use 0, .when [1] [1]] },
  -- src/nip51.c:184-188
  { name := "nostr_list_set_title", args := ["list", "title"], needs := [[0]], byHand := true,
    body := [.refuse [0] [] (.code .invalidParam), .use 0, .when [1] [1]] },
  -- src/nip51.c:190-194
  { name := "nostr_list_set_description", args := ["list", "description"], needs := [[0]], byHand := true,
    body := [.refuse [0] [] (.code .invalidParam), .use 0, .when [1] [1]] },
  -- src/nip51.c:196-200
  { name := "nostr_list_set_image", args := ["list", "image"], needs := [[0]], byHand := true,
    body := [.refuse [0] [] (.code .invalidParam), .use 0, .when [1] [1]] },
  -- src/nip51.c:262-269
  { name := "nostr_list_add_pubkey", args := ["list", "pubkey", "relay_hint", "petname"], needs := [[1], [0]], byHand := true,
    body := [.refuse [1] [] (.code .invalidParam), .use 1, .refuse [0, 1] [] (.code .invalidParam), .use 0, .when [2] [2], .when [3] [3]] },
  -- src/nip51.c:271-278
  { name := "nostr_list_add_event", args := ["list", "event_id", "relay_hint"], needs := [[1], [0]], byHand := true,
    body := [.refuse [1] [] (.code .invalidParam), .use 1, .refuse [0, 1] [] (.code .invalidParam), .use 0, .when [2] [2]] },
  -- src/nip51.c:280-286
  { name := "nostr_list_add_hashtag", args := ["list", "hashtag"], needs := [[1], [0]], byHand := true,
    body := [.refuse [1] [] (.code .invalidParam), .use 1, .refuse [0, 1] [] (.code .invalidParam), .use 0] },
  -- src/nip51.c:288-294
  { name := "nostr_list_add_word", args := ["list", "word"], needs := [[1], [0]], byHand := true,
    body := [.refuse [1] [] (.code .invalidParam), .use 1, .refuse [0, 1] [] (.code .invalidParam), .use 0] },
  -- src/nip51.c:296-302
  { name := "nostr_list_add_relay", args := ["list", "relay_url"], needs := [[1], [0]], byHand := true,
    body := [.refuse [1] [] (.code .invalidParam), .use 1, .refuse [0, 1] [] (.code .invalidParam), .use 0] },
  -- src/nip51.c:304-311
  { name := "nostr_list_add_reference", args := ["list", "reference", "relay_hint"], needs := [[1], [0]], byHand := true,
    body := [.refuse [1] [] (.code .invalidParam), .use 1, .refuse [0, 1] [] (.code .invalidParam), .use 0, .when [2] [2]] },
  -- src/nip51.c:313-320
  { name := "nostr_list_add_group", args := ["list", "group_id", "relay_url", "group_name"], needs := [[1], [2], [0]], byHand := true,
    body := [.refuse [1, 2] [] (.code .invalidParam), .use 1, .use 2, .refuse [0, 1] [] (.code .invalidParam), .use 0, .when [3] [3]] },
  -- src/nip51.c:322-329
  { name := "nostr_list_add_emoji", args := ["list", "shortcode", "image_url"], needs := [[1], [2], [0]], byHand := true,
    body := [.refuse [1, 2] [] (.code .invalidParam), .use 1, .use 2, .refuse [0, 1] [] (.code .invalidParam), .use 0] },
  -- src/nip51.c:331-337
  { name := "nostr_list_count", args := ["list"], needs := [[0]], byHand := false,
    body := [.refuse [0] [] .zero, .use 0] },
  -- src/nip51.c:339-345
  { name := "nostr_list_get", args := ["list"], needs := [[0]], byHand := false,
    body := [.refuse [0] [] .null, .use 0] },
  -- src/nip51.c:347-364
  { name := "nostr_list_remove", args := ["list"], needs := [[0]], byHand := false,
    body := [.refuse [0] [] (.code .invalidParam), .use 0] },
  -- src/nip51.c:464-570
  { name := "nostr_list_to_event", args := ["list", "keypair", "event"], needs := [[0], [2]], byHand := true,
    body := [.refuse [0, 2] [] (.code .invalidParam), .use 0, .use 2, .when [1] [1]] },
  -- src/nip51.c:752-836
  { name := "nostr_list_from_event", args := ["event", "keypair", "list"], needs := [[0], [2]], byHand := true,
    body := [.refuse [0, 2] [] (.code .invalidParam), .use 0, .use 2, .when [1] [1]] }]

/-- The public functions of src/nip59.c. -/
def fns_nip59 : List Fn := [
  -- src/nip59.c:37-218
  { name := "nostr_nip59_wrap_event", args := ["gift_wrap", "event_to_wrap", "author_privkey", "recipient_pubkey"], needs := [[0], [1], [2], [3]], byHand := false,
    body := [.refuse [0, 1, 2, 3] [] (.code .invalidParam), .use 1, .use 2, .use 3, .use 0] },
  -- src/nip59.c:220-285
  { name := "nostr_nip59_unwrap_event", args := ["gift_wrap", "recipient_privkey", "unwrapped_event", "author_pubkey"], needs := [[0], [1], [2]], byHand := false,
    body := [.refuse [0, 1, 2] [] (.code .invalidParam), .use 0, .use 1, .when [3] [3], .use 2] },
  -- src/nip59.c:287-326
  { name := "nostr_nip59_create_rumor", args := ["rumor", "pubkey", "content"], needs := [[0], [1]], byHand := false,
    body := [.refuse [0, 1] [] (.code .invalidParam), .use 0, .use 1, .when [2] [2]] },
  -- src/nip59.c:328-429
  { name := "nostr_nip59_create_seal", args := ["seal", "rumor", "author_privkey", "recipient_pubkey"], needs := [[0], [1], [2], [3]], byHand := false,
    body := [.refuse [0, 1, 2, 3] [] (.code .invalidParam), .use 1, .use 2, .use 3, .use 0] },
  -- src/nip59.c:431-539
  { name := "nostr_nip59_create_gift_wrap", args := ["gift_wrap", "seal", "recipient_pubkey", "extra_tags"], needs := [[0], [1], [2]], byHand := false,
    body := [.refuse [0, 1, 2] [] (.code .invalidParam), .use 1, .use 2, .use 0, .when [3] [3]] }]

/-- The public functions of src/nip65.c. -/
def fns_nip65 : List Fn := [
  -- src/nip65.c:20-42
  { name := "nostr_relay_list_create", args := ["list"], needs := [[0]], byHand := false,
    body := [.refuse [0] [] (.code .invalidParam), .use 0] },
  -- src/nip65.c:44-55
  { name := "nostr_relay_list_free", args := ["list"], needs := [[0]], byHand := false,
    body := [.refuse [0] [] .nothing, .use 0] },
  -- src/nip65.c:89-141
  { name := "nostr_relay_list_add", args := ["list", "url"], needs := [[0], [1]], byHand := false,
    body := [.refuse [0, 1] [] (.code .invalidParam), .use 1, .use 0] },
  -- src/nip65.c:143-181
  { name := "nostr_relay_list_to_event", args := ["list", "event"], needs := [[0], [1]], byHand := false,
    body := [.refuse [0, 1] [] (.code .invalidParam), .use 1, .use 0] },
  -- src/nip65.c:183-231
  { name := "nostr_relay_list_from_event", args := ["event", "list"], needs := [[0], [1]], byHand := false,
    body := [.refuse [0, 1] [] (.code .invalidParam), .use 0, .use 1] },
  -- src/nip65.c:233-239
  { name := "nostr_relay_list_count", args := ["list"], needs := [[0]], byHand := false,
    body := [.refuse [0] [] .zero, .use 0] },
  -- src/nip65.c:241-247
  { name := "nostr_relay_list_get", args := ["list"], needs := [[0]], byHand := false,
    body := [.refuse [0] [] .null, .use 0] },
  -- src/nip65.c:296-300
  { name := "nostr_relay_list_get_read_relays", args := ["list", "urls", "count"], needs := [[0], [1], [2]], byHand := true,
    body := [.refuse [0, 1, 2] [] (.code .invalidParam), .use 0, .use 2, .use 1] },
  -- src/nip65.c:302-306
  { name := "nostr_relay_list_get_write_relays", args := ["list", "urls", "count"], needs := [[0], [1], [2]], byHand := true,
    body := [.refuse [0, 1, 2] [] (.code .invalidParam), .use 0, .use 2, .use 1] },
  -- src/nip65.c:308-317
  { name := "nostr_relay_list_free_urls", args := ["urls"], needs := [[0]], byHand := false,
    body := [.refuse [0] [] .nothing, .use 0] }]

/-- The public functions of src/relay.c. -/
def fns_relay : List Fn := [
  -- src/relay.c:161-184
  { name := "nostr_relay_create", args := ["relay", "url"], needs := [[0], [1]], byHand := false,
    body := [.refuse [0, 1] [] (.code .invalidParam), .use 0, .use 1] },
  -- src/relay.c:186-195
  { name := "nostr_relay_destroy", args := ["relay"], needs := [[0]], byHand := false,
    body := [.refuse [0] [] .nothing, .use 0] },
  -- src/relay.c:197-327
  { name := "nostr_relay_connect", args := ["relay", "callback", "user_data"], needs := [[0], [1]], byHand := false,
    body := [.refuse [0, 1] [] (.code .invalidParam), .use 0, .use 1] },
  -- src/relay.c:329-378
  { name := "nostr_relay_disconnect", args := ["relay"], needs := [[0]], byHand := false,
    body := [.refuse [0] [] (.code .invalidParam), .use 0] },
  -- src/relay.c:380-423
  { name := "nostr_relay_send_event", args := ["relay", "event"], needs := [[0], [1]], byHand := false,
    body := [.refuse [0, 1] [] (.code .invalidParam), .use 1, .use 0] },
  -- src/relay.c:426-485
  { name := "nostr_subscribe", args := ["relay", "subscription_id", "filters_json", "callback", "user_data"], needs := [[0], [1], [2]], byHand := false,
    body := [.refuse [0, 1, 2] [] (.code .invalidParam), .use 1, .use 0, .use 2] },
  -- src/relay.c:487-489
  { name := "nostr_publish_event", args := ["relay", "event"], needs := [[0], [1]], byHand := true,
    body := [.refuse [0, 1] [] (.code .invalidParam), .use 0, .use 1] },
  -- src/relay.c:491-506
  { name := "nostr_relay_set_message_callback", args := ["relay", "callback", "user_data"], needs := [[0]], byHand := false,
    body := [.refuse [0] [] (.code .invalidParam), .use 0] },
  -- src/relay.c:508-558
  { name := "nostr_relay_unsubscribe", args := ["relay", "subscription_id"], needs := [[0], [1]], byHand := false,
    body := [.refuse [0, 1] [] (.code .invalidParam), .use 1, .use 0] }]

/-- The public functions of src/relay_filter.c. -/
def fns_relay_filter : List Fn := [
  -- src/relay_filter.c:98-205
  { name := "nostr_filter_parse", args := ["json", "filter"], needs := [[0], [1]], byHand := false,
    body := [.refuse [0, 1] [] (.code (.relay .invalidJson)), .use 1, .use 0] },
  -- src/relay_filter.c:219-268
  { name := "nostr_filter_free", args := ["filter"], needs := [[0]], byHand := false,
    body := [.refuse [0] [] .nothing, .use 0] },
  -- src/relay_filter.c:270-337
  { name := "nostr_filter_validate", args := ["filter", "result"], needs := [[0], [1]], byHand := true,
    body := [.refuse [0, 1] [1] (.code (.relay .invalidJson)), .use 1, .use 0] },
  -- src/relay_filter.c:346-446
  { name := "nostr_filter_matches", args := ["filter", "event"], needs := [[0], [1]], byHand := false,
    body := [.refuse [0, 1] [] .no, .use 0, .use 1] },
  -- src/relay_filter.c:448-458
  { name := "nostr_filter_matches_with_search", args := ["filter", "event", "search_cb", "user_data"], needs := [[0], [1]], byHand := true,
    body := [.refuse [0, 1] [] .no, .use 0, .use 1, .when [2] [2]] },
  -- src/relay_filter.c:460-470
  { name := "nostr_filters_match", args := ["filters", "event"], needs := [[0], [1]], byHand := false,
    body := [.refuse [0, 1] [] .no, .use 0, .use 1] },
  -- src/relay_filter.c:472-483
  { name := "nostr_filters_match_with_search", args := ["filters", "event", "search_cb", "user_data"], needs := [[0], [1]], byHand := true,
    body := [.refuse [0, 1] [] .no, .use 0, .use 1, .when [2] [2]] },
  -- src/relay_filter.c:485-494
  { name := "nostr_filter_get_e_tags", args := ["filter", "count"], needs := [[0]], byHand := true,
    body := [.refuse [0] [1] .null, .use 0, .when [1] [1]] },
  -- src/relay_filter.c:496-505
  { name := "nostr_filter_get_p_tags", args := ["filter", "count"], needs := [[0]], byHand := true,
    body := [.refuse [0] [1] .null, .use 0, .when [1] [1]] },
  -- src/relay_filter.c:507-530
  { name := "nostr_filter_get_tag_values", args := ["filter", "count"], needs := [[0]], byHand := true,
    body := [.refuse [0] [1] .null, .use 0, .when [1] [1]] },
  -- src/relay_filter.c:532-539
  { name := "nostr_filter_has_tag_filters", args := ["filter"], needs := [[0]], byHand := false,
    body := [.refuse [0] [] .no, .use 0] },
  -- src/relay_filter.c:541-549
  { name := "nostr_filter_get_ids", args := ["filter", "out_count"], needs := [[0]], byHand := true,
    body := [.refuse [0] [1] .null, .use 0, .when [1] [1]] },
  -- src/relay_filter.c:551-559
  { name := "nostr_filter_get_authors", args := ["filter", "out_count"], needs := [[0]], byHand := true,
    body := [.refuse [0] [1] .null, .use 0, .when [1] [1]] },
  -- src/relay_filter.c:561-569
  { name := "nostr_filter_get_kinds", args := ["filter", "out_count"], needs := [[0]], byHand := true,
    body := [.refuse [0] [1] .null, .use 0, .when [1] [1]] },
  -- src/relay_filter.c:571-575
  { name := "nostr_filter_get_since", args := ["filter"], needs := [[0]], byHand := false,
    body := [.refuse [0] [] .zero, .use 0] },
  -- src/relay_filter.c:577-581
  { name := "nostr_filter_get_until", args := ["filter"], needs := [[0]], byHand := false,
    body := [.refuse [0] [] .zero, .use 0] },
  -- src/relay_filter.c:583-587
  { name := "nostr_filter_get_limit", args := ["filter"], needs := [[0]], byHand := false,
    body := [.refuse [0] [] .zero, .use 0] },
  -- src/relay_filter.c:589-593
  { name := "nostr_filter_get_search", args := ["filter"], needs := [[0]], byHand := false,
    body := [.refuse [0] [] .null, .use 0] },
  -- src/relay_filter.c:595-599
  { name := "nostr_filter_has_search", args := ["filter"], needs := [[0]], byHand := false,
    body := [.refuse [0] [] .no, .use 0] },
  -- src/relay_filter.c:632-710
  { name := "nostr_filter_clone", args := ["dst", "src"], needs := [[0], [1]], byHand := false,
    body := [.refuse [0, 1] [] (.code (.relay .invalidJson)), .use 0, .use 1] }]

/-- The public functions of src/relay_message.c. -/
def fns_relay_message : List Fn := [
  -- src/relay_message.c:82-244
  { name := "nostr_client_msg_parse", args := ["json", "msg"], needs := [[0], [1]], byHand := false,
    body := [.refuse [0, 1] [] (.code (.relay .invalidJson)), .use 1, .use 0] },
  -- src/relay_message.c:258-295
  { name := "nostr_client_msg_free", args := ["msg"], needs := [[0]], byHand := false,
    body := [.refuse [0] [] .nothing, .use 0] },
  -- src/relay_message.c:297-307
  { name := "nostr_relay_msg_event", args := ["msg", "sub_id", "event"], needs := [[0]], byHand := false,
    body := [.refuse [0] [] .nothing, .use 0, .when [1] [1]] },
  -- src/relay_message.c:309-323
  { name := "nostr_relay_msg_ok", args := ["msg", "event_id", "message"], needs := [[0]], byHand := false,
    body := [.refuse [0] [] .nothing, .use 0, .when [1] [1], .when [2] [2]] },
  -- src/relay_message.c:325-334
  { name := "nostr_relay_msg_eose", args := ["msg", "sub_id"], needs := [[0]], byHand := false,
    body := [.refuse [0] [] .nothing, .use 0, .when [1] [1]] },
  -- src/relay_message.c:336-349
  { name := "nostr_relay_msg_closed", args := ["msg", "sub_id", "message"], needs := [[0]], byHand := false,
    body := [.refuse [0] [] .nothing, .use 0, .when [1] [1], .when [2] [2]] },
  -- src/relay_message.c:351-360
  { name := "nostr_relay_msg_notice", args := ["msg", "message"], needs := [[0]], byHand := false,
    body := [.refuse [0] [] .nothing, .use 0, .when [1] [1]] },
  -- src/relay_message.c:362-371
  { name := "nostr_relay_msg_auth", args := ["msg", "challenge"], needs := [[0]], byHand := false,
    body := [.refuse [0] [] .nothing, .use 0, .when [1] [1]] },
  -- src/relay_message.c:373-384
  { name := "nostr_relay_msg_count", args := ["msg", "query_id"], needs := [[0]], byHand := false,
    body := [.refuse [0] [] .nothing, .use 0, .when [1] [1]] },
  -- src/relay_message.c:388-491
  { name := "nostr_relay_msg_serialize", args := ["msg", "buf", "out_len"], needs := [[0], [1]], byHand := false,
    body := [.refuse [0, 1] [] (.code (.relay .invalidJson)), .use 0, .when [2] [2], .use 1] },
  -- src/relay_message.c:506-510
  { name := "nostr_client_msg_get_type", args := ["msg"], needs := [[0]], byHand := false,
    body := [.refuse [0] [] .unknown, .use 0] },
  -- src/relay_message.c:512-524
  { name := "nostr_client_msg_get_event", args := ["msg"], needs := [[0]], byHand := false,
    body := [.refuse [0] [] .null, .use 0] },
  -- src/relay_message.c:526-540
  { name := "nostr_client_msg_get_subscription_id", args := ["msg"], needs := [[0]], byHand := false,
    body := [.refuse [0] [] .null, .use 0] },
  -- src/relay_message.c:542-560
  { name := "nostr_client_msg_get_filters", args := ["msg", "out_count"], needs := [[0]], byHand := true,
    body := [.refuse [0] [1] .null, .use 0, .when [1] [1]] }]

/-- The public functions of src/relay_nip11.c. -/
def fns_relay_nip11 : List Fn := [
  -- src/relay_nip11.c:14-33
  { name := "nostr_relay_limitation_init", args := ["limitation"], needs := [[0]], byHand := false,
    body := [.refuse [0] [] .nothing, .use 0] },
  -- src/relay_nip11.c:35-41
  { name := "nostr_relay_info_init", args := ["info"], needs := [[0]], byHand := false,
    body := [.refuse [0] [] .nothing, .use 0] },
  -- src/relay_nip11.c:43-66
  { name := "nostr_relay_info_set_nips", args := ["info", "nips"], needs := [[0]], byHand := true,
    body := [.refuse [0] [] (.code (.relay .missingField)), .use 0, .finish [1], .use 1] },
  -- src/relay_nip11.c:68-84
  { name := "nostr_relay_info_add_nip", args := ["info"], needs := [[0]], byHand := false,
    body := [.refuse [0] [] (.code (.relay .missingField)), .use 0] },
  -- src/relay_nip11.c:86-135
  { name := "nostr_relay_info_free", args := ["info"], needs := [[0]], byHand := false,
    body := [.refuse [0] [] .nothing, .use 0] },
  -- src/relay_nip11.c:139-206
  { name := "nostr_relay_limitation_serialize", args := ["limitation", "buf", "out_len"], needs := [[0], [1]], byHand := false,
    body := [.refuse [0, 1] [] (.code (.relay .invalidJson)), .use 0, .when [2] [2], .use 1] },
  -- src/relay_nip11.c:208-433
  { name := "nostr_relay_info_serialize", args := ["info", "buf", "out_len"], needs := [[0], [1]], byHand := false,
    body := [.refuse [0, 1] [] (.code (.relay .invalidJson)), .use 0, .when [2] [2], .use 1] }]

/-- The public functions of src/relay_protocol.c. -/
def fns_relay_protocol : List Fn := [
  -- src/relay_protocol.c:16-40
  { name := "nostr_relay_error_string", args := [], needs := [], byHand := false,
    body := [] },
  -- src/relay_protocol.c:42-58
  { name := "nostr_validation_error_format", args := ["result", "buf"], needs := [[0], [1]], byHand := false,
    body := [.refuse [0, 1] [] .zero, .use 0, .use 1] },
  -- src/relay_protocol.c:60-74
  { name := "nostr_validate_hex64", args := ["hex"], needs := [[0]], byHand := false,
    body := [.refuse [0] [] .no, .use 0] },
  -- src/relay_protocol.c:76-90
  { name := "nostr_validate_hex_prefix", args := ["hex"], needs := [[0]], byHand := false,
    body := [.refuse [0] [] .no, .use 0] },
  -- src/relay_protocol.c:92-106
  { name := "nostr_validate_subscription_id", args := ["sub_id"], needs := [[0]], byHand := false,
    body := [.refuse [0] [] .no, .use 0] },
  -- src/relay_protocol.c:108-112
  { name := "nostr_validate_timestamp", args := [], needs := [], byHand := false,
    body := [] },
  -- src/relay_protocol.c:114-150
  { name := "nostr_validate_address", args := ["address"], needs := [[0]], byHand := false,
    body := [.refuse [0] [] .no, .use 0] },
  -- src/relay_protocol.c:152-155
  { name := "nostr_timestamp_now", args := [], needs := [], byHand := false,
    body := [] },
  -- src/relay_protocol.c:157-169
  { name := "nostr_kind_get_type", args := [], needs := [], byHand := false,
    body := [] },
  -- src/relay_protocol.c:171-174
  { name := "nostr_kind_is_regular", args := [], needs := [], byHand := false,
    body := [] },
  -- src/relay_protocol.c:176-179
  { name := "nostr_kind_is_replaceable", args := [], needs := [], byHand := false,
    body := [] },
  -- src/relay_protocol.c:181-184
  { name := "nostr_kind_is_ephemeral", args := [], needs := [], byHand := false,
    body := [] },
  -- src/relay_protocol.c:186-189
  { name := "nostr_kind_is_addressable", args := [], needs := [], byHand := false,
    body := [] },
  -- src/relay_protocol.c:191-205
  { name := "nostr_event_get_tag_value", args := ["event", "tag_name"], needs := [[0], [1]], byHand := false,
    body := [.refuse [0, 1] [] .null, .use 0, .use 1] },
  -- src/relay_protocol.c:207-210
  { name := "nostr_event_get_d_tag", args := ["event"], needs := [[0]], byHand := true,
    body := [.refuse [0] [] .null, .use 0] },
  -- src/relay_protocol.c:212-227
  { name := "nostr_event_get_tag_values", args := ["event", "tag_name", "values"], needs := [[0], [1], [2]], byHand := false,
    body := [.refuse [0, 1, 2] [] .zero, .use 0, .use 1, .use 2] },
  -- src/relay_protocol.c:229-243
  { name := "nostr_event_has_tag", args := ["event", "tag_name"], needs := [[0], [1]], byHand := false,
    body := [.refuse [0, 1] [] .no, .use 0, .use 1] },
  -- src/relay_protocol.c:245-256
  { name := "nostr_event_get_tag_at", args := ["event", "out_count"], needs := [[0]], byHand := true,
    body := [.refuse [0] [1] .null, .use 0, .when [1] [1]] },
  -- src/relay_protocol.c:258-271
  { name := "nostr_event_get_expiration", args := ["event"], needs := [[0]], byHand := true,
    body := [.refuse [0] [] .zero, .use 0] },
  -- src/relay_protocol.c:273-280
  { name := "nostr_event_is_expired", args := ["event"], needs := [[0]], byHand := true,
    body := [.refuse [0] [] .no, .use 0] },
  -- src/relay_protocol.c:282-285
  { name := "nostr_event_is_expired_now", args := ["event"], needs := [[0]], byHand := true,
    body := [.refuse [0] [] .no, .use 0] },
  -- src/relay_protocol.c:289-311
  { name := "nostr_event_parse", args := ["json", "event"], needs := [[0], [1]], byHand := false,
    body := [.refuse [0, 1] [] (.code (.relay .invalidJson)), .use 0, .use 1] },
  -- src/relay_protocol.c:313-367
  { name := "nostr_event_serialize_canonical", args := ["event", "buf", "out_len"], needs := [[0], [1]], byHand := false,
    body := [.refuse [0, 1] [] (.code (.relay .invalidJson)), .use 0, .when [2] [2], .use 1] },
  -- src/relay_protocol.c:369-394
  { name := "nostr_event_serialize", args := ["event", "buf", "out_len"], needs := [[0], [1]], byHand := false,
    body := [.refuse [0, 1] [] (.code (.relay .invalidJson)), .use 0, .when [2] [2], .use 1] },
  -- src/relay_protocol.c:431-442
  { name := "nostr_event_compare_replaceable", args := ["a", "b"], needs := [[0], [1]], byHand := false,
    body := [.refuse [0, 1] [] .zero, .use 0, .use 1] },
  -- src/relay_protocol.c:444-447
  { name := "nostr_event_compare_addressable", args := ["a", "b"], needs := [[0], [1]], byHand := true,
    body := [.refuse [0, 1] [] .zero, .use 0, .use 1] },
  -- src/relay_protocol.c:449-509
  { name := "nostr_event_validate_full", args := ["event", "result"], needs := [[0], [1]], byHand := true,
    body := [.refuse [0, 1] [1] (.code (.relay .missingField)), .use 1, .use 0] },
  -- src/relay_protocol.c:511-532
  { name := "nostr_deletion_free", args := ["request"], needs := [[0]], byHand := false,
    body := [.refuse [0] [] .nothing, .use 0] },
  -- src/relay_protocol.c:534-613
  { name := "nostr_deletion_parse", args := ["event", "request"], needs := [[0], [1]], byHand := false,
    body := [.refuse [0, 1] [] (.code (.relay .missingField)), .use 1, .use 0] },
  -- src/relay_protocol.c:615-638
  { name := "nostr_deletion_authorized", args := ["request", "target_event"], needs := [[0], [1]], byHand := false,
    body := [.refuse [0, 1] [] .no, .use 1, .use 0] },
  -- src/relay_protocol.c:640-676
  { name := "nostr_deletion_authorized_address", args := ["request", "target_event"], needs := [[0], [1]], byHand := false,
    body := [.refuse [0, 1] [] .no, .use 1, .use 0] },
  -- src/relay_protocol.c:678-684
  { name := "nostr_tag_iterator_init", args := ["iter", "event"], needs := [[0]], byHand := true,
    body := [.refuse [0] [] .nothing, .use 0] },
  -- src/relay_protocol.c:686-703
  { name := "nostr_tag_iterator_next", args := ["iter", "tag_len"], needs := [[0]], byHand := true,
    body := [.refuse [0] [1] .null, .use 0, .when [1] [1]] },
  -- src/relay_protocol.c:705-731
  { name := "nostr_tag_iterator_next_info", args := ["iter", "tag"], needs := [[0], [1]], byHand := false,
    body := [.refuse [0, 1] [] .no, .use 0, .use 1] },
  -- src/relay_protocol.c:733-741
  { name := "nostr_tag_is_indexable", args := ["tag_name"], needs := [[0]], byHand := false,
    body := [.refuse [0] [] .no, .use 0] },
  -- src/relay_protocol.c:743-747
  { name := "nostr_event_get_id", args := ["event"], needs := [[0]], byHand := false,
    body := [.refuse [0] [] .null, .use 0] },
  -- src/relay_protocol.c:749-753
  { name := "nostr_event_get_pubkey", args := ["event"], needs := [[0]], byHand := false,
    body := [.refuse [0] [] .null, .use 0] },
  -- src/relay_protocol.c:755-762
  { name := "nostr_event_get_id_hex", args := ["event", "out"], needs := [[0], [1]], byHand := false,
    body := [.refuse [0, 1] [] .nothing, .use 1, .use 0] },
  -- src/relay_protocol.c:764-771
  { name := "nostr_event_get_pubkey_hex", args := ["event", "out"], needs := [[0], [1]], byHand := false,
    body := [.refuse [0, 1] [] .nothing, .use 1, .use 0] },
  -- src/relay_protocol.c:773-777
  { name := "nostr_event_get_tag_count", args := ["event"], needs := [[0]], byHand := false,
    body := [.refuse [0] [] .zero, .use 0] },
  -- src/relay_protocol.c:779-785
  { name := "nostr_event_get_tag", args := ["event"], needs := [[0]], byHand := false,
    body := [.refuse [0] [] .null, .use 0] },
  -- src/relay_protocol.c:787-793
  { name := "nostr_tag_get_name", args := ["tag"], needs := [[0]], byHand := false,
    body := [.refuse [0] [] .null, .use 0] },
  -- src/relay_protocol.c:795-799
  { name := "nostr_tag_get_value_count", args := ["tag"], needs := [[0]], byHand := false,
    body := [.refuse [0] [] .zero, .use 0] },
  -- src/relay_protocol.c:801-807
  { name := "nostr_tag_get_value", args := ["tag"], needs := [[0]], byHand := false,
    body := [.refuse [0] [] .null, .use 0] },
  -- src/relay_protocol.c:809-823
  { name := "nostr_event_find_tag", args := ["event", "tag_name"], needs := [[0], [1]], byHand := false,
    body := [.refuse [0, 1] [] .null, .use 0, .use 1] },
  -- src/relay_protocol.c:825-829
  { name := "nostr_event_is_deletion", args := ["event"], needs := [[0]], byHand := false,
    body := [.refuse [0] [] .no, .use 0] },
  -- src/relay_protocol.c:848-892
  { name := "nostr_event_get_e_tags_binary", args := ["event", "out_count"], needs := [[0], [1]], byHand := true,
    body := [.refuse [0, 1] [1] .null, .use 0, .use 1] },
  -- src/relay_protocol.c:894-938
  { name := "nostr_event_get_p_tags_binary", args := ["event", "out_count"], needs := [[0], [1]], byHand := true,
    body := [.refuse [0, 1] [1] .null, .use 0, .use 1] },
  -- src/relay_protocol.c:940-975
  { name := "nostr_hex_to_bytes", args := ["hex", "out"], needs := [[0], [1]], byHand := false,
    body := [.refuse [0, 1] [] (.code (.relay .invalidId)), .use 0, .use 1] },
  -- src/relay_protocol.c:977-987
  { name := "nostr_bytes_to_hex", args := ["bytes", "out"], needs := [[0], [1]], byHand := false,
    body := [.refuse [0, 1] [] .nothing, .use 1, .use 0] },
  -- src/relay_protocol.c:989-992
  { name := "nostr_free", args := ["ptr"], needs := [], byHand := true,
    body := [] },
  -- src/relay_protocol.c:994-1002
  { name := "nostr_free_strings", args := ["strings"], needs := [[0]], byHand := false,
    body := [.refuse [0] [] .nothing, .use 0] },
  -- src/relay_protocol.c:1004-1007
  { name := "nostr_version", args := [], needs := [], byHand := false,
    body := [] }]

/-- The public functions of src/utils.c. -/
def fns_utils : List Fn := [
  -- src/utils.c:14-24
  { name := "nostr_constant_time_memcmp", args := ["a", "b"], needs := [], byHand := true,
    body := [.use 0, .use 1] },
  -- src/utils.c:26-45
  { name := "secure_wipe", args := ["ptr"], needs := [[0]], byHand := false,
    body := [.refuse [0] [] .nothing, .use 0] },
  -- src/utils.c:54-65
  { name := "nostr_hex_decode", args := ["hex", "out"], needs := [[0], [1]], byHand := false,
    body := [.refuse [0, 1] [] .minusOne, .use 0, .use 1] },
  -- src/utils.c:67-73
  { name := "nostr_hex_encode", args := ["bytes", "out"], needs := [[0], [1]], byHand := false,
    body := [.refuse [0, 1] [] .nothing, .use 1, .use 0] }]

/-- The public functions of src/zap.c. -/
def fns_zap : List Fn := [
  -- src/zap.c:45-110
  { name := "nostr_zap_create_request", args := ["event", "recipient", "lnurl", "content", "relays"], needs := [[0], [1], [4]], byHand := false,
    body := [.refuse [0, 1, 4] [] (.code .invalidParam), .use 0, .when [3] [3], .use 4, .when [2] [2], .use 1] },
  -- src/zap.c:112-135
  { name := "nostr_zap_validate_lnurl", args := ["lnurl", "nostr_pubkey", "allows_nostr"], needs := [[0]], byHand := true,
    body := [.refuse [0] [] (.code .invalidParam), .use 0] },
  -- src/zap.c:137-203
  { name := "nostr_zap_parse_receipt", args := ["event", "amount", "bolt11", "preimage", "zap_request"], needs := [[0]], byHand := true,
    body := [.refuse [0] [] (.code .invalidParam), .use 0, .when [2] [2], .when [3] [3], .when [4] [4], .when [1, 2] [1, 2]] },
  -- src/zap.c:205-269
  { name := "nostr_zap_verify", args := ["receipt", "request", "server_pubkey"], needs := [[0], [1], [2]], byHand := false,
    body := [.refuse [0, 1, 2] [] (.code .invalidParam), .use 0, .use 1, .use 2] }]

/-- Every function declared in include/nostr.h, include/nostr_relay_protocol.h and include/nostr_features.h.in. -/
def table : List Fn :=
  fns_bech32 ++
  fns_config ++
  fns_event ++
  fns_features ++
  fns_hd_key ++
  fns_key ++
  fns_nip05 ++
  fns_nip10 ++
  fns_nip13 ++
  fns_nip17 ++
  fns_nip18 ++
  fns_nip21 ++
  fns_nip25 ++
  fns_nip26 ++
  fns_nip44 ++
  fns_nip46 ++
  fns_nip47 ++
  fns_nip47_commands ++
  fns_nip47_session ++
  fns_nip49 ++
  fns_nip51 ++
  fns_nip59 ++
  fns_nip65 ++
  fns_relay ++
  fns_relay_filter ++
  fns_relay_message ++
  fns_relay_nip11 ++
  fns_relay_protocol ++
  fns_utils ++
  fns_zap

end Nostr.Null

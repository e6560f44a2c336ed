{
 "claims": [
  {
   "property": "C01",
   "status": "proved",
   "theorems": [
    "Nostr.Bech32.Props.C01_key_roundtrip",
    "Nostr.Bech32.Props.C01_privkey_roundtrip",
    "Nostr.Bech32.Props.C01_eventid_roundtrip"
   ],
   "note": ""
  },
  {
   "property": "C02",
   "status": "proved",
   "theorems": [
    "Nostr.Bech32.Props.C02_key_typo_rejected",
    "Nostr.Bech32.Props.C02_privkey_typo_rejected",
    "Nostr.Bech32.Props.C02_eventid_typo_rejected"
   ],
   "note": "any one or two substitutions; for nsec/note anywhere in the text, for keys in the data part (the prefix is free for keys)"
  },
  {
   "property": "C03",
   "status": "proved",
   "theorems": [
    "Nostr.Bech32.Props.C03_key_canonical",
    "Nostr.Bech32.Props.C03_privkey_canonical",
    "Nostr.Bech32.Props.C03_eventid_canonical",
    "Nostr.Bech32.Props.C03_key_unique_text"
   ],
   "note": ""
  },
  {
   "property": "C04",
   "status": "partial",
   "theorems": [
    "Nostr.Bech32.Props.C04_entity_separation_partial",
    "Nostr.Bech32.Props.C04_key_accepts_nsec_refuted"
   ],
   "note": "false for nostr_key_from_bech32, which never looks at the prefix: refuted for every secret key; separation proved for the nsec and note decoders"
  },
  {
   "property": "C05",
   "status": "partial",
   "theorems": [
    "Nostr.Bech32.Props.C05_decode_in_bounds_partial",
    "Nostr.Bech32.Props.C05_key_overflow_refuted",
    "Nostr.Bech32.Props.C05_npub_overflow_refuted",
    "Nostr.Bech32.Props.C05_fixed_overflow_refuted"
   ],
   "note": "false for 87..90 character texts (stack buffer overflow); safe lengths proved"
  },
  {
   "property": "C06",
   "status": "proved",
   "theorems": [
    "Nostr.Nip21.Props.C06_nprofile_roundtrip",
    "Nostr.Nip21.Props.C06_nevent_roundtrip",
    "Nostr.Nip21.Props.C06_naddr_roundtrip",
    "Nostr.Nip21.Props.C06_nrelay_roundtrip"
   ],
   "note": "in-limit includes: records fit 4096 bytes (see C74 for the excluded corner)"
  },
  {
   "property": "C07",
   "status": "proved",
   "theorems": [
    "Nostr.Nip21.Props.C07_parse_meaning",
    "Nostr.Nip21.Props.C07_parse_total",
    "Nostr.Nip21.Props.C07_truncated_rejected",
    "Nostr.Nip21.Props.C07_unknown_ignored"
   ],
   "note": ""
  },
  {
   "property": "C08",
   "status": "proved",
   "theorems": [
    "Nostr.Nip21.Props.C08_parse_encode",
    "Nostr.Nip21.Props.C08_parse_kind"
   ],
   "note": ""
  },
  {
   "property": "C09",
   "status": "proved",
   "theorems": [
    "Nostr.Hex.Props.C09_encode_lower",
    "Nostr.Hex.Props.C09_decode_exact",
    "Nostr.Hex.Props.C09_decode_accepts",
    "Nostr.Hex.Props.C09_round_trip",
    "Nostr.Hex.Props.C09_relay_decode_exact"
   ],
   "note": ""
  },
  {
   "property": "C10",
   "status": "proved",
   "theorems": [
    "Nostr.Hex.Props.C10_exact"
   ],
   "note": ""
  },
  {
   "property": "C11",
   "status": "proved",
   "theorems": [
    "Nostr.Nip13.Props.C11_leading_zeros"
   ],
   "note": ""
  },
  {
   "property": "C12",
   "status": "proved",
   "theorems": [
    "Nostr.Nip13.Props.C12_mining_sound",
    "Nostr.Nip13.Props.C12_not_found"
   ],
   "note": ""
  },
  {
   "property": "C13",
   "status": "proved",
   "theorems": [
    "Nostr.Nip13.Props.C13_one_winner",
    "Nostr.Nip13.Props.C13_never_overwritten"
   ],
   "note": "interleaving semantics; the unlocked read of the found flag is an atomic step"
  },
  {
   "property": "C14",
   "status": "proved",
   "theorems": [
    "Nostr.Nip44.Props.C14_roundtrip",
    "Nostr.Nip44.Props.C14_length_hiding",
    "Nostr.Nip44.Props.C14_unpad_exact"
   ],
   "note": ""
  },
  {
   "property": "C15",
   "status": "partial",
   "theorems": [
    "Nostr.Nip44.Props.C15_roundtrip_partial",
    "Nostr.Nip44.Props.C15_long_refuted"
   ],
   "note": "proved up to 61440 bytes; false for every plaintext of 61441..65535 bytes (payload limit 65600 < 65603)"
  },
  {
   "property": "C16",
   "status": "proved",
   "theorems": [
    "Nostr.Nip44.Props.C16_authenticated",
    "Nostr.Nip44.Props.C16_version"
   ],
   "note": ""
  },
  {
   "property": "C17",
   "status": "partial",
   "theorems": [
    "Nostr.Event.Props.C17_injective_partial",
    "Nostr.Event.Props.C17_plain_refuted",
    "Nostr.Event.Props.C17_cjson_refuted"
   ],
   "note": "proved for any number of tags of which at most 400 hold nothing but control characters (build without cJSON) and timestamps below 10^15 (build with cJSON); false beyond: truncated buffer, double rounding"
  },
  {
   "property": "C18",
   "status": "partial",
   "theorems": [
    "Nostr.Arena.Props.C18_tags",
    "Nostr.Arena.Props.C18_add",
    "Nostr.Arena.Props.C18_succeeds",
    "Nostr.Arena.Props.C18_refines",
    "Nostr.Arena.Props.C18_own_partial",
    "Nostr.Arena.Props.C18_own_refuted",
    "Nostr.Arena.Props.C18_alignment_refuted"
   ],
   "note": "proved for all histories with arguments outside the event, over a byte-level memory and an arbitrary allocator; false when the arguments are a tag of the same event and the memory has to grow (use after free); the pointer arrays are not aligned"
  },
  {
   "property": "C19",
   "status": "partial",
   "theorems": [
    "Nostr.Event.Props.C19_signed_verifies",
    "Nostr.Event.Props.C19_verify_iff",
    "Nostr.Event.Props.C19_tamper_partial",
    "Nostr.Event.Props.C19_tamper_plain_refuted",
    "Nostr.Event.Props.C19_tamper_cjson_refuted"
   ],
   "note": "completeness and soundness for every event; tamper detection on the range where C17 holds; outside it a signed event can be changed and still verifies"
  },
  {
   "property": "C20",
   "status": "partial",
   "theorems": [
    "Nostr.Event.Props.C20_roundtrip_partial",
    "Nostr.Event.Props.C20_large_time_refuted"
   ],
   "note": "proved for timestamps below 10^15, and for the rest up to 2^53 in C190; false above 2^53 (numbers pass through double)"
  },
  {
   "property": "C21",
   "status": "proved",
   "theorems": [
    "Nostr.RelayProto.Props.C21_partition",
    "Nostr.RelayProto.Props.C21_predicates",
    "Nostr.RelayProto.Props.C21_exactly_one"
   ],
   "note": ""
  },
  {
   "property": "C22",
   "status": "proved",
   "theorems": [
    "Nostr.RelayProto.Props.C22_total_order",
    "Nostr.RelayProto.Props.C22_best",
    "Nostr.RelayProto.Props.C22_converge"
   ],
   "note": ""
  },
  {
   "property": "C23",
   "status": "partial",
   "theorems": [
    "Nostr.Filter.Props.C23_sound",
    "Nostr.Filter.Props.C23_matches_partial",
    "Nostr.Filter.Props.C23_crowded_refuted",
    "Nostr.Filter.Props.C23_negative_refuted",
    "Nostr.Filter.Props.C23_search"
   ],
   "note": "never matches wrongly; completeness fails from the 257th tag of one name on (refuted); negative times are ignored (refuted)"
  },
  {
   "property": "C24",
   "status": "proved",
   "theorems": [
    "Nostr.Filter.Props.C24_disjunction",
    "Nostr.Filter.Props.C24_disjunction_search",
    "Nostr.Filter.Props.C24_narrower"
   ],
   "note": ""
  },
  {
   "property": "C25",
   "status": "partial",
   "theorems": [
    "Nostr.Filter.Props.C25_no_widening_partial",
    "Nostr.Filter.Props.C25_widening_refuted",
    "Nostr.Filter.Props.C25_case_refuted"
   ],
   "note": "proved for unambiguous well-typed documents; false for malformed conditions, duplicate keys, until 0, #E beside #e, non-objects"
  },
  {
   "property": "C26",
   "status": "partial",
   "theorems": [
    "Nostr.RelayProto.Props.C26_by_id",
    "Nostr.RelayProto.Props.C26_kind",
    "Nostr.RelayProto.Props.C26_by_address_partial",
    "Nostr.RelayProto.Props.C26_newer_refuted",
    "Nostr.RelayProto.Props.C26_long_refuted"
   ],
   "note": "by id: proved; by address: the time condition is not checked (refuted) and addresses of 256+ bytes never match (refuted)"
  },
  {
   "property": "C27",
   "status": "partial",
   "theorems": [
    "Nostr.RelayProto.Props.C27_expired_partial",
    "Nostr.RelayProto.Props.C27_never",
    "Nostr.RelayProto.Props.C27_malformed",
    "Nostr.RelayProto.Props.C27_monotone",
    "Nostr.RelayProto.Props.C27_boundary_refuted"
   ],
   "note": "false at the expiration second itself and for the value 0"
  },
  {
   "property": "C28",
   "status": "partial",
   "theorems": [
    "Nostr.RelayProto.Props.C28_window_partial",
    "Nostr.RelayProto.Props.C28_overflow_refuted"
   ],
   "note": "now + allowance is computed in int64_t without overflow check"
  },
  {
   "property": "C29",
   "status": "partial",
   "theorems": [
    "Nostr.RelayProto.Props.C29_accepts_iff_partial",
    "Nostr.RelayProto.Props.C29_first_failure_partial",
    "Nostr.RelayProto.Props.C29_overflow_refuted"
   ],
   "note": "holds while the sum of the clock and the configured limit is in range; otherwise the sum overflows"
  },
  {
   "property": "C30",
   "status": "proved",
   "theorems": [
    "Nostr.Filter.Props.C30_clone",
    "Nostr.Filter.Props.C30_enough_memory",
    "Nostr.Filter.Props.C30_refused",
    "Nostr.Filter.Props.C30_free",
    "Nostr.Filter.Props.C30_independent"
   ],
   "note": ""
  },
  {
   "property": "C31",
   "status": "partial",
   "theorems": [
    "Nostr.Msg.Props.C31_parse_partial",
    "Nostr.Msg.Props.C31_length",
    "Nostr.Msg.Props.C31_safe_partial",
    "Nostr.Msg.Props.C31_fields",
    "Nostr.Msg.Props.C31_wrong_type_refuted"
   ],
   "note": "exact for documents whose numbers cJSON prints as the same numbers (C190), and safe but for numbers out of range (C191); false in that a non-object in the place of an event or filter is accepted"
  },
  {
   "property": "C32",
   "status": "partial",
   "theorems": [
    "Nostr.Msg.Props.C32_buffer",
    "Nostr.Msg.Props.C32_text_partial",
    "Nostr.Msg.Props.C32_injective_partial",
    "Nostr.Msg.Props.C32_builders",
    "Nostr.Msg.Props.C32_large_count_refuted"
   ],
   "note": "buffer contract proved for all sizes; text faithful for times and counts below 10^15, false beyond 2^53"
  },
  {
   "property": "C33",
   "status": "proved",
   "theorems": [
    "Nostr.Relay.Props.C33_exact",
    "Nostr.Relay.Props.C33_chunking",
    "Nostr.Relay.Props.C33_limit_refuted"
   ],
   "note": "below the 10 MB buffer limit, as stated; beyond it the same stream can be delivered or dropped depending on the chunks (C33_limit_refuted)"
  },
  {
   "property": "C34",
   "status": "proved",
   "theorems": [
    "Nostr.Relay.Props.C34_bounds"
   ],
   "note": ""
  },
  {
   "property": "C35",
   "status": "partial",
   "theorems": [
    "Nostr.Relay.Props.C35_alphabet",
    "Nostr.Relay.Props.C35_request",
    "Nostr.Relay.Props.C35_close",
    "Nostr.Relay.Props.C35_safe",
    "Nostr.Relay.Props.C35_length_refuted"
   ],
   "note": "no injection through the id: proved; false that at most 64 characters are accepted (256 are)"
  },
  {
   "property": "C36",
   "status": "partial",
   "theorems": [
    "Nostr.Relay.Life.C36_careful_partial",
    "Nostr.Relay.Life.C36_failed_connect_refuted",
    "Nostr.Relay.Life.C36_destroy_refuted",
    "Nostr.Relay.Life.C36_reconnect_leak_refuted"
   ],
   "note": "false after a failing client connection attempt and for a destroyed relay whose connection was lost; proved for runs without these"
  },
  {
   "property": "C37",
   "status": "partial",
   "theorems": [
    "Nostr.Nip47.Props.C37_roundtrip",
    "Nostr.Nip47.Props.C37_only_partial",
    "Nostr.Nip47.Props.C37_lax_refuted"
   ],
   "note": "the round trip is proved; not only hex digits are accepted in keys"
  },
  {
   "property": "C38",
   "status": "partial",
   "theorems": [
    "Nostr.Session.Props.C38_budget_partial",
    "Nostr.Session.Props.C38_exact_partial",
    "Nostr.Session.Props.C38_wrap_refuted"
   ],
   "note": "proved while no request overflows the 64-bit sum; false with overflow"
  },
  {
   "property": "C39",
   "status": "partial",
   "theorems": [
    "Nostr.Session.Conc.C39_right_session",
    "Nostr.Session.Conc.C39_destroyed",
    "Nostr.Session.Conc.C39_no_use_partial",
    "Nostr.Session.Conc.C39_map",
    "Nostr.Session.Conc.C39_get_refuted"
   ],
   "note": "every schedule; creation is one step with fresh random ids. Not true literally: a call that found the session before it was destroyed can report success (without a connection, without approving a payment)"
  },
  {
   "property": "C40",
   "status": "proved",
   "theorems": [
    "Nostr.Session.Props.C40_bounded",
    "Nostr.Session.Props.C40_rate",
    "Nostr.Session.Props.C40_reclaims"
   ],
   "note": ""
  },
  {
   "property": "C41",
   "status": "partial",
   "theorems": [
    "Nostr.Session.Props.C41_no_raise_partial",
    "Nostr.Session.Props.C41_raise_refuted"
   ],
   "note": "proved while the configured maximum is not raised; false otherwise"
  },
  {
   "property": "C42",
   "status": "partial",
   "theorems": [
    "Nostr.Nip47.Props.C42_response_partial",
    "Nostr.Nip47.Props.C42_result",
    "Nostr.Nip47.Props.C42_error",
    "Nostr.Nip47.Props.C42_p_tag_refuted",
    "Nostr.Nip47.Props.C42_no_tag_refuted"
   ],
   "note": "proved for responses whose p tag does not name another key and that carry an encryption tag; false for responses as NIP-47 prescribes them. Cryptography is a parameter assumed correct"
  },
  {
   "property": "C43",
   "status": "proved",
   "theorems": [
    "Nostr.Nip47.Props.C43_escape",
    "Nostr.Nip47.Props.C43_event",
    "Nostr.Nip47.Props.C43_injective",
    "Nostr.Nip51.Props.C43_list"
   ],
   "note": "nip47.c truncates between characters when the buffer is small; nip51.c reserves the exact length"
  },
  {
   "property": "C44",
   "status": "proved",
   "theorems": [
    "Nostr.Config.Props.C44_always_in_range",
    "Nostr.Config.Props.C44_update"
   ],
   "note": ""
  },
  {
   "property": "C45",
   "status": "proved",
   "theorems": [
    "Nostr.Config.Props.C45_refines",
    "Nostr.Config.Props.C45_once",
    "Nostr.Config.Props.C45_env",
    "Nostr.Config.Props.C45_env_empty_refuted"
   ],
   "note": "the environment part: a variable that holds the decimal text of a number sets its field, an unset variable or one with foreign characters leaves it; the last theorem records that an empty variable is read as 0"
  },
  {
   "property": "C46",
   "status": "proved",
   "theorems": [
    "Nostr.Nip51.Props.C46_sequence"
   ],
   "note": ""
  },
  {
   "property": "C47",
   "status": "partial",
   "theorems": [
    "Nostr.Nip51.Props.C47_roundtrip_partial",
    "Nostr.Nip51.Props.C47_long_refuted",
    "Nostr.Nip51.Props.C47_empty_refuted"
   ],
   "note": "false for long fields and empty hints; otherwise exact. Cryptography is a parameter assumed correct"
  },
  {
   "property": "C48",
   "status": "proved",
   "theorems": [
    "Nostr.Nip51.Props.C48_buffer"
   ],
   "note": ""
  },
  {
   "property": "C49",
   "status": "proved",
   "theorems": [
    "Nostr.Nip65.Props.C49_invariant",
    "Nostr.Nip65.Props.C49_get"
   ],
   "note": ""
  },
  {
   "property": "C50",
   "status": "proved",
   "theorems": [
    "Nostr.Nip65.Props.C50_import",
    "Nostr.Nip65.Props.C50_roundtrip",
    "Nostr.Nip65.Props.C50_writable"
   ],
   "note": "lists with more entries than an event may have tags cannot be written (C50_writable)"
  },
  {
   "property": "C51",
   "status": "proved",
   "theorems": [
    "Nostr.Nip65.Props.C51_view",
    "Nostr.Nip65.Props.C51_complete"
   ],
   "note": "with the allocator model of Verif/Heap.lean"
  },
  {
   "property": "C52",
   "status": "partial",
   "theorems": [
    "Nostr.Nip10.Props.C52_marked",
    "Nostr.Nip10.Props.C52_unmarked",
    "Nostr.Nip10.Props.C52_none",
    "Nostr.Nip10.Props.C52_roundtrip",
    "Nostr.Nip10.Props.C52_reply_ok",
    "Nostr.Nip10.Props.C52_is_reply",
    "Nostr.Nip10.Props.C52_mention_refuted"
   ],
   "note": "false for events whose only e tags are marked mention: the positional fallback reports them"
  },
  {
   "property": "C53",
   "status": "partial",
   "theorems": [
    "Nostr.Nip18.Props.C53_roundtrip",
    "Nostr.Nip18.Props.C53_create",
    "Nostr.Nip18.Props.C53_last_partial",
    "Nostr.Nip18.Props.C53_errors",
    "Nostr.Nip18.Props.C53_hint_refuted"
   ],
   "note": "the round trip is proved; with several e tags the relay hint of an earlier one is reported with the last id"
  },
  {
   "property": "C54",
   "status": "proved",
   "theorems": [
    "Nostr.Nip25.Props.C54_roundtrip",
    "Nostr.Nip25.Props.C54_create",
    "Nostr.Nip25.Props.C54_classify",
    "Nostr.Nip25.Props.C54_last"
   ],
   "note": ""
  },
  {
   "property": "C55",
   "status": "partial",
   "theorems": [
    "Nostr.Nip26.Props.C55_wellformed_partial",
    "Nostr.Nip26.Props.C55_accepted_partial",
    "Nostr.Nip26.Props.C55_repeated_refuted",
    "Nostr.Nip26.Props.C55_negative_kind_refuted"
   ],
   "note": "false for repeated time bounds: the last one replaces the others; proved for at most one lower and one upper bound"
  },
  {
   "property": "C56",
   "status": "proved",
   "theorems": [
    "Nostr.Nip26.Props.C56_verify_iff",
    "Nostr.Nip26.Props.C56_created_verifies",
    "Nostr.Nip26.Props.C56_binding",
    "Nostr.Nip26.Props.C56_event_roundtrip",
    "Nostr.Nip26.Props.C56_event_iff"
   ],
   "note": "signature scheme and hash are parameters; binding reduces a double use to a collision or a doubly valid signature"
  },
  {
   "property": "C57",
   "status": "proved",
   "theorems": [
    "Nostr.Nip05.Props.C57_parse",
    "Nostr.Nip05.Props.C57_url",
    "Nostr.Nip05.Props.C57_host",
    "Nostr.Nip05.Props.C57_asks"
   ],
   "note": ""
  },
  {
   "property": "C58",
   "status": "partial",
   "theorems": [
    "Nostr.Nip05.Props.C58_sound_partial",
    "Nostr.Nip05.Props.C58_documents_partial",
    "Nostr.Nip05.Props.C58_outside_refuted",
    "Nostr.Nip05.Props.C58_nested_refuted",
    "Nostr.Nip05.Props.C58_value_refuted"
   ],
   "note": "false as stated: names outside the names object are found, a nested names object hides the real one; proved for documents that mention the name only in the table"
  },
  {
   "property": "C59",
   "status": "partial",
   "theorems": [
    "Nostr.Gift.Props.C59_dm_seal",
    "Nostr.Gift.Props.C59_dm_wrap",
    "Nostr.Gift.Props.C59_dm_send",
    "Nostr.Gift.Props.C59_gift_partial",
    "Nostr.Gift.Props.C59_gift_refuted"
   ],
   "note": "holds for the NIP-17 calls; the NIP-59 calls publish the exact time when the random generator fails"
  },
  {
   "property": "C60",
   "status": "proved",
   "theorems": [
    "Nostr.Gift.Props.C60_authentic",
    "Nostr.Gift.Props.C60_sender"
   ],
   "note": "cryptography and JSON number conversion are parameters"
  },
  {
   "property": "C61",
   "status": "partial",
   "theorems": [
    "Nostr.Gift.Props.C61_sealed_partial",
    "Nostr.Gift.Props.C61_checked_partial",
    "Nostr.Gift.Props.C61_impersonation_refuted"
   ],
   "note": "false: the author of the inner event is not compared with the signer of the seal"
  },
  {
   "property": "C62",
   "status": "partial",
   "theorems": [
    "Nostr.Gift.Props.C62_created_partial",
    "Nostr.Gift.Props.C62_sent_refuted"
   ],
   "note": "false for every sent message: the id is computed before the tags are added"
  },
  {
   "property": "C63",
   "status": "proved",
   "theorems": [
    "Nostr.Nip49.Props.C63_encrypts",
    "Nostr.Nip49.Props.C63_roundtrip",
    "Nostr.Nip49.Props.C63_validate_iff",
    "Nostr.Nip49.Props.C63_decrypt_iff",
    "Nostr.Nip49.Props.C63_only_sealed",
    "Nostr.Nip49.Props.C63_altered_rejected",
    "Nostr.Nip49.Props.C63_typo_rejected",
    "Nostr.Nip49.Props.C63_any_text"
   ],
   "note": "scrypt and the IETF cipher are parameters; rejection of alterations is reduced to a key collision or a forgery of that cipher, and is unconditional for up to two changed characters"
  },
  {
   "property": "C64",
   "status": "proved",
   "theorems": [
    "Nostr.Hd.Props.C64_validate_iff",
    "Nostr.Hd.Props.C64_validate_total",
    "Nostr.Hd.Props.C64_generate",
    "Nostr.Hd.Props.C64_generated_valid",
    "Nostr.Hd.Props.C64_distinct"
   ],
   "note": "the hash is a parameter with 32-byte results"
  },
  {
   "property": "C65",
   "status": "proved",
   "theorems": [
    "Nostr.Hd.Props.C65_lookup",
    "Nostr.Hd.Props.C65_table"
   ],
   "note": ""
  },
  {
   "property": "C66",
   "status": "partial",
   "theorems": [
    "Nostr.Hd.Props.C66_master",
    "Nostr.Hd.Props.C66_derive",
    "Nostr.Hd.Props.C66_fold_partial",
    "Nostr.Hd.Props.C66_distinct",
    "Nostr.Hd.Props.C66_any_path",
    "Nostr.Hd.Props.C66_out_of_range_partial",
    "Nostr.Hd.Props.C66_alias_refuted"
   ],
   "note": "holds for numbers below 2^32; larger numbers are reduced modulo 2^32 and alias, empty hardened and negative components are accepted"
  },
  {
   "property": "C67",
   "status": "partial",
   "theorems": [
    "Nostr.Hd.Props.C67_seed_partial",
    "Nostr.Hd.Props.C67_spaces_refuted"
   ],
   "note": "false for phrases with extra spaces; holds for single-spaced phrases"
  },
  {
   "property": "C68",
   "status": "proved",
   "theorems": [
    "Nostr.Zap.Props.C68_sound",
    "Nostr.Zap.Props.C68_accepts"
   ],
   "note": "cryptography and JSON number conversion are parameters; amounts count as known when the request states one in decimal and the invoice has a multiplier letter and fits 64 bits (see C69 for the others)"
  },
  {
   "property": "C69",
   "status": "partial",
   "theorems": [
    "Nostr.Zap.Props.C69_amount_partial",
    "Nostr.Zap.Props.C69_only_receipts",
    "Nostr.Zap.Props.C69_no_unit_refuted",
    "Nostr.Zap.Props.C69_overflow_refuted"
   ],
   "note": "false for invoices without a multiplier letter and for amounts beyond 64 bits"
  },
  {
   "property": "C70",
   "status": "partial",
   "theorems": [
    "Nostr.Zap.Props.C70_overflow_iff_partial",
    "Nostr.Zap.Props.C70_overflow_refuted"
   ],
   "note": "false; the texts that overrun the buffer are characterised exactly"
  },
  {
   "property": "C71",
   "status": "partial",
   "theorems": [
    "Nostr.Nip46.Props.C71_request_partial",
    "Nostr.Nip46.Props.C71_only_requests",
    "Nostr.Nip46.Props.C71_standard_request",
    "Nostr.Nip46.Props.C71_response_partial",
    "Nostr.Nip46.Props.C71_long_refuted",
    "Nostr.Nip46.Props.C71_digit_refuted",
    "Nostr.Nip46.Props.C71_both_refuted"
   ],
   "note": "ids over 64 and methods over 31 bytes are cut; results beginning with JSON text (hex keys beginning with a digit) do not arrive as strings; a result beside an error is dropped"
  },
  {
   "property": "C72",
   "status": "partial",
   "theorems": [
    "Nostr.Nip11.Props.C72_buffer",
    "Nostr.Nip11.Props.C72_limitation_buffer",
    "Nostr.Nip11.Props.C72_nips",
    "Nostr.Nip11.Props.C72_own_refuted"
   ],
   "note": "false when a document's own array is passed to the setter (freed before it is copied)"
  },
  {
   "property": "C73",
   "status": "partial",
   "theorems": [
    "Nostr.Hex.Props.C73_round_trip",
    "Nostr.Hex.Props.C73_accepts_partial",
    "Nostr.Hex.Props.C73_strict_refuted"
   ],
   "note": "round trip proved; strictness false: sscanf %2hhx accepts spaces and signs"
  },
  {
   "property": "C74",
   "status": "partial",
   "theorems": [
    "Nostr.Nip21.Props.C74_relay_dropped_refuted",
    "Nostr.Nip21.Props.C74_relays_subsequence_partial"
   ],
   "note": "false: 16 relay URLs of 255 characters lose one; subsequence property proved"
  },
  {
   "property": "C75",
   "status": "partial",
   "theorems": [
    "Nostr.Nip21.Props.C75_uri_overflow_refuted",
    "Nostr.Nip21.Props.C75_uri_in_bounds_partial"
   ],
   "note": "false for 96-character npub/nsec/note URIs (inherits the bech32 stack overflow); all other lengths and all TLV decoders proved safe"
  },
  {
   "property": "C76",
   "status": "proved",
   "theorems": [
    "Nostr.Nip21.Props.C76_entity_typo_rejected"
   ],
   "note": ""
  },
  {
   "property": "C77",
   "status": "partial",
   "theorems": [
    "Nostr.Config.Props.C77_callback_deadlock_refuted",
    "Nostr.Config.Props.C77_inert_callback_partial"
   ],
   "note": "false: the callback runs with the non-recursive lock held; proved for callbacks that do not call back"
  },
  {
   "property": "C78",
   "status": "partial",
   "theorems": [
    "Nostr.Event.Props.C78_nip01_partial",
    "Nostr.Event.Props.C78_builds_agree",
    "Nostr.Event.Props.C78_control_refuted"
   ],
   "note": "proved for texts without rare control characters; false for U+0001 etc., which the code escapes and NIP-01 does not"
  },
  {
   "property": "C79",
   "status": "partial",
   "theorems": [
    "Nostr.Event.Props.C79_dangling_refuted",
    "Nostr.Event.Props.C79_pointer_partial"
   ],
   "note": "false: a malformed id frees the event but leaves the pointer"
  },
  {
   "property": "C80",
   "status": "partial",
   "theorems": [
    "Nostr.Event.Props.C80_in_buffer_partial",
    "Nostr.Event.Props.C80_exact_partial",
    "Nostr.Event.Props.C80_overflow_refuted"
   ],
   "note": "proved for any number of tags of any sizes of which at most 400 hold nothing but control characters, and an exact condition for all events; false for 600 empty tags in the build without cJSON"
  },
  {
   "property": "C81",
   "status": "partial",
   "theorems": [
    "Nostr.Nip13.Props.C81_verify_iff_partial",
    "Nostr.Nip13.Props.C81_id_not_checked_refuted"
   ],
   "note": "leading zeros and commitment proved; false that the id is bound to the content"
  },
  {
   "property": "C82",
   "status": "partial",
   "theorems": [
    "Nostr.Nip13.Props.C82_short_tag_refuted",
    "Nostr.Nip13.Props.C82_long_tag_partial",
    "Nostr.Arena.Props.C82_corrupts_refuted"
   ],
   "note": "false for an existing one-value nonce tag: the call succeeds and destroys the pointers of the next tag"
  },
  {
   "property": "C83",
   "status": "partial",
   "theorems": [
    "Nostr.Nip44.Props.C83_padding_refuted",
    "Nostr.Nip44.Props.C83_interop_refuted",
    "Nostr.Nip44.Props.C83_padding_partial"
   ],
   "note": "false from 257 bytes on (wrong power of two); proved up to 256 bytes, and never longer than specified"
  },
  {
   "property": "C84",
   "status": "proved",
   "theorems": [
    "Nostr.RelayProto.Props.C84_validators",
    "Nostr.RelayProto.Props.C84_address"
   ],
   "note": ""
  },
  {
   "property": "C85",
   "status": "proved",
   "theorems": [
    "Nostr.RelayProto.Props.C85_exact"
   ],
   "note": ""
  },
  {
   "property": "C86",
   "status": "proved",
   "theorems": [
    "Nostr.RelayProto.Props.C86_iterates"
   ],
   "note": ""
  },
  {
   "property": "C87",
   "status": "proved",
   "theorems": [
    "Nostr.RelayProto.Props.C87_canonical"
   ],
   "note": ""
  },
  {
   "property": "C88",
   "status": "proved",
   "theorems": [
    "Nostr.Filter.Props.C88_validate"
   ],
   "note": ""
  },
  {
   "property": "C89",
   "status": "proved",
   "theorems": [
    "Nostr.Filter.Props.C89_parse",
    "Nostr.Filter.Props.C89_enough_memory",
    "Nostr.Filter.Props.C89_parse_free"
   ],
   "note": "the JSON tree's own memory belongs to cJSON and is not modelled"
  },
  {
   "property": "C90",
   "status": "partial",
   "theorems": [
    "Nostr.Relay.Props.C90_routing",
    "Nostr.Relay.Props.C90_once",
    "Nostr.Relay.Props.C90_event_partial",
    "Nostr.Double.Props.C190_messages_refuted"
   ],
   "note": "routing is exact for every message; the event delivered is that of the message if cJSON prints its numbers as the same numbers (integers up to 15 digits, and the times that survive in C190); refuted for other times"
  },
  {
   "property": "C91",
   "status": "partial",
   "theorems": [
    "Nostr.Relay.Props.C91_unverified_refuted"
   ],
   "note": "false: nothing is verified before delivery"
  },
  {
   "property": "C92",
   "status": "partial",
   "theorems": [
    "Nostr.Relay.Props.C92_publish_partial",
    "Nostr.Relay.Props.C92_request_partial",
    "Nostr.Relay.Props.C92_trailing_refuted"
   ],
   "note": "proved for printed filter values and events with times below 10^15; false for filter texts with trailing characters"
  },
  {
   "property": "C93",
   "status": "partial",
   "theorems": [
    "Nostr.Relay.Life.C93_race_refuted",
    "Nostr.Relay.Life.C93_exclusive_partial"
   ],
   "note": "false: no lock; proved when no subscription ends while a message is dispatched"
  },
  {
   "property": "C94",
   "status": "partial",
   "theorems": [
    "Nostr.Session.Props.C94_short_id_refuted",
    "Nostr.Session.Props.C94_unknown_partial"
   ],
   "note": "false for ids shorter than 63 bytes"
  },
  {
   "property": "C95",
   "status": "partial",
   "theorems": [
    "Nostr.Session.Props.C95_dangling_refuted",
    "Nostr.Session.History.C95_kept_partial"
   ],
   "note": "false: the connection is freed when any session is created after the deadline; until then, and until the session is destroyed, it stays, over all histories of calls"
  },
  {
   "property": "C96",
   "status": "partial",
   "theorems": [
    "Nostr.Session.Props.C96_expired_partial",
    "Nostr.Session.History.C96_life_partial",
    "Nostr.Session.History.C96_expired_history_partial",
    "Nostr.Session.Props.C96_revived_refuted"
   ],
   "note": "false: an expired session can be extended; otherwise the answers are exactly those of a session with a deadline, over all histories of calls and clocks"
  },
  {
   "property": "C97",
   "status": "proved",
   "theorems": [
    "Nostr.Session.Conc.C97_progress",
    "Nostr.Session.Conc.C97_table",
    "Nostr.Session.Races.Props.C97_every_call",
    "Nostr.Session.Races.Props.C97_holder",
    "Nostr.Session.Races.Props.C97_returns"
   ],
   "note": "memory allocation succeeds; every call, creating a session included, lock by lock"
  },
  {
   "property": "C98",
   "status": "partial",
   "theorems": [
    "Nostr.Nip47.Props.C98_request_partial",
    "Nostr.Nip47.Props.C98_long_refuted",
    "Nostr.Nip47.Props.C98_inject_refuted"
   ],
   "note": "proved for methods up to 42 bytes and texts within 8191 bytes; false for longer ones and for parameters followed by other text"
  },
  {
   "property": "C99",
   "status": "partial",
   "theorems": [
    "Nostr.Nip47.Props.C99_pay_invoice_partial",
    "Nostr.Nip47.Props.C99_make_invoice_partial",
    "Nostr.Nip47.Props.C99_list_partial",
    "Nostr.Nip47.Props.C99_lookup",
    "Nostr.Nip47.Props.C99_keysend_partial",
    "Nostr.Nip47.Props.C99_multi_partial",
    "Nostr.Nip47.Props.C99_large_refuted"
   ],
   "note": "proved for numbers below 10^15; false for large numbers"
  },
  {
   "property": "C100",
   "status": "partial",
   "theorems": [
    "Nostr.Nip47.Props.C100_lookup_partial",
    "Nostr.Nip47.Props.C100_lookup_quote_refuted",
    "Nostr.Nip47.Props.C100_lookup_overflow_refuted",
    "Nostr.Nip47.Props.C100_pay_invoice_partial",
    "Nostr.Nip47.Props.C100_make_partial",
    "Nostr.Nip47.Props.C100_list_partial",
    "Nostr.Nip47.Props.C100_keysend_partial",
    "Nostr.Nip47.Props.C100_multi_partial",
    "Nostr.Nip47.Props.C100_make_overflow_refuted",
    "Nostr.Nip47.Props.C100_keysend_overflow_refuted",
    "Nostr.Nip47.Props.C100_multi_overflow_refuted",
    "Nostr.Nip47.Props.C100_list_overflow_refuted"
   ],
   "note": "false: buffer overruns with long texts, missing escapes; proved for every builder for texts that need no escaping and fit"
  },
  {
   "property": "C101",
   "status": "partial",
   "theorems": [
    "Nostr.Nip47.Props.C101_notification_partial",
    "Nostr.Nip47.Props.C101_long_refuted"
   ],
   "note": "cryptography is a parameter assumed correct; texts up to 61440 bytes; longer ones are encrypted but can never be read"
  },
  {
   "property": "C102",
   "status": "partial",
   "theorems": [
    "Nostr.Nip47.Props.C102_info",
    "Nostr.Nip47.Props.C102_null_refuted"
   ],
   "note": "false for events whose content was never set"
  },
  {
   "property": "C103",
   "status": "partial",
   "theorems": [
    "Nostr.Nip47.Props.C103_balance_partial",
    "Nostr.Nip47.Props.C103_paid_partial",
    "Nostr.Nip47.Props.C103_methods_partial",
    "Nostr.Nip47.Props.C103_negative_refuted",
    "Nostr.Nip47.Props.C103_methods_refuted"
   ],
   "note": "false for negative numbers and method lists with other values than strings"
  },
  {
   "property": "C104",
   "status": "proved",
   "theorems": [
    "Nostr.Nip51.Props.C104_read_any"
   ],
   "note": "memory allocation succeeds while reading"
  },
  {
   "property": "C105",
   "status": "partial",
   "theorems": [
    "Nostr.Nip51.Props.C105_set_partial",
    "Nostr.Nip51.Props.C105_set_refuted"
   ],
   "note": "false when memory runs out"
  },
  {
   "property": "C106",
   "status": "proved",
   "theorems": [
    "Nostr.Nip21.Props.C106_key_text",
    "Nostr.Nip21.Props.C106_key_accepted",
    "Nostr.Nip21.Props.C106_tlv_text",
    "Nostr.Nip21.Props.C106_decode_iff"
   ],
   "note": "against a separate transcription of BIP-173"
  },
  {
   "property": "C107",
   "status": "partial",
   "theorems": [
    "Nostr.Nip18.Props.C107_quotes_partial",
    "Nostr.Nip18.Props.C107_overflow_refuted"
   ],
   "note": "false for 96-character URIs (stack overflow in the bech32 decoder); proved for all other contents"
  },
  {
   "property": "C108",
   "status": "partial",
   "theorems": [
    "Nostr.Nip05.Props.C108_shape",
    "Nostr.Nip05.Props.C108_documents_partial",
    "Nostr.Nip05.Props.C108_escape_refuted",
    "Nostr.Nip05.Props.C108_bracket_refuted"
   ],
   "note": "relays with JSON escapes or brackets are lost"
  },
  {
   "property": "C109",
   "status": "partial",
   "theorems": [
    "Nostr.Gift.Props.C109_delivers_partial",
    "Nostr.Gift.Props.C109_time_refuted",
    "Nostr.Gift.Props.C109_limit_refuted"
   ],
   "note": "every text that can be sent; fails for times beyond 2^53 (two times give the same wrap) and for a content limit below the size of the seal, which is checked only when reading"
  },
  {
   "property": "C110",
   "status": "proved",
   "theorems": [
    "Nostr.Nip49.Props.C110_text"
   ],
   "note": "HChaCha20 is compared with a separate matrix transcription of the draft"
  },
  {
   "property": "C111",
   "status": "proved",
   "theorems": [
    "Nostr.Nip49.Props.C111_no_residue"
   ],
   "note": ""
  },
  {
   "property": "C112",
   "status": "proved",
   "theorems": [
    "Nostr.Hd.Props.C112_keypair"
   ],
   "note": "HMAC, PBKDF2 and secp256k1 are parameters"
  },
  {
   "property": "C113",
   "status": "partial",
   "theorems": [
    "Nostr.Zap.Props.C113_accepted_iff",
    "Nostr.Zap.Props.C113_addresses_partial",
    "Nostr.Zap.Props.C113_garbage_refuted"
   ],
   "note": "false: characters and checksum are not checked, addresses over 48 bytes are refused"
  },
  {
   "property": "C114",
   "status": "partial",
   "theorems": [
    "Nostr.Zap.Props.C114_request_partial",
    "Nostr.Zap.Props.C114_relays_refuted"
   ],
   "note": "relays beyond the fifteenth are dropped"
  },
  {
   "property": "C115",
   "status": "partial",
   "theorems": [
    "Nostr.Nip11.Props.C115_document_partial",
    "Nostr.Nip11.Props.C115_limits",
    "Nostr.Nip11.Props.C115_zero_refuted"
   ],
   "note": "retention rules with time zero lose their time; numbers of at most 15 digits"
  },
  {
   "property": "C116",
   "status": "partial",
   "theorems": [
    "Nostr.Event.Props.C116_read_partial",
    "Nostr.Event.Props.C116_lengths",
    "Nostr.Json.Names.C116_member",
    "Nostr.Event.Props.C116_kind_refuted",
    "Nostr.Event.Props.C116_missing_refuted",
    "Nostr.Event.Props.C116_tags_refuted",
    "Nostr.Event.Props.C116_hex_refuted"
   ],
   "note": "well-formed objects are read correctly and wrong lengths refused; kinds wrap modulo 65536, members may be missing, tag values of other types become empty strings, and non-hex characters pass sscanf"
  },
  {
   "property": "C117",
   "status": "proved",
   "theorems": [
    "Nostr.Nip21.Props.C117_profile",
    "Nostr.Nip21.Props.C117_event",
    "Nostr.Nip21.Props.C117_address",
    "Nostr.Nip21.Props.C117_relay"
   ],
   "note": ""
  },
  {
   "property": "C118",
   "status": "partial",
   "theorems": [
    "Nostr.Nip51.Props.C118_read_partial",
    "Nostr.Nip51.Props.C118_escape_refuted",
    "Nostr.Nip51.Props.C118_fifth_refuted"
   ],
   "note": "proved for up to four fields within the reader's buffers and all escapes but \\b and \\f; \\b is read as the letter b, and an escaped quote in a fifth field makes the list unreadable"
  },
  {
   "property": "C119",
   "status": "partial",
   "theorems": [
    "Nostr.Arena.Props.C119_update_partial",
    "Nostr.Arena.Props.C119_failure_refuted",
    "Nostr.Arena.Props.C119_null_value"
   ],
   "note": "success proved for nonce tags of at least two values; a failure in the middle leaves a changed tag with a NULL value"
  },
  {
   "property": "C120",
   "status": "partial",
   "theorems": [
    "Nostr.Keys.Props.C120_success",
    "Nostr.Keys.Props.C120_text",
    "Nostr.Keys.Props.C120_history_partial",
    "Nostr.Keys.Props.C120_destroy",
    "Nostr.Keys.Props.C120_export_import",
    "Nostr.Keys.Props.C120_failed_import_refuted",
    "Nostr.Keys.Props.C120_failed_text_refuted"
   ],
   "note": "holds as long as no import fails on a keypair that has keys; after such a failure the keypair hands out an all-zero or mixed private key beside the old public key"
  },
  {
   "property": "C121",
   "status": "proved",
   "theorems": [
    "Nostr.Keys.Props.C121_validate"
   ],
   "note": ""
  },
  {
   "property": "C122",
   "status": "proved",
   "theorems": [
    "Nostr.Keys.Props.C122_generate",
    "Nostr.Keys.Props.C122_rejected",
    "Nostr.Keys.Props.C122_failure"
   ],
   "note": ""
  },
  {
   "property": "C123",
   "status": "proved",
   "theorems": [
    "Nostr.Keys.Props.C123_random",
    "Nostr.Keys.Props.C123_requests",
    "Nostr.Keys.Props.C123_length"
   ],
   "note": ""
  },
  {
   "property": "C124",
   "status": "partial",
   "theorems": [
    "Nostr.Keys.Props.C124_noscrypt",
    "Nostr.Keys.Props.C124_secp_partial",
    "Nostr.Keys.Props.C124_secp_refuted",
    "Nostr.Keys.Props.C124_builds_refuted",
    "Nostr.Keys.Props.C124_curve_refuted"
   ],
   "note": "proved for noscrypt; with secp256k1 the parties disagree whenever the parities of their public points differ, and the two builds never agree (up to SHA-256 fixed points)"
  },
  {
   "property": "C125",
   "status": "partial",
   "theorems": [
    "Nostr.Keys.Ctx.Props.C125_once",
    "Nostr.Keys.Ctx.Props.C125_guarded_partial",
    "Nostr.Keys.Ctx.Props.C125_after_init_partial",
    "Nostr.Keys.Ctx.Props.C125_progress",
    "Nostr.Keys.Ctx.Props.C125_pointer_refuted",
    "Nostr.Keys.Ctx.Props.C125_cleanup_refuted"
   ],
   "note": "set-up happens once and nobody waits forever; after a failed initialisation the calls that test only the pointer use an uninitialised context, and a clean-up overtakes running calls"
  },
  {
   "property": "C126",
   "status": "partial",
   "theorems": [
    "Nostr.Nip04.Props.C126_roundtrip_partial",
    "Nostr.Nip04.Props.C126_failures",
    "Nostr.Nip04.Props.C126_long_refuted"
   ],
   "note": "block cipher, base64 and key agreement are parameters; texts below 1610612704 bytes (their message has a length that is an int); of a text of 2^32+k bytes only k are encrypted, with success"
  },
  {
   "property": "C127",
   "status": "partial",
   "theorems": [
    "Nostr.Nip04.Props.C127_accepts_partial",
    "Nostr.Nip04.Props.C127_tamper_refuted"
   ],
   "note": "exactly the block-chained encryptions are accepted, and nothing authenticates them: the first block can be changed at will"
  },
  {
   "property": "C128",
   "status": "partial",
   "theorems": [
    "Nostr.Nip04.Props.C128_exact",
    "Nostr.Nip04.Props.C128_safe_partial",
    "Nostr.Nip04.Props.C128_double_free_refuted"
   ],
   "note": "a text that begins with ?iv= makes decryption release memory twice"
  },
  {
   "property": "C129",
   "status": "partial",
   "theorems": [
    "Nostr.Features.Props.C129_list",
    "Nostr.Features.Props.C129_supported",
    "Nostr.Features.Props.C129_agree_partial",
    "Nostr.Features.Props.C129_others",
    "Nostr.Features.Props.C129_unreported_refuted"
   ],
   "note": "NIP-18 and NIP-26 have options but are never reported"
  },
  {
   "property": "C132",
   "status": "partial",
   "theorems": [
    "Nostr.Own.Conn.Props.C132_memory",
    "Nostr.Own.Conn.Props.C132_enough_memory",
    "Nostr.Own.Conn.Props.C132_clean_partial",
    "Nostr.Own.Conn.Props.C132_leak_refuted"
   ],
   "note": "every Lightning address but the last one of a connection text is never released; exactly that many blocks are lost"
  },
  {
   "property": "C133",
   "status": "partial",
   "theorems": [
    "Nostr.Own.Info.Props.C133_info_partial",
    "Nostr.Own.Info.Props.C133_ambiguous_refuted"
   ],
   "note": "after a failed call the caller cannot know whether the capabilities have been released already"
  },
  {
   "property": "C134",
   "status": "partial",
   "theorems": [
    "Nostr.Gift.Props.C134_wrap",
    "Nostr.Gift.Props.C134_read_partial",
    "Nostr.Gift.Props.C134_large_refuted"
   ],
   "note": "cryptography, base64 and JSON number conversion are parameters; wraps of seals of more than 61440 bytes of text cannot be read (C15); an odd number of values is outside the documented use"
  },
  {
   "property": "C130",
   "status": "partial",
   "theorems": [
    "Nostr.Relay.Props.C130_exact",
    "Nostr.Relay.Props.C130_connect_partial",
    "Nostr.Relay.Props.C130_schemes",
    "Nostr.Relay.Props.C130_tls",
    "Nostr.Relay.Props.C130_port_refuted",
    "Nostr.Relay.Props.C130_memory_refuted"
   ],
   "note": "a port in the address is never used: it stays part of the host name and the port is 80 or 443; the copy of the address is not tested for NULL"
  },
  {
   "property": "C131",
   "status": "partial",
   "theorems": [
    "Nostr.Relay.Props.C131_no_failure",
    "Nostr.Relay.Props.C131_subscribe_partial",
    "Nostr.Relay.Props.C131_unsubscribe_partial",
    "Nostr.Relay.Props.C131_registered_refuted",
    "Nostr.Relay.Props.C131_null_refuted",
    "Nostr.Relay.Props.C131_removed_refuted"
   ],
   "note": "after a failed allocation or write the subscription has nevertheless been added or removed; an id that could not be copied is read as NULL by the next event"
  },
  {
   "property": "C135",
   "status": "proved",
   "theorems": [
    "Nostr.Own.Deletion.Props.C135_memory",
    "Nostr.Own.Deletion.Props.C135_enough_memory",
    "Nostr.Own.Deletion.Props.C135_twice"
   ],
   "note": ""
  },
  {
   "property": "C136",
   "status": "partial",
   "theorems": [
    "Nostr.Own.Ev.Props.C136_destroy_partial",
    "Nostr.Own.Ev.Props.C136_create",
    "Nostr.Own.Ev.Props.C136_set_partial",
    "Nostr.Own.Ev.Props.C136_add_partial",
    "Nostr.Own.Ev.Props.C136_kept_refuted",
    "Nostr.Own.Ev.Props.C136_own_refuted"
   ],
   "note": "setting the content releases the old one first: without memory for the new one the content is lost, and a text that is the event's own content is read after its release; the bytes behind the tags are the subject of C18"
  },
  {
   "property": "C137",
   "status": "proved",
   "theorems": [
    "Nostr.Own.Ev.Props.C137_memory"
   ],
   "note": "the tree made by cJSON counts as one block; the pointer left behind by a failed call is the subject of C79"
  },
  {
   "property": "C138",
   "status": "partial",
   "theorems": [
    "Nostr.Own.Uri.Props.C138_nprofile",
    "Nostr.Own.Uri.Props.C138_nevent",
    "Nostr.Own.Uri.Props.C138_naddr",
    "Nostr.Own.Uri.Props.C138_uri_partial",
    "Nostr.Own.Uri.Props.C138_uri_refuted"
   ],
   "note": "complete for the three pointers; for URIs all texts but the npub, nsec and note texts of C75, which overflow a buffer (refuted). A lack of memory can be reported as an encoding error"
  },
  {
   "property": "C139",
   "status": "partial",
   "theorems": [
    "Nostr.Own.Uri.Props.C139_encode_partial",
    "Nostr.Own.Uri.Props.C139_checksum_refuted"
   ],
   "note": "encode_bytes_to_bech32 does not look at the result of the checksum, which fails without memory: it then reads a checksum that was never written"
  },
  {
   "property": "C140",
   "status": "proved",
   "theorems": [
    "Nostr.Own.Msg.Props.C140_memory",
    "Nostr.Own.Msg.Props.C140_enough_memory"
   ],
   "note": "a tree made by cJSON counts as one block; a lack of memory can be reported as INVALID_JSON"
  },
  {
   "property": "C141",
   "status": "partial",
   "theorems": [
    "Nostr.Own.Nip05.Props.C141_response",
    "Nostr.Own.Nip05.Props.C141_verify_partial",
    "Nostr.Own.Nip05.Props.C142_unterminated_refuted"
   ],
   "note": "complete for reading a response; the whole verification for responses that hold a NUL; refuted for those that do not, see C142. A callback without memory is taken to leave NULL"
  },
  {
   "property": "C142",
   "status": "partial",
   "theorems": [
    "Nostr.Own.Nip05.Props.C142_terminated_partial",
    "Nostr.Own.Nip05.Props.C142_unterminated_refuted"
   ],
   "note": "the length reported by the callback is checked and then not used: the response is read up to its NUL, and past its end if it has none"
  },
  {
   "property": "C143",
   "status": "proved",
   "theorems": [
    "Nostr.Nip13.Props.C143_terminates",
    "Nostr.Nip13.Props.C143_no_deadlock",
    "Nostr.Nip13.Props.C143_unlocked"
   ],
   "note": "interleaving semantics; termination is for a positive iteration bound, as without one mining may go on for ever"
  },
  {
   "property": "C144",
   "status": "partial",
   "theorems": [
    "Nostr.Nip13.Props.C144_not_found_partial",
    "Nostr.Nip13.Props.C144_memory_refuted"
   ],
   "note": "an error in a worker is not reported: the call answers that the target was not reached although nothing was tried"
  },
  {
   "property": "C145",
   "status": "partial",
   "theorems": [
    "Nostr.Nip13.Props.C145_event_partial",
    "Nostr.Nip13.Props.C145_flag_partial",
    "Nostr.Nip13.Props.C145_flag_refuted"
   ],
   "note": "the loop condition reads the shared flag without the lock, which is a data race in C; the failure path of the main thread also writes it without the lock"
  },
  {
   "property": "C146",
   "status": "partial",
   "theorems": [
    "Nostr.Nip13.Props.C146_distinct_partial",
    "Nostr.Nip13.Props.C146_crowd_refuted"
   ],
   "note": "for at most a thousand workers and 2^54 attempts of each"
  },
  {
   "property": "C147",
   "status": "proved",
   "theorems": [
    "Nostr.Own.Build.Props.C147_repost",
    "Nostr.Own.Build.Props.C147_reaction",
    "Nostr.Own.Build.Props.C147_relay_list",
    "Nostr.Own.Build.Props.C147_list",
    "Nostr.Own.Build.Props.C147_zap_request",
    "Nostr.Own.Build.Props.C147_wallet_request",
    "Nostr.Own.Build.Props.C147_response"
   ],
   "note": "keys of 32 bytes, a clock in the range of int64_t and a configuration in its documented range; the memory of cJSON and of the encryption is not modelled beyond the texts delivered; a response may lack its recipient tag, see C149"
  },
  {
   "property": "C148",
   "status": "partial",
   "theorems": [
    "Nostr.Own.Build.Props.C148_cleared_partial",
    "Nostr.Own.Build.Props.C148_response_partial",
    "Nostr.Own.Mail.Props.C148_mail_partial",
    "Nostr.Own.Build.Props.C148_create_refuted",
    "Nostr.Own.Build.Props.C148_zap_refuted"
   ],
   "note": "when the arena cannot be allocated nostr_event_create leaves the address it has just released; zap requests leave it after every failure"
  },
  {
   "property": "C149",
   "status": "partial",
   "theorems": [
    "Nostr.Own.Build.Props.C149_recipient_partial",
    "Nostr.Own.Build.Props.C149_memory_refuted"
   ],
   "note": "the outcome of adding the tag is ignored"
  },
  {
   "property": "C150",
   "status": "proved",
   "theorems": [
    "Nostr.Own.Mail.Props.C150_rumor",
    "Nostr.Own.Mail.Props.C150_seal",
    "Nostr.Own.Mail.Props.C150_wrap",
    "Nostr.Own.Mail.Props.C150_send_dm",
    "Nostr.Own.Mail.Props.C150_wrap_event"
   ],
   "note": "keys of 32 bytes, a clock in the range of int64_t and a configuration in its documented range; the memory inside the encryption and inside cJSON is not modelled beyond the texts delivered; for wrap_event the reported reason may differ from that of the value model when several reasons apply"
  },
  {
   "property": "C151",
   "status": "proved",
   "theorems": [
    "Nostr.Own.Mail.Props.C151_unwrap_dm",
    "Nostr.Own.Mail.Props.C151_unwrap_event"
   ],
   "note": "the memory inside the decryption is not modelled beyond the text delivered"
  },
  {
   "property": "C152",
   "status": "proved",
   "theorems": [
    "Nostr.Own.Relays.Props.C152_history",
    "Nostr.Own.Relays.Props.C152_from_event"
   ],
   "note": "the event that is read is a value; its own memory is C136 and C137"
  },
  {
   "property": "C153",
   "status": "partial",
   "theorems": [
    "Nostr.Own.Lists.Props.C153_history_partial",
    "Nostr.Own.Lists.Props.C153_itself_refuted"
   ],
   "note": "setting a text of the list to itself reads memory that has just been released"
  },
  {
   "property": "C154",
   "status": "proved",
   "theorems": [
    "Nostr.Own.Lists.Props.C154_from_event"
   ],
   "note": "under the configurations that C104 assumes; the event is a value, and the memory inside the decryption is not modelled beyond the text delivered"
  },
  {
   "property": "C155",
   "status": "proved",
   "theorems": [
    "Nostr.Own.Relays.Props.C155_urls"
   ],
   "note": ""
  },
  {
   "property": "C156",
   "status": "partial",
   "theorems": [
    "Nostr.Own.Deleg.Props.C156_create_partial",
    "Nostr.Own.Deleg.Props.C156_get_partial",
    "Nostr.Own.Deleg.Props.C156_verify_partial",
    "Nostr.Own.Deleg.Props.C156_blame_refuted"
   ],
   "note": "when memory for the kinds is refused, valid conditions are reported as invalid; missing from the partial theorems is only the reason reported when memory runs out"
  },
  {
   "property": "C157",
   "status": "partial",
   "theorems": [
    "Nostr.Own.Signer.Props.C157_request_partial",
    "Nostr.Own.Signer.Props.C157_response",
    "Nostr.Own.Signer.Props.C157_params_refuted"
   ],
   "note": "a request is reported as read without its parameters when memory for them is refused; the memory inside the decryption and inside cJSON is not modelled beyond the texts delivered"
  },
  {
   "property": "C158",
   "status": "partial",
   "theorems": [
    "Nostr.Own.Doc.Props.C158_history_partial",
    "Nostr.Own.Doc.Props.C158_kinds_refuted"
   ],
   "note": "the kinds of admission and subscription fees are never released; setting the list of NIPs to itself is C72"
  },
  {
   "property": "C159",
   "status": "partial",
   "theorems": [
    "Nostr.Wipe.Keys.Props.C159_sign_noscrypt",
    "Nostr.Wipe.Keys.Props.C159_sign_secp",
    "Nostr.Wipe.Keys.Props.C159_delegation_partial",
    "Nostr.Wipe.Keys.Props.C159_delegation_key",
    "Nostr.Wipe.Keys.Props.C159_delegation_secp",
    "Nostr.Wipe.Keys.Props.C159_delegation_outcome",
    "Nostr.Wipe.Keys.Props.C159_randomness_refuted"
   ],
   "note": "with noscrypt a delegation whose signing fails leaves the randomness; everything else is proved. Stack of the libraries, registers and copies made by the compiler are not modelled"
  },
  {
   "property": "C160",
   "status": "partial",
   "theorems": [
    "Nostr.Wipe.Keys.Props.C160_generate_partial",
    "Nostr.Wipe.Keys.Props.C160_ecdh",
    "Nostr.Wipe.Keys.Props.C160_import",
    "Nostr.Wipe.Keys.Props.C160_validate",
    "Nostr.Wipe.Keys.Props.C160_destroy",
    "Nostr.Wipe.Keys.Props.C160_generator_refuted",
    "Nostr.Wipe.Keys.Props.C160_text_refuted"
   ],
   "note": "a random generator that fails leaves what was drawn, and a malformed key text leaves the beginning of the key in the key pair; everything else is proved"
  },
  {
   "property": "C161",
   "status": "partial",
   "theorems": [
    "Nostr.Wipe.Hd.Props.C161_seed_secp",
    "Nostr.Wipe.Hd.Props.C161_seed_partial",
    "Nostr.Wipe.Hd.Props.C161_child",
    "Nostr.Wipe.Hd.Props.C161_path_partial",
    "Nostr.Wipe.Hd.Props.C161_seed_refuted",
    "Nostr.Wipe.Hd.Props.C161_child_refuted",
    "Nostr.Wipe.Hd.Props.C161_childKey_refuted",
    "Nostr.Wipe.Hd.Props.C161_path_refuted"
   ],
   "note": "the master key is left with noscrypt when its public key cannot be computed, and a refused child leaves its chain code or key; everything else is proved"
  },
  {
   "property": "C162",
   "status": "partial",
   "theorems": [
    "Nostr.Wipe.Hd.Words.C162_validate_partial",
    "Nostr.Wipe.Hd.Words.C162_generate_partial",
    "Nostr.Wipe.Hd.Words.C162_seed_partial",
    "Nostr.Wipe.Hd.Words.C162_keypair_partial",
    "Nostr.Wipe.Hd.Words.C162_validate_refuted",
    "Nostr.Wipe.Hd.Words.C162_generate_refuted",
    "Nostr.Wipe.Hd.Words.C162_seed_refuted"
   ],
   "note": "the numbers of the words are left by every validation and the hash of the entropy by every generation, and the normalised texts when memory is refused; everything else is proved for calls that succeed or fail because of a parameter"
  },
  {
   "property": "C163",
   "status": "proved",
   "theorems": [
    "Nostr.Wipe.Ncrypt.Props.C163_encrypt",
    "Nostr.Wipe.Ncrypt.Props.C163_decrypt",
    "Nostr.Wipe.Ncrypt.Props.C163_validate"
   ],
   "note": "buffers of the functions in nip49.c; the memory of scrypt and of the cipher of the library is not modelled"
  },
  {
   "property": "C164",
   "status": "partial",
   "theorems": [
    "Nostr.Wipe.Crypt.Props.C164_nip44_encrypt_keys",
    "Nostr.Wipe.Crypt.Props.C164_nip44_encrypt_partial",
    "Nostr.Wipe.Crypt.Props.C164_nip44_encrypt_value",
    "Nostr.Wipe.Crypt.Props.C164_nip44_encrypt_refuted",
    "Nostr.Wipe.Crypt.Props.C164_nip44_decrypt_partial",
    "Nostr.Wipe.Crypt.Props.C164_nip44_decrypt_value",
    "Nostr.Wipe.Crypt.Props.C164_nip44_decrypt_refuted",
    "Nostr.Wipe.Crypt.Props.C164_nip04_encrypt",
    "Nostr.Wipe.Crypt.Props.C164_nip04_encrypt_value",
    "Nostr.Wipe.Crypt.Props.C164_nip04_decrypt",
    "Nostr.Wipe.Crypt.Props.C164_nip04_decrypt_value"
   ],
   "note": "keys are wiped on every path and NIP-04 wipes the plaintext as well; NIP-44 releases the padded plaintext (encryption) and the deciphered text (decryption) without wiping them, so that half is refuted"
  },
  {
   "property": "C165",
   "status": "partial",
   "theorems": [
    "Nostr.Wipe.Gift.Props.C165_layers",
    "Nostr.Wipe.Gift.Props.C165_keys",
    "Nostr.Wipe.Gift.Props.C165_unwrap",
    "Nostr.Wipe.Gift.Props.C165_values",
    "Nostr.Wipe.Gift.Props.C165_message_refuted",
    "Nostr.Wipe.Gift.Props.C165_sent_refuted"
   ],
   "note": "keys are wiped on every path and the deciphered texts are wiped when opening; the JSON text of the message is released without being wiped after sealing, so that half is refuted"
  },
  {
   "property": "C166",
   "status": "partial",
   "theorems": [
    "Nostr.Own.Relay.Props.C166_life",
    "Nostr.Own.Relay.Props.C166_memory",
    "Nostr.Own.Relay.Props.C166_safe_partial",
    "Nostr.Own.Relay.Props.C166_direct",
    "Nostr.Own.Relay.Props.C166_mutex_refuted",
    "Nostr.Own.Relay.Props.C166_disconnect_refuted",
    "Nostr.Own.Relay.Props.C166_nameless_refuted"
   ],
   "note": "proved when memory does not run out, and for the memory given back under every failure; refuted: the mutex of a refused connection stays, disconnecting inside a callback and an id that could not be copied give undefined behaviour, destroying after a loss leaks (C166_direct)"
  },
  {
   "property": "C167",
   "status": "proved",
   "theorems": [
    "Nostr.Access.Props.C167_index",
    "Nostr.Access.Props.C167_name",
    "Nostr.Access.Props.C167_iteration",
    "Nostr.Access.Props.C167_hex"
   ],
   "note": "NULL arguments are left out"
  },
  {
   "property": "C168",
   "status": "partial",
   "theorems": [
    "Nostr.Access.Props.C168_complete",
    "Nostr.Access.Props.C168_exact_partial",
    "Nostr.Access.Props.C168_tags",
    "Nostr.Access.Props.C168_search",
    "Nostr.Access.Props.C168_repeated_refuted",
    "Nostr.Access.Props.C168_empty_refuted"
   ],
   "note": "no matching event is missed; events that do not match are found for documents that repeat a letter or list no value for it"
  },
  {
   "property": "C169",
   "status": "partial",
   "theorems": [
    "Nostr.Access.Props.C169_format",
    "Nostr.Access.Props.C169_event",
    "Nostr.Access.Props.C169_filter_partial",
    "Nostr.Access.Props.C169_missing_refuted",
    "Nostr.Access.Props.C169_valid_refuted"
   ],
   "note": "complete for events and for filters that are there; for a NULL filter the texts are not written; a valid result is formatted like a failure"
  },
  {
   "property": "C170",
   "status": "proved",
   "theorems": [
    "Nostr.Access.Props.C170_distinct",
    "Nostr.Access.Props.C170_unknown_refuted"
   ],
   "note": "\"not supported\" and \"storage\" are described as unknown errors, which no other code is"
  },
  {
   "property": "C171",
   "status": "partial",
   "theorems": [
    "Nostr.Own.Sessions.Props.C171_memory_partial",
    "Nostr.Own.Sessions.Props.C171_closed_partial",
    "Nostr.Own.Sessions.Props.C171_values_partial",
    "Nostr.Own.Sessions.Props.C171_overtaken_refuted",
    "Nostr.Own.Sessions.Props.C171_overtaken_reachable",
    "Nostr.Own.Sessions.Props.C171_table_refuted",
    "Nostr.Own.Sessions.Props.C171_name_refuted",
    "Nostr.Own.Sessions.Props.C171_text_refuted",
    "Nostr.Own.Sessions.Props.C171_borrowed_refuted"
   ],
   "note": "ownership under every allocator and the values while memory lasts, without permissions added by an overtaken call and with at most one Lightning address per text; refuted: a permission added by an overtaken call is lost, a refused table is used as NULL, a refused name is NULL in strcmp, a refused id text makes a session nobody can give up, and the connection handed out dangles after the session ends"
  },
  {
   "property": "C172",
   "status": "partial",
   "theorems": [
    "Nostr.Wipe.Text.Props.C172_conn",
    "Nostr.Wipe.Text.Props.C172_uri",
    "Nostr.Wipe.Text.Props.C172_out_partial",
    "Nostr.Wipe.Text.Props.C172_out_view",
    "Nostr.Wipe.Text.Props.C172_in_view",
    "Nostr.Wipe.Text.Props.C172_out_refuted",
    "Nostr.Wipe.Text.Props.C172_in_refuted",
    "Nostr.Wipe.Text.Props.C172_conn_refuted"
   ],
   "note": "releasing a connection or an address wipes it; refuted for every key that is written or read as nsec and for every connection text that is read"
  },
  {
   "property": "C173",
   "status": "partial",
   "theorems": [
    "Nostr.Own.Crypt.Props.C173_nip44_encrypt_partial",
    "Nostr.Own.Crypt.Props.C173_nip44_decrypt_partial",
    "Nostr.Own.Crypt.Props.C173_nip04_encrypt_partial",
    "Nostr.Own.Crypt.Props.C173_nip04_decrypt_partial",
    "Nostr.Own.Crypt.Props.C173_crash_refuted",
    "Nostr.Own.Crypt.Props.C173_success_refuted",
    "Nostr.Own.Crypt.Props.C173_double_free_refuted"
   ],
   "note": "holds for every allocator of the library; with OpenSSL's base64 only while OpenSSL's own allocations succeed: otherwise encryption crashes, or reports success with an unencoded or empty text, and NIP-04 decryption releases a block twice. NIP-04 decryption also excludes the texts of C128"
  },
  {
   "property": "C174",
   "status": "partial",
   "theorems": [
    "Nostr.Relay.Threads.Props.C174_others_partial",
    "Nostr.Relay.Threads.Props.C174_exact",
    "Nostr.Relay.Threads.Props.C174_writes_partial",
    "Nostr.Relay.Threads.Props.C174_refuted"
   ],
   "note": "two messages are never written at once, and the receive buffer, the handle, the websocket pointer and the time of the last attempt never collide; refuted, with a schedule for each, for exactly eight others: state, both copies of the message callback, context pointer, running flag, subscriptions, reconnect flag, the websocket library's objects"
  },
  {
   "property": "C175",
   "status": "proved",
   "theorems": [
    "Nostr.Relay.Threads.Props.C175_released",
    "Nostr.Relay.Threads.Props.C175_stops",
    "Nostr.Relay.Threads.Props.C175_returns",
    "Nostr.Relay.Threads.Props.C175_progress"
   ],
   "note": "one connection at a time (connecting over a leftover thread is C36, disconnecting inside a callback C166)"
  },
  {
   "property": "C176",
   "status": "partial",
   "theorems": [
    "Nostr.Own.Tree.Props.C176_id_partial",
    "Nostr.Own.Tree.Props.C176_plain_partial",
    "Nostr.Own.Tree.Props.C176_sign_partial",
    "Nostr.Own.Tree.Props.C176_refuted",
    "Nostr.Own.Tree.Props.C176_plain_refuted",
    "Nostr.Own.Tree.Props.C176_sign_refuted"
   ],
   "note": "holds while no allocation is refused (with cJSON) or while the first is not (without, up to 400 tags of control characters only); refuted: with cJSON a refused allocation makes the id that of an event lacking elements, reported and signed as success; without cJSON a refused copy of the content is passed to strlen"
  },
  {
   "property": "C177",
   "status": "partial",
   "theorems": [
    "Nostr.Own.Tree.Props.C177_partial",
    "Nostr.Own.Tree.Props.C177_buffer_partial",
    "Nostr.Own.Tree.Props.C177_event_partial",
    "Nostr.Own.Tree.Props.C177_refuted"
   ],
   "note": "whole text while no allocation is refused, and always a text of a part of the document; refuted: success is reported for texts that lack fields"
  },
  {
   "property": "C178",
   "status": "partial",
   "theorems": [
    "Nostr.Own.Tree.Props.C178_partial",
    "Nostr.Own.Tree.Props.C177_buffer_partial",
    "Nostr.Own.Tree.Props.C178_refuted"
   ],
   "note": "for every allocator for documents without arrays inside and without objects in objects; for all documents while no allocation is refused; refuted: keysend records and tags of an event are lost"
  },
  {
   "property": "C179",
   "status": "partial",
   "theorems": [
    "Nostr.Own.Answers.Props.C179_response_partial",
    "Nostr.Own.Answers.Props.C179_notification_partial",
    "Nostr.Own.Answers.Props.C179_paid_partial",
    "Nostr.Own.Answers.Props.C179_info_partial",
    "Nostr.Own.Answers.Props.C179_bare_response_partial",
    "Nostr.Own.Answers.Props.C179_bare_notification_partial",
    "Nostr.Own.Answers.Props.C179_bare_paid_partial",
    "Nostr.Own.Answers.Props.C179_bare_info_partial",
    "Nostr.Own.Answers.Props.C179_refuted",
    "Nostr.Own.Answers.Props.C179_methods_refuted",
    "Nostr.Own.Answers.Props.C179_bare_refuted"
   ],
   "note": "errors change nothing, successes add exactly the copies; refuted: a refused copy is NULL with success (a payment with its proof looks like one without; two methods in a NULL array), and entries of the methods that are no texts are never written, so that releasing the array frees an arbitrary address"
  },
  {
   "property": "C180",
   "status": "partial",
   "theorems": [
    "Nostr.Arena.Props.C180_attempt_partial",
    "Nostr.Arena.Props.C180_attempts_partial",
    "Nostr.Arena.Props.C180_refuted"
   ],
   "note": "exact growth of every attempt, and linear bounds from above (32 bytes each and 24 once, the block at most twice that) and below (4 bytes each); refuted: the memory grows with every attempt without limit"
  },
  {
   "property": "C181",
   "status": "partial",
   "theorems": [
    "Nostr.Own.Receipt.Props.C181_read_partial",
    "Nostr.Own.Receipt.Props.C181_once_partial",
    "Nostr.Own.Receipt.Props.C181_verify_partial",
    "Nostr.Own.Receipt.Props.C181_lost_refuted",
    "Nostr.Own.Receipt.Props.C181_unset_refuted",
    "Nostr.Own.Receipt.Props.C181_stale_refuted",
    "Nostr.Own.Receipt.Props.C181_buffer_refuted",
    "Nostr.Own.Receipt.Props.C181_memory_refuted"
   ],
   "note": "exact account of blocks, values and losses for prepared variables; refuted: every further invoice or description of a receipt loses the one before, also when only verifying; a variable that is not NULL is freed or its old invoice gives the amount; 64 bytes do not suffice for the preimage; an error for lack of memory leaves the request"
  },
  {
   "property": "C182",
   "status": "partial",
   "theorems": [
    "Nostr.Own.Quote.Props.C182_partial",
    "Nostr.Own.Quote.Props.C182_refuted"
   ],
   "note": "the tags added are those of some of the quotes, in order; no other block stays; errors are the tag limit or memory; with enough memory all of them. Refuted: a quote for whose decoding memory is short is passed over with success"
  },
  {
   "property": "C183",
   "status": "partial",
   "theorems": [
    "Nostr.Own.Temp.Props.C183_thread",
    "Nostr.Own.Temp.Props.C183_path",
    "Nostr.Own.Temp.Props.C183_check",
    "Nostr.Own.Temp.Props.C183_seed",
    "Nostr.Own.Temp.Props.C183_keys",
    "Nostr.Own.Temp.Props.C183_reply_partial",
    "Nostr.Own.Temp.Props.C183_reply_refuted"
   ],
   "note": "memory as before and the right result or a report, for all calls but one; refuted for the question whether a note is a reply: when memory is refused every reply is said, with success, to be none"
  },
  {
   "property": "C184",
   "status": "partial",
   "theorems": [
    "Nostr.Own.Response.Props.C184_partial",
    "Nostr.Own.Response.Props.C184_refuted"
   ],
   "note": "no undefined behaviour; exact when no memory is refused, otherwise part of what was to be said; refuted: with one allocation refused a refusal is sent without its error or identifier, a JSON result as a string or not at all, and memory is lost"
  },
  {
   "property": "C185",
   "status": "partial",
   "theorems": [
    "Nostr.Length.Props.C185_partial",
    "Nostr.Length.Props.C185_ended_partial",
    "Nostr.Length.Props.C185_event_refuted",
    "Nostr.Length.Props.C185_zero_refuted"
   ],
   "note": "holds for filters and messages with a positive length, and for all three where a NUL follows at the length; refuted: the length of an event's text is ignored, so an array without NUL is read beyond its end, whatever it holds, and an incomplete text gives an event; length 0 means up to a NUL"
  },
  {
   "property": "C186",
   "status": "partial",
   "theorems": [
    "Nostr.Config.Threads.Props.C186_answers_partial",
    "Nostr.Config.Threads.Props.C186_inRange_partial",
    "Nostr.Config.Threads.Props.C186_exclusive_partial",
    "Nostr.Config.Threads.Props.C186_returns_partial",
    "Nostr.Config.Threads.Props.C186_mixed_refuted",
    "Nostr.Config.Threads.Props.C186_pointer_refuted",
    "Nostr.Config.Threads.Props.C186_kept_partial"
   ],
   "note": "holds for every schedule in a build with threads, with callbacks that do not use the configuration (C77); refuted: without NOSTR_FEATURE_THREADING a thread can be handed a mixture that is out of range, and the structure handed out is overwritten by the next library call of the same thread"
  },
  {
   "property": "C187",
   "status": "partial",
   "theorems": [
    "Nostr.Session.Races.Props.C187_protected_partial",
    "Nostr.Session.Races.Props.C187_exact_partial",
    "Nostr.Session.Races.Props.C187_active_refuted",
    "Nostr.Session.Races.Props.C187_expires_refuted",
    "Nostr.Session.Races.Props.C187_first_refuted"
   ],
   "note": "holds for the table, the rate limit, ids, connections, permissions and times of use of every session; refuted: whether a session is in use, when it ends, and whether there is a table are written and read without a common lock"
  },
  {
   "property": "C188",
   "status": "partial",
   "theorems": [
    "Nostr.Own.Create.Props.C188_relay_partial",
    "Nostr.Own.Create.Props.C188_mining",
    "Nostr.Own.Create.Props.C188_relay_refuted"
   ],
   "note": "complete for parallel mining; refuted: a relay for whose address there is no memory leaves the released structure in the caller's variable, and destroying it is undefined"
  },
  {
   "property": "C189",
   "status": "proved",
   "theorems": [
    "Nostr.Own.Uri.Props.C189_key_from",
    "Nostr.Own.Uri.Props.C189_fixed_from",
    "Nostr.Own.Uri.Props.C189_key_to",
    "Nostr.Own.Uri.Props.C189_fixed_to"
   ],
   "note": "what is given with enough memory is the subject of C01 to C05; the texts of C05 that overflow a buffer do so here as well"
  },
  {
   "property": "C190",
   "status": "partial",
   "theorems": [
    "Nostr.Double.Props.C190_roundtrip_partial",
    "Nostr.Double.Props.C190_id_partial",
    "Nostr.Double.Props.C190_tamper_partial",
    "Nostr.Double.Props.C190_messages_partial",
    "Nostr.Double.Props.C190_messages_refuted",
    "Nostr.Double.Props.C190_roundtrip_refuted",
    "Nostr.Double.Props.C190_overflow_refuted",
    "Nostr.Double.Props.C190_id_refuted"
   ],
   "note": "below 2^53 it is decided exactly which times survive: those below 2^52 and those that end neither in 1 nor in 9; from 2^53 on only even times can come back. Refuted for the others, and for ids: a signature for the time 5000000000000001 is one for 5000000000000000"
  },
  {
   "property": "C191",
   "status": "partial",
   "theorems": [
    "Nostr.Double.Props.C191_event",
    "Nostr.Double.Props.C191_event_int_partial",
    "Nostr.Double.Props.C191_filter",
    "Nostr.Double.Props.C191_filter_int_partial",
    "Nostr.Double.Props.C191_height",
    "Nostr.Double.Props.C191_client",
    "Nostr.Double.Props.C191_client_refuted",
    "Nostr.Double.Props.C191_refuted",
    "Nostr.Double.Props.C191_own_refuted"
   ],
   "note": "decided for every text; for decimal integers the exact limits are given. Refuted: created_at, since, until and block_height are converted from double without a look at the range"
  },
  {
   "property": "C192",
   "status": "partial",
   "theorems": [
    "Nostr.Double.Props.C192_pay_invoice_partial",
    "Nostr.Double.Props.C192_make_invoice_partial",
    "Nostr.Double.Props.C192_keysend_partial",
    "Nostr.Double.Props.C192_multi_partial",
    "Nostr.Double.Props.C192_balance_partial",
    "Nostr.Double.Props.C192_amount_refuted"
   ],
   "note": "for all 64-bit amounts it is decided which are carried: all below 2^52 millisatoshi (45035 bitcoin), up to 2^53 those that end neither in 1 nor in 9, beyond that no odd one. Balances are exact up to 2^53, rounded up to 2^64 and undefined beyond"
  },
  {
   "property": "C193",
   "status": "partial",
   "theorems": [
    "Nostr.Nip47.Bare.C193_balance_partial",
    "Nostr.Nip47.Bare.C193_missing",
    "Nostr.Nip47.Bare.C193_fees_partial",
    "Nostr.Nip47.Bare.C193_preimage_partial",
    "Nostr.Nip47.Bare.C193_closed",
    "Nostr.Nip47.Bare.C193_balance_refuted",
    "Nostr.Nip47.Bare.C193_layout_refuted",
    "Nostr.Nip47.Bare.C193_escaped_refuted",
    "Nostr.Nip47.Bare.C193_invalid_refuted",
    "Nostr.Nip47.Bare.C193_response_refuted",
    "Nostr.Nip47.Bare.C193_notification_refuted",
    "Nostr.Nip47.Bare.C193_info_refuted"
   ],
   "note": "balance, fees and preimage are found in every document cJSON prints if no key in front of them is called the same. Refuted for nested members, other layouts, escapes and texts that are no documents; a failed payment is reported as a success, and the description of the wallet is invented"
  },
  {
   "property": "C194",
   "status": "proved",
   "theorems": [
    "Nostr.Keys.Rng.Props.C194_distinct",
    "Nostr.Keys.Rng.Props.C194_filled",
    "Nostr.Keys.Rng.Props.C194_seeded",
    "Nostr.Keys.Rng.Props.C194_served",
    "Nostr.Keys.Rng.Props.C194_returns",
    "Nostr.Keys.Rng.Props.C194_unlocked"
   ],
   "note": "sequential consistency; the generator is two steps, reading and writing its state. C194_unlocked: without threading the locks are empty and two threads can get the same bytes"
  },
  {
   "property": "C195",
   "status": "partial",
   "theorems": [
    "Nostr.Alias.Props.C195_decode",
    "Nostr.Alias.Props.C195_key",
    "Nostr.Alias.Props.C195_encode_partial",
    "Nostr.Alias.Props.C195_import_partial",
    "Nostr.Alias.Props.C195_derive_partial",
    "Nostr.Alias.Props.C195_path_partial",
    "Nostr.Alias.Props.C195_decodeInside_refuted",
    "Nostr.Alias.Props.C195_encode_refuted",
    "Nostr.Alias.Props.C195_import_refuted",
    "Nostr.Alias.Props.C195_derive_refuted",
    "Nostr.Alias.Props.C195_path_refuted"
   ],
   "note": "proved in place for decoding hexadecimal, for reading keys from text and for paths other than m; for the others only when argument and result lie apart, and in place the claim is false: a key encoded over itself becomes another text, nostr_hd_key_derive clears the child before it reads the parent, and nostr_keypair_from_private_hex always, and the path m in place, copy a key onto itself with memcpy, which C leaves undefined (known implementations leave the bytes as they are, which is what the other models of keypairs assume)"
  },
  {
   "property": "C196",
   "status": "partial",
   "theorems": [
    "Nostr.Outbuf.Props.C196_reaction_partial",
    "Nostr.Outbuf.Props.C196_repost_partial",
    "Nostr.Outbuf.Props.C196_thread_partial",
    "Nostr.Outbuf.Props.C196_identifier",
    "Nostr.Outbuf.Props.C196_values_partial",
    "Nostr.Outbuf.Props.C196_cut_refuted",
    "Nostr.Outbuf.Props.C196_left_refuted"
   ],
   "note": "proved: every byte of every buffer is followed, nothing is written outside, every buffer is terminated, texts with room arrive whole, identifiers completely. Refuted: texts without room are cut and reported as success (an id loses digits, a relay hint becomes the address of another relay), values longer than 64 or 255 bytes are cut by the thread lookups even with room, and NOT_FOUND leaves content, author and kind of a reaction or repost in the buffers"
  },
  {
   "property": "C197",
   "status": "partial",
   "theorems": [
    "Nostr.Outbuf.Encode.Props.C197_key",
    "Nostr.Outbuf.Encode.Props.C197_privkey_note",
    "Nostr.Outbuf.Encode.Props.C197_entities",
    "Nostr.Outbuf.Encode.Props.C197_uri",
    "Nostr.Outbuf.Encode.Props.C197_url",
    "Nostr.Outbuf.Encode.Props.C197_ncryptsec",
    "Nostr.Outbuf.Encode.Props.C197_key_room",
    "Nostr.Outbuf.Encode.Props.C197_uri_room",
    "Nostr.Outbuf.Encode.Props.C197_mnemonic_partial",
    "Nostr.Outbuf.Encode.Props.C197_mnemonic_refused",
    "Nostr.Outbuf.Encode.Props.C197_mnemonic_refuted"
   ],
   "note": "proved for every encoder but the mnemonic: whole or nothing for every size and content of the buffer, and for keys and in-limit entities exactly when the text and its end fit. The expected text or error of C197_key to C197_ncryptsec is that of the value-level models, which C01, C06, C08, C57 and C110 specify. Refuted for nostr_mnemonic_generate: refused for a small buffer it leaves the first words of the secret in it"
  },
  {
   "property": "C198",
   "status": "partial",
   "theorems": [
    "Nostr.Journey.Props.C198_delivered_partial",
    "Nostr.Journey.Props.C198_recipients_partial",
    "Nostr.Journey.Props.C198_only_verified_partial",
    "Nostr.Journey.Props.C198_request_partial",
    "Nostr.Journey.Props.C198_long_id_refuted",
    "Nostr.Journey.Props.C198_time_refuted"
   ],
   "note": "proved for times below 10^15, ids of up to 64 characters and a message that fits the receive buffer with a chunk. Missing: later times and longer ids, for which it fails. The relay (Journey/Spec.lean) is an application that calls the modelled functions; everything else is the model of C18 to C36 and C90 to C92"
  },
  {
   "property": "C199",
   "status": "partial",
   "theorems": [
    "Nostr.Build.Props.C199_complete_partial",
    "Nostr.Build.Props.C199_accepted_refuted",
    "Nostr.Build.Props.C199_once",
    "Nostr.Build.Props.C199_present",
    "Nostr.Build.Props.C199_placeholders",
    "Nostr.Build.Props.C199_works",
    "Nostr.Build.Props.C199_off_refuted",
    "Nostr.Build.Props.C199_reported_partial",
    "Nostr.Build.Props.C199_reported_refuted",
    "Nostr.Build.Props.C199_esp",
    "Nostr.Build.Props.C199_esp_refuted",
    "Nostr.Build.Props.C199_zig",
    "Nostr.Build.Props.C199_zig_refuted",
    "Nostr.Build.Props.C199_presets_partial",
    "Nostr.Build.Props.C199_presets_refuted"
   ],
   "note": "proved for all configurations: exactly which accepted ones are complete, no name twice, when a declared function is there and works. Missing because the code does otherwise: six kinds of accepted configurations do not link, functions of a feature that is off are absent instead of answering NOT_SUPPORTED, reports about NIP-04, NIP-44, encoding, threading and (with Zig) the relay protocol can be wrong, four presets are accepted without the cJSON they need"
  },
  {
   "property": "C200",
   "status": "partial",
   "theorems": [
    "Nostr.Keys.First.Props.C200_after_init",
    "Nostr.Keys.First.Props.C200_answer",
    "Nostr.Keys.First.Props.C200_lazy_partial",
    "Nostr.Keys.First.Props.C200_keys",
    "Nostr.Keys.First.Props.C200_first_refuted",
    "Nostr.Keys.First.Props.C200_half_refuted"
   ],
   "note": "proved for every history: after nostr_init for all functions, without it for all that initialise. Missing because the code does otherwise: seven functions do not initialise (three are refused, the HD functions hand NULL to secp256k1), and after an initialisation that failed halfway signing and encryption use a context that was never set up"
  },
  {
   "property": "C201",
   "status": "partial",
   "theorems": [
    "Nostr.Relay.State.Props.C201_shown",
    "Nostr.Relay.State.Props.C201_state_partial",
    "Nostr.Relay.State.Props.C201_send_partial",
    "Nostr.Relay.State.Props.C201_again_partial",
    "Nostr.Relay.State.Props.C201_told_partial",
    "Nostr.Relay.State.Props.C201_reconnect_refuted",
    "Nostr.Relay.State.Props.C201_closed_refuted",
    "Nostr.Relay.State.Props.C201_unthreaded_refuted",
    "Nostr.Relay.State.Props.C201_order_refuted"
   ],
   "note": "proved for every history: what is up or under way is always shown. Missing because the code does otherwise: a loss five seconds or more after connecting leaves the relay saying CONNECTING for ever with nothing under way; the reason libwebsockets gives for the end of a client's connection is ignored; without threads no connection is ever established; CONNECTING may be reported after CONNECTED"
  },
  {
   "property": "C202",
   "status": "partial",
   "theorems": [
    "Nostr.Journey.Mail.Props.C202_arrives_partial",
    "Nostr.Journey.Mail.Props.C202_sends",
    "Nostr.Journey.Mail.Props.C202_too_long_refuted",
    "Nostr.Journey.Mail.Props.C202_long_text_refuted"
   ],
   "note": "proved for messages whose JSON text has at most 32768 bytes and times below 10^15. Missing because the code does otherwise: messages of 32769 to 45056 bytes are sent and published without an error, but with the default content limit no relay passes them on and no recipient reads them"
  },
  {
   "property": "C203",
   "status": "partial",
   "theorems": [
    "Nostr.Config.Limits.Props.C203_tags",
    "Nostr.Config.Limits.Props.C203_read",
    "Nostr.Config.Limits.Props.C203_plaintext",
    "Nostr.Config.Limits.Props.C203_own_partial",
    "Nostr.Config.Limits.Props.C203_content_refuted",
    "Nostr.Config.Limits.Props.C203_values_refuted",
    "Nostr.Config.Limits.Props.C203_unconfigured_refuted",
    "Nostr.Config.Limits.Props.C203_lowered_refuted",
    "Nostr.Config.Limits.Props.C203_min_refuted",
    "Nostr.Config.Limits.Props.C203_unused_refuted"
   ],
   "note": "proved: the number of tags over all histories, content and tags of what is read, bounds of what is encrypted, upper bound of what is decrypted, and exactly when the library reads what it wrote. Missing because the code does otherwise: content is not limited when it is set, values per tag nowhere, short plaintexts not when decrypting; without nostr_init_with_config there are no limits; six fields are read by no function"
  },
  {
   "property": "C204",
   "status": "partial",
   "theorems": [
    "Nostr.Journey.Talk.Props.C204_signer_request_partial",
    "Nostr.Journey.Talk.Props.C204_signer_answer_partial",
    "Nostr.Journey.Talk.Props.C204_wallet_request_partial",
    "Nostr.Journey.Talk.Props.C204_notification_partial",
    "Nostr.Journey.Talk.Props.C204_long_refuted",
    "Nostr.Journey.Talk.Props.C204_wallet_answer_refuted"
   ],
   "note": "proved for texts of up to 45056 bytes and times below 10^15, requests within the bounds of C71 and C98. Missing because the code does otherwise: longer answers are made and published, but no relay with the default content limit passes them on; the answer of a wallet with the p tag that NIP-47 demands arrives but is not readable, because the key in the tag is taken for the wallet's"
  },
  {
   "property": "C205",
   "status": "partial",
   "theorems": [
    "Nostr.Journey.Post.Props.C205_arrives_partial",
    "Nostr.Journey.Post.Props.C205_reaction_partial",
    "Nostr.Journey.Post.Props.C205_repost_partial",
    "Nostr.Journey.Post.Props.C205_thread_partial",
    "Nostr.Journey.Post.Props.C205_relays_partial",
    "Nostr.Journey.Post.Props.C205_list_partial",
    "Nostr.Journey.Post.Props.C205_delegated_partial",
    "Nostr.Journey.Post.Props.C205_work_partial",
    "Nostr.Journey.Post.Props.C205_parallel_partial",
    "Nostr.Journey.Post.Props.C205_work_refuted"
   ],
   "note": "proved for times below 10^15 and subscription ids of up to 64 bytes (C198), lists within the bounds of C47. Missing because the code does otherwise: an event that is mined before its key is set loses its work when it is signed"
  },
  {
   "property": "C206",
   "status": "partial",
   "theorems": [
    "Nostr.Long.Props.C206_wide",
    "Nostr.Long.Props.C206_request_partial",
    "Nostr.Long.Props.C206_receipt_partial",
    "Nostr.Long.Props.C206_env_partial",
    "Nostr.Long.Props.C206_path_partial",
    "Nostr.Long.Props.C206_conditions_partial",
    "Nostr.Long.Props.C206_repost_partial",
    "Nostr.Long.Props.C206_reaction_partial",
    "Nostr.Long.Props.C206_keysend_partial",
    "Nostr.Long.Props.C206_list_partial",
    "Nostr.Long.Props.C206_request_refuted",
    "Nostr.Long.Props.C206_receipt_refuted",
    "Nostr.Long.Props.C206_verify_refuted",
    "Nostr.Long.Props.C206_verify_sample_refuted",
    "Nostr.Long.Props.C206_overflow_refuted",
    "Nostr.Long.Props.C206_env_refuted",
    "Nostr.Long.Props.C206_path_refuted",
    "Nostr.Long.Props.C206_conditions_refuted",
    "Nostr.Long.Props.C206_kind_refuted",
    "Nostr.Long.Props.C206_keysend_refuted",
    "Nostr.Long.Props.C206_list_refuted"
   ],
   "note": "proved: amounts below 2^32 millisatoshi, settings in range, paths of numbers below 2^32, kinds without a minus sign, record types of 32 bits, requests without times. Missing because the code does otherwise on the narrow platform: larger zap amounts are asked for and read modulo 2^32, so valid receipts are refused and others accepted; out-of-range settings are taken instead of ignored; a large number without unit in an invoice is undefined behaviour; the keysend preimage record type 5482373484 becomes 2147483647; times printed with %ld are undefined"
  },
  {
   "property": "C207",
   "status": "partial",
   "theorems": [
    "Nostr.Codes.Props.C207_hex_out_partial",
    "Nostr.Codes.Props.C207_bech32_partial",
    "Nostr.Codes.Props.C207_sign_partial",
    "Nostr.Codes.Props.C207_verify_partial",
    "Nostr.Codes.Props.C207_json_partial",
    "Nostr.Codes.Props.C207_mnemonic_partial",
    "Nostr.Codes.Props.C207_ncryptsec_partial",
    "Nostr.Codes.Props.C207_mine_partial",
    "Nostr.Codes.Props.C207_thread_partial",
    "Nostr.Codes.Props.C207_conditions_partial",
    "Nostr.Codes.Props.C207_tag_partial",
    "Nostr.Codes.Props.C207_delegation_partial",
    "Nostr.Codes.Props.C207_message_partial",
    "Nostr.Codes.Props.C207_event_text_partial",
    "Nostr.Codes.Props.C207_connect_partial",
    "Nostr.Codes.Props.C207_hex_refuted",
    "Nostr.Codes.Props.C207_sign_refuted",
    "Nostr.Codes.Props.C207_verify_refuted",
    "Nostr.Codes.Props.C207_json_refuted",
    "Nostr.Codes.Props.C207_ncryptsec_refuted",
    "Nostr.Codes.Props.C207_thread_refuted",
    "Nostr.Codes.Props.C207_delegation_refuted",
    "Nostr.Codes.Props.C207_empty_refuted",
    "Nostr.Codes.Props.C207_connect_refuted"
   ],
   "note": "proved: hex output, bech32, mnemonics, conditions, delegation tags, mining, buffers that are not empty, and for the other calls exactly which code is given when. Missing because the code does otherwise: nostr_key_from_hex never gives NOSTR_ERR_ENCODING; verifying answers INVALID_EVENT or INVALID_KEY where the documents know only INVALID_SIGNATURE; signing, connecting and checking a delegation give further codes; an empty password or buffer is answered differently; a mention is taken for a root. The codes for lack of memory in nostr_event_create, _set_content and _add_tag are in C136"
  },
  {
   "property": "C208",
   "status": "partial",
   "theorems": [
    "Nostr.Outbuf.Props.C208_reaction",
    "Nostr.Outbuf.Props.C208_repost",
    "Nostr.Outbuf.Props.C208_thread",
    "Nostr.Outbuf.Props.C208_identifier",
    "Nostr.Outbuf.Props.C208_receipt_partial",
    "Nostr.Outbuf.Props.C208_receipt_refuted",
    "Nostr.Outbuf.Props.C208_amount_refuted",
    "Nostr.Outbuf.Props.C208_lnurl_refuted",
    "Nostr.Outbuf.Props.C208_response_partial",
    "Nostr.Outbuf.Props.C208_response_refuted",
    "Nostr.Outbuf.Props.C208_bare_response",
    "Nostr.Outbuf.Props.C208_notification_partial",
    "Nostr.Outbuf.Props.C208_notification_refuted",
    "Nostr.Outbuf.Props.C208_paid_partial",
    "Nostr.Outbuf.Props.C208_paid_refuted",
    "Nostr.Outbuf.Props.C208_balance",
    "Nostr.Outbuf.Props.C208_info_partial",
    "Nostr.Outbuf.Props.C208_info_refuted",
    "Nostr.Outbuf.Props.C208_bare_info"
   ],
   "note": "proved for reactions, reposts, threads and identifiers, and for zap receipts that carry an invoice with an amount, a short preimage and a description, if the amount is not asked for alone. Missing because the code does otherwise: what a receipt lacks keeps its earlier value, the amount is never written unless the invoice is asked for too, nostr_zap_validate_lnurl never writes its two outputs, and of a wallet's answers only what they carry is written: with a result the variables for the error keep what they held, without fees that for the fees, and what the description of a wallet lacks likewise"
  },
  {
   "property": "C209",
   "status": "partial",
   "theorems": [
    "Nostr.Null.Props.C209_safe_partial",
    "Nostr.Null.Props.C209_refused_partial",
    "Nostr.Null.Props.C209_optional_partial",
    "Nostr.Null.Props.C209_every",
    "Nostr.Null.Props.C209_refuted",
    "Nostr.Null.Props.C209_reply_refuted"
   ],
   "note": "proved for all 285 functions and all choices of NULL arguments, from a table of tests and uses made from the text; pointers inside structures are not in it, elements of arrays of strings are. Missing because the code does otherwise: nostr_random_bytes and nostr_constant_time_memcmp test nothing, a NULL record of a payment to a key and (without cJSON) a NULL invoice among many are followed, and a reply with neither of its two optional ids is refused"
  },
  {
   "property": "C210",
   "status": "partial",
   "theorems": [
    "Nostr.Shared.Props.C210_partial",
    "Nostr.Shared.Props.C210_prepared_partial",
    "Nostr.Shared.Props.C210_waiting",
    "Nostr.Shared.Props.C210_locks",
    "Nostr.Shared.Props.C210_refuted",
    "Nostr.Shared.Props.C210_prepared_refuted",
    "Nostr.Shared.Props.C210_callback_refuted"
   ],
   "note": "proved for all 395 functions: no deadlock, no lock kept, and collisions at no other than eight variables; after initialisation, without nostr_cleanup, at no other than two. Missing because the code does otherwise: the contexts of the cryptography and the flag that they are ready are read without the lock under which they are written, the text of the features and the flag of the session table have no lock or are read without it, giving up and prolonging a session write what other calls read under another lock (each with a schedule); a callback of the configuration that calls the library waits for itself. Locks and memory of a relay or a search belong to their objects: C143, C145, C174, C175. cJSON's own variable for error positions is not the library's and not modelled"
  },
  {
   "property": "C211",
   "status": "partial",
   "theorems": [
    "Nostr.Arena.Props.C211_partial",
    "Nostr.Arena.Props.C211_small",
    "Nostr.Arena.Props.C211_inplace",
    "Nostr.Arena.Props.C211_nonce_partial",
    "Nostr.Arena.Props.C211_moved",
    "Nostr.Arena.Props.C211_refuted"
   ],
   "note": "proved as long as the tags added fit into the memory the event has (for a new event: 8 bytes for each value and its text with the zero, 1024 in all), or the allocator enlarges the memory in place. Missing because the code does otherwise: an addition that moves the memory releases all that was handed out before (C211_moved, C211_refuted). Setting the nonce between reading and use is covered by C211_nonce_partial (62 bytes for each setting; the old nonce stays readable, too). nostr_event_get_tag hands out an address in another block, which is not modelled."
  },
  {
   "property": "C212",
   "status": "proved",
   "theorems": [
    "Nostr.Shared.Props.C212_only",
    "Nostr.Shared.Props.C212_nothing",
    "Nostr.Shared.Props.C212_ready",
    "Nostr.Shared.Props.C212_once",
    "Nostr.Shared.Props.C212_needed"
   ],
   "note": "for each of the 24 variables the list of the public calls that can change it, which is exact: no other can (C212_only), each of them can (C212_needed). Contents of variables are followed for flags only; which session a call changes is not part of it."
  },
  {
   "property": "C213",
   "status": "partial",
   "theorems": [
    "Nostr.Shared.Props.C213_partial",
    "Nostr.Shared.Props.C213_ready_partial",
    "Nostr.Shared.Props.C213_documented",
    "Nostr.Shared.Props.C213_refuted"
   ],
   "note": "proved for all functions but nostr_cleanup, nostr_nip47_session_destroy and nostr_nip47_session_extend once the library is initialised, the session table made and the feature list asked for; with nothing but nostr_init before, for all but six functions, among them all that the document calls always thread-safe. Missing because the code does otherwise: nostr_init beside a first nostr_key_generate, nostr_cleanup beside any use, giving up and prolonging sessions beside other session calls (C213_refuted)."
  },
  {
   "property": "C214",
   "status": "partial",
   "theorems": [
    "Nostr.Config.Doc.Props.C214_rules_partial",
    "Nostr.Config.Doc.Props.C214_timeout_refuted",
    "Nostr.Config.Doc.Props.C214_environment",
    "Nostr.Config.Doc.Props.C214_defaults",
    "Nostr.Config.Doc.Props.C214_plain_refuted",
    "Nostr.Config.Doc.Props.C214_notified",
    "Nostr.Config.Doc.Props.C214_update",
    "Nostr.Config.Doc.Props.C214_retry_refuted",
    "Nostr.Config.Doc.Props.C214_ready_partial"
   ],
   "note": "proved: nothing outside the documented bounds is accepted, which of those inside are, the defaults, the environment for nostr_init_with_config(NULL), notifications and updates. Missing because the code does otherwise: response timeouts above a minute are refused although documented (C214_timeout_refuted), nostr_init reads neither defaults nor environment (C214_plain_refuted), and nostr_init_with_config reports success without initialising when repeated after a failure or after nostr_cleanup (C214_retry_refuted). Callbacks that call the library are C77; several threads are C186."
  },
  {
   "property": "C215",
   "status": "partial",
   "theorems": [
    "Nostr.Zap.Guide.Props.C215_round_partial",
    "Nostr.Zap.Guide.Props.C215_checked",
    "Nostr.Zap.Guide.Props.C215_no_invoice",
    "Nostr.Zap.Guide.Props.C215_forged_refuted",
    "Nostr.Zap.Guide.Props.C215_no_invoice_refuted",
    "Nostr.Zap.Guide.Props.C215_secret_refuted"
   ],
   "note": "proved: request, receipt and check fit together over two hosts (C215_round_partial: times below 10^15, invoices with a letter for the unit), and a checking program that calls nostr_zap_verify first prints only what a signed receipt for the request says (C215_checked). Missing because the guide does otherwise: its checking program looks at no signature (C215_forged_refuted), prints a NULL text for a receipt without an invoice (C215_no_invoice, C215_no_invoice_refuted), and its sending program takes a secret key for a recipient and publishes it (C215_secret_refuted). The receipt itself is made as NIP-57 describes, the guide leaves it open; the HTTP and Lightning parts of the guide are not modelled."
  },
  {
   "property": "C216",
   "status": "partial",
   "theorems": [
    "Nostr.Nip13.Example.Props.C216_shown_partial",
    "Nostr.Nip13.Example.Props.C216_signed",
    "Nostr.Nip13.Example.Props.C216_unsigned_refuted",
    "Nostr.Nip13.Example.Props.C216_exit_refuted"
   ],
   "note": "proved: difficulty, id, PASSED, status and the printed event for every run that reports success in the build with cJSON, with and without threads (C216_shown_partial); signing the event afterwards with the generated key keeps the id and the work (C216_signed). Missing because the program does otherwise: it never signs the event, so what it prints does not verify (C216_unsigned_refuted), and without cJSON it ends with status 1 after a success (C216_exit_refuted)"
  },
  {
   "property": "C217",
   "status": "partial",
   "theorems": [
    "Nostr.Relay.Example.Props.C217_note_partial",
    "Nostr.Relay.Example.Props.C217_published_iff",
    "Nostr.Relay.Example.Props.C217_confirmed",
    "Nostr.Relay.Example.Props.C217_status",
    "Nostr.Relay.Example.Props.C217_refused_refuted",
    "Nostr.Relay.Example.Props.C217_unsent_refuted",
    "Nostr.Relay.Example.Props.C217_status_refuted"
   ],
   "note": "proved: the note, its id, its verification and the text every connected relay is sent (C217_note_partial, build with cJSON); exactly when the program says 'published' (C217_published_iff), and that a confirmation in any chunks is noticed (C217_confirmed). Missing because the program does otherwise: a refusal of the note counts as publication (C217_refused_refuted), so does a message about another event when the note was not sent at all (C217_unsent_refuted), and the status is 0 in every run that gets to the relays (C217_status, C217_status_refuted)."
  },
  {
   "property": "C218",
   "status": "partial",
   "theorems": [
    "Nostr.Relay.Watch.Props.C218_shown_partial",
    "Nostr.Relay.Watch.Props.C218_safe_partial",
    "Nostr.Relay.Watch.Props.C218_crash_refuted",
    "Nostr.Relay.Watch.Props.C218_forged_refuted"
   ],
   "note": "proved: exactly the events of subscriptions in force are shown, each once and described correctly (C218_shown_partial, build with cJSON); every text is dealt with unless it brings a time stamp outside the host's calendar (C218_safe_partial). Missing because the program does otherwise: a time stamp for which localtime returns NULL reaches strftime (C218_crash_refuted), and unsigned events of kinds not asked for are shown (C218_forged_refuted)."
  },
  {
   "property": "C219",
   "status": "partial",
   "theorems": [
    "Nostr.Zap.Example.Props.C219_options",
    "Nostr.Zap.Example.Props.C219_bound",
    "Nostr.Zap.Example.Props.C219_create_partial",
    "Nostr.Zap.Example.Props.C219_valid",
    "Nostr.Zap.Example.Props.C219_printed",
    "Nostr.Zap.Example.Props.C219_status_refuted",
    "Nostr.Zap.Example.Props.C219_amount_refuted"
   ],
   "note": "proved: message and relays from any list of options (C219_options), the table is never overrun, whatever the arguments (C219_bound), the printed request (C219_create_partial), what a valid receipt means (C219_valid) and what is printed for it (C219_printed). Missing because the program does otherwise: the amount text is not checked (C219_amount_refuted), only the first nine relays given are used (C219_options), and the status is 0 for a refused receipt (C219_status_refuted)."
  }
 ]
}
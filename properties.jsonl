{"id": "C01", "title": "Bech32 round trip of keys, secrets and ids", "statement": "Encoding any 32-byte public key with any accepted prefix of 1..31 characters (and any private key as nsec, any event id as note) into a large enough buffer succeeds, and decoding the resulting text returns exactly the same 32 bytes.", "quantifier": "every 32-byte value, every lower-case prefix of 1..31 characters, every buffer size the encoder accepts", "why_tests_cant": "2^256 payloads times all prefixes; a sample cannot exclude a payload whose 5-bit regrouping or checksum is mishandled", "anchors": ["src/bech32.c: nostr_key_to_bech32, nostr_key_from_bech32, nostr_privkey_to_bech32, nostr_privkey_from_bech32, nostr_event_id_to_bech32, nostr_event_id_from_bech32"]}
{"id": "C02", "title": "Bech32 typo detection", "statement": "If a text decodes successfully as a key, secret or note, then replacing any one or any two of its data characters by other characters never yields a text that also decodes successfully.", "quantifier": "every successfully decodable text and every one- or two-character substitution in its data part", "why_tests_cant": "the space of valid strings times corruption positions is astronomically large; a code with the wrong generator constants passes all round-trip tests", "anchors": ["src/bech32.c: bech32_polymod, bech32_verify_checksum"]}
{"id": "C03", "title": "Bech32 decoding is canonical", "statement": "A key has exactly one textual form per prefix: if a text decodes to a key, encoding that key with the text's prefix reproduces the text character for character (no two accepted texts with one prefix denote the same key).", "quantifier": "every text accepted by the decoder", "why_tests_cant": "needs absence of a second accepted spelling among all texts (non-zero padding bits, upper/lower case mixing, alternative checksum)", "anchors": ["src/bech32.c: convert_bits, bech32_verify_checksum, nostr_key_from_bech32"]}
{"id": "C04", "title": "Bech32 entity separation", "statement": "Decoding a text as one entity kind only succeeds if the text carries that kind's prefix: a secret-key text is never accepted where a public key or an event id is expected, and vice versa.", "quantifier": "every text, every decoder", "why_tests_cant": "a test can only try a few mismatched prefixes", "anchors": ["src/bech32.c: nostr_key_from_bech32, nostr_privkey_from_bech32, nostr_event_id_from_bech32"]}
{"id": "C05", "title": "Bech32 decoding never writes outside its buffers", "statement": "For every NUL-terminated input text, every decoder returns (success or error) without writing or reading outside its fixed-size local buffers.", "quantifier": "every input text of every length", "why_tests_cant": "overflow only shows on specific lengths/separator positions and is silent without instrumentation", "anchors": ["src/bech32.c: nostr_key_from_bech32, nostr_privkey_from_bech32, nostr_event_id_from_bech32"]}
{"id": "C06", "title": "NIP-19 TLV entities round trip", "statement": "For every profile, event reference, address and relay entity with in-limit fields (at most 16 ws/wss relay URLs of at most 255 characters whose records fit the 4096-byte record area together with the other fields), encoding into a large enough buffer succeeds and decoding gives back the same entity (same id/pubkey, author presence, kind presence, identifier and relay list in order).", "quantifier": "every entity whose relays/identifier respect the documented limits", "why_tests_cant": "unbounded combinations of relay count, lengths, optional fields", "anchors": ["src/nip21.c: build_tlv, parse_tlv, nostr_nprofile_encode, nostr_nprofile_decode, nostr_nevent_encode, nostr_nevent_decode, nostr_naddr_encode, nostr_naddr_decode, nostr_nrelay_encode, nostr_nrelay_decode"]}
{"id": "C07", "title": "NIP-19 TLV parser is forward compatible and safe", "statement": "Unknown TLV types inserted anywhere between records are ignored, and parsing any byte string terminates without reading outside the input and without exceeding the relay capacity.", "quantifier": "every byte string, every inserted unknown record at every record boundary", "why_tests_cant": "adversarial byte strings are unbounded", "anchors": ["src/nip21.c: parse_tlv"]}
{"id": "C08", "title": "nostr: URI parse inverts encode and picks the right kind", "statement": "For every entity, parsing the URI produced by the encoder yields the same entity of the same type; and a successful parse of any text returns the type named by the text (scheme nostr:, human-readable part, separator).", "quantifier": "every entity of all seven types", "why_tests_cant": "unbounded entity payloads", "anchors": ["src/nip21.c: nostr_uri_parse, nostr_uri_encode"]}
{"id": "C09", "title": "Hex codec round trip and strictness", "statement": "Hex encoding of any byte string decodes back to it; the decoder accepts exactly the even-length strings of hex digits that fit the output buffer, and encodes in lower case.", "quantifier": "all byte strings and all texts", "why_tests_cant": "unbounded strings; accept-set equality quantifies over all texts", "anchors": ["src/utils.c: nostr_hex_decode, nostr_hex_encode", "src/relay_protocol.c: nostr_hex_to_bytes, nostr_bytes_to_hex"]}
{"id": "C10", "title": "Constant-time comparison is exact", "statement": "The constant-time memory comparison reports equality iff the two regions are bytewise equal, for every length.", "quantifier": "all pairs of equal-length regions", "why_tests_cant": "a wrong accumulator (e.g. XOR-accumulate instead of OR) only fails on special difference patterns", "anchors": ["src/utils.c: nostr_constant_time_memcmp"]}
{"id": "C11", "title": "Proof-of-work difficulty is the number of leading zero bits", "statement": "The difficulty computed for an event id equals the largest k such that the first k bits of the id (most significant first) are zero; difficulty of an all-zero id is 256.", "quantifier": "all 2^256 ids", "why_tests_cant": "2^256 inputs", "anchors": ["src/nip13.c: nostr_nip13_calculate_difficulty"]}
{"id": "C12", "title": "Mining success is sound", "statement": "If mining reports success then the event's id was computed from the event including its current nonce tag, the id has at least the target difficulty, the nonce tag commits to the target, and no other tag or field of the event changed.", "quantifier": "every event, target, iteration bound and hash function", "why_tests_cant": "depends on hash outputs along an unbounded nonce search", "anchors": ["src/nip13.c: nostr_nip13_mine_event, nostr_nip13_add_nonce_tag, nostr_nip13_verify_pow"]}
{"id": "C13", "title": "Parallel mining publishes one consistent winner under every schedule", "statement": "For every number of worker threads and every interleaving of their steps, the result delivered to the caller is one worker's complete (nonce, id) pair that meets the target; later finishers never overwrite it.", "quantifier": "all interleavings of any number of workers", "why_tests_cant": "races depend on the schedule", "anchors": ["src/nip13.c: mining_thread, nostr_nip13_mine_event_threaded"]}
{"id": "C14", "title": "NIP-44 padding round trip and length hiding", "statement": "Padding a plaintext of any allowed length and unpadding returns the plaintext; the padded length depends only on the plaintext length, is non-decreasing in it, at least 32 and never shorter than the plaintext; unpadding rejects any buffer whose length prefix or length is inconsistent or whose padding length is wrong.", "quantifier": "all plaintexts of allowed length; all padded buffers", "why_tests_cant": "unbounded plaintexts; accept-set equality quantifies over all buffers", "anchors": ["src/nip44.c: calc_padded_len, pad_plaintext, unpad_plaintext"]}
{"id": "C15", "title": "NIP-44 messages that can be encrypted can be decrypted", "statement": "For every plaintext accepted by encryption, decrypting the produced payload with the matching keys returns the plaintext.", "quantifier": "all plaintext lengths 1..65535 and contents, all keys and nonces", "why_tests_cant": "payload-size limits interact with padding only at particular lengths", "anchors": ["src/nip44.c: nostr_nip44_encrypt, nostr_nip44_decrypt"]}
{"id": "C16", "title": "NIP-44 decryption authenticates before using the ciphertext", "statement": "Decryption succeeds only if the MAC computed over nonce and ciphertext equals the MAC in the payload and the version byte is 2; otherwise it returns an error and no plaintext.", "quantifier": "all payload texts, all keys", "why_tests_cant": "all forged payloads", "anchors": ["src/nip44.c: nostr_nip44_decrypt"]}
{"id": "C17", "title": "The event id preimage determines the event", "statement": "Two events whose canonical serialisations are equal have the same public key, timestamp, kind, tag list (same tags, same values, same order) and content; hence distinct events never share an id preimage.", "quantifier": "all pairs of events", "why_tests_cant": "injectivity quantifies over all pairs; needs escaping to be unambiguous for every byte string", "anchors": ["src/event.c: escape_json_string, serialize_for_id, nostr_event_compute_id"]}
{"id": "C18", "title": "Adding a tag never disturbs earlier tags", "statement": "After any sequence of tag additions the event's tags are exactly the added value lists in order, every earlier value still readable with unchanged content, regardless of internal buffer growth and relocation; a failed addition leaves the tags unchanged.", "quantifier": "all sequences of additions of any sizes, with allocation failure at any point", "why_tests_cant": "relocation bugs depend on exact cumulative sizes and allocator behaviour", "anchors": ["src/event.c: nostr_event_add_tag"]}
{"id": "C19", "title": "Signed events verify and verification is sound", "statement": "An event signed with a key verifies; and verification succeeds only if the event's id is the hash of its current content and the signature is valid for that id under the event's public key, so changing any signed field makes verification fail (for a collision-free hash).", "quantifier": "all events, all keys, all single- or multi-field modifications", "why_tests_cant": "all tamperings of all events", "anchors": ["src/event.c: nostr_event_sign, nostr_event_verify, nostr_event_compute_id"]}
{"id": "C20", "title": "Event JSON round trip", "statement": "Serialising any in-limits event to JSON and parsing it back yields the same event (id, pubkey, created_at, kind, tags, content, sig).", "quantifier": "all events within configured limits", "why_tests_cant": "unbounded tags and content", "anchors": ["src/event.c: nostr_event_to_json, nostr_event_from_json"]}
{"id": "C21", "title": "Event kinds are partitioned", "statement": "Every kind is exactly one of regular, replaceable, ephemeral, addressable, and the individual predicates agree with the classification function and the NIP-01 ranges.", "quantifier": "all 65536 kinds", "why_tests_cant": "finite but exhaustive: boundary kinds must all be right at once", "anchors": ["src/relay_protocol.c: nostr_kind_get_type, nostr_kind_is_replaceable, nostr_kind_is_ephemeral, nostr_kind_is_addressable, nostr_kind_is_regular"]}
{"id": "C22", "title": "Replaceable events converge", "statement": "The replaceable-event comparison is a strict total order on (created_at, id), so a store keeping the winner of pairwise comparisons ends with the same event for every arrival order and duplication of the same set of versions: the newest, ties broken by lowest id.", "quantifier": "all finite multisets of versions and all permutations of arrival", "why_tests_cant": "all arrival orders", "anchors": ["src/relay_protocol.c: nostr_event_compare_replaceable"]}
{"id": "C23", "title": "Filter matching implements NIP-01 semantics", "statement": "An event matches a filter iff every present condition holds: id/author membership (by the stored prefixes), kind membership, since/until inclusive bounds, and for every tag-letter condition some event tag with that letter has a listed value; absent conditions do not restrict.", "quantifier": "all filters and all events", "why_tests_cant": "cross product of filters and events is unbounded", "anchors": ["src/relay_filter.c: nostr_filter_matches"]}
{"id": "C24", "title": "Filter list is a disjunction, and adding conditions only narrows", "statement": "An event matches a filter list iff it matches at least one filter; adding a condition to a filter never makes a previously rejected event match.", "quantifier": "all filter lists, events and added conditions", "why_tests_cant": "monotonicity quantifies over pairs of filters", "anchors": ["src/relay_filter.c: nostr_filters_match, nostr_filter_matches"]}
{"id": "C25", "title": "Parsing a filter never widens it", "statement": "Parsing a filter document either fails or yields a filter that matches only events that satisfy every condition written in the document.", "quantifier": "all filter JSON documents and all events", "why_tests_cant": "malformed elements appear in unbounded positions", "anchors": ["src/relay_filter.c: nostr_filter_parse"]}
{"id": "C26", "title": "Deletion requests are only honoured for the author's own events", "statement": "A deletion request is reported as authorised for a target event iff both have the same author and the target is referenced by the request (by id, or by address with not-newer timestamp).", "quantifier": "all deletion requests and target events", "why_tests_cant": "all combinations of tags and authors", "anchors": ["src/relay_protocol.c: nostr_deletion_parse, nostr_deletion_authorized"]}
{"id": "C27", "title": "Expiration decision", "statement": "An event is reported expired iff it carries an expiration tag with a numeric timestamp that is not in the future of the given clock; events without an expiration tag never expire; once expired an event stays expired as time advances.", "quantifier": "all events, all clock values", "why_tests_cant": "all tag values and times", "anchors": ["src/relay_protocol.c: nostr_event_is_expired, nostr_event_get_expiration"]}
{"id": "C28", "title": "Timestamp acceptance window", "statement": "An event's timestamp is accepted iff it is inside the configured window around the current time, for every clock value and configuration.", "quantifier": "all timestamps, clocks and limits", "why_tests_cant": "signed overflow happens only at extremes", "anchors": ["src/relay_protocol.c: nostr_validate_timestamp"]}
{"id": "C29", "title": "Full event validation is the conjunction of its checks", "statement": "Full validation accepts an event iff every individual requirement (timestamp not too far in the future, not expired, id matches content, public key and signature valid) holds, and otherwise reports the first failing one with its field.", "quantifier": "all events and validation configurations", "why_tests_cant": "all combinations of failures", "anchors": ["src/relay_protocol.c: nostr_event_validate_full"]}
{"id": "C30", "title": "Cloned filter is equivalent and independent", "statement": "A cloned filter matches exactly the same events as the original, and freeing or modifying either leaves the other unchanged; a failed clone leaves nothing allocated.", "quantifier": "all filters, all events, allocation failure at every point", "why_tests_cant": "allocation failure points are unbounded", "anchors": ["src/relay_filter.c: nostr_filter_clone, nostr_filter_free"]}
{"id": "C31", "title": "Client messages are classified correctly and completely", "statement": "Parsing a client message returns exactly the message denoted by a well-formed [\"EVENT\"|\"REQ\"|\"CLOSE\"|\"AUTH\"|\"COUNT\", ...] array and an error otherwise; a subscription id that is accepted is 1..64 characters and is preserved exactly; all filters of a REQ are parsed or the message is rejected.", "quantifier": "all JSON documents", "why_tests_cant": "unbounded arrays", "anchors": ["src/relay_message.c: nostr_client_msg_parse"]}
{"id": "C32", "title": "Relay message serialisation respects the buffer", "statement": "Serialising a relay message into a buffer of any size either writes the complete text and its exact length inside the buffer or returns an error; the written text parses back to the same message.", "quantifier": "all messages and all buffer sizes", "why_tests_cant": "all sizes including off-by-one sizes", "anchors": ["src/relay_message.c: nostr_relay_msg_serialize, nostr_relay_msg_serialize"]}
{"id": "C33", "title": "Websocket framing is independent of how data is chunked", "statement": "For every byte stream of concatenated JSON arrays (separated by blanks/newlines), in which a message together with a received chunk stays below the receive limit of 10 MB, the messages delivered are exactly those arrays in order, for every way of splitting the stream into received chunks.", "quantifier": "all streams, all chunk boundaries", "why_tests_cant": "exponentially many splits; boundaries inside strings and escapes", "anchors": ["src/relay.c: nostr_relay_callback (LWS_CALLBACK_CLIENT_RECEIVE), find_json_array_end"]}
{"id": "C34", "title": "Receive buffer stays in bounds", "statement": "For every sequence of received chunks of any sizes the receive buffer's fill level stays below its allocated size, never exceeds the configured maximum, and no byte is written outside it.", "quantifier": "all chunk sequences, allocation failure at any point", "why_tests_cant": "depends on cumulative sizes", "anchors": ["src/relay.c: nostr_relay_callback"]}
{"id": "C35", "title": "Subscription ids cannot inject JSON", "statement": "A subscription id is accepted only if it is 1..64 characters of a safe alphabet, so that the REQ/CLOSE text sent contains the id as one JSON string and nothing else.", "quantifier": "all candidate ids", "why_tests_cant": "all texts", "anchors": ["src/relay.c: validate_subscription_id, nostr_subscribe"]}
{"id": "C36", "title": "Relay object lifecycle is free of use-after-free", "statement": "For every sequence of connect (successful or failing), callback registration, disconnect and destroy calls, no operation touches a freed connection context.", "quantifier": "all operation sequences with failures at any point", "why_tests_cant": "failure paths depend on network library outcomes", "anchors": ["src/relay.c: nostr_relay_connect, nostr_relay_disconnect, nostr_relay_destroy"]}
{"id": "C37", "title": "Wallet connection URI parsing", "statement": "A wallet-connect URI is accepted only if it has the right scheme, a 64-hex-digit wallet key, a 64-hex-digit secret and at least one relay; for every connection, building a URI and parsing it yields the same key, secret and relays (percent-decoding inverts percent-encoding).", "quantifier": "all URIs, all connections", "why_tests_cant": "unbounded parameter strings", "anchors": ["src/nip47.c: nostr_nip47_parse_connection_uri, url_decode"]}
{"id": "C38", "title": "Session spending limit is never exceeded", "statement": "For every sequence of permission checks within one budget period, the sum of approved amounts for a limited permission never exceeds its limit.", "quantifier": "all sequences of amounts and times", "why_tests_cant": "wrap-around only at extreme amounts; accumulated over histories", "anchors": ["src/nip47_session.c: nostr_nip47_session_check_permission"]}
{"id": "C39", "title": "Sessions behave as a bounded map under every interleaving", "statement": "For every interleaving of create, add-permission, check, get, extend and destroy calls from any number of threads, each call behaves as if executed atomically on a finite map from session ids to sessions; in particular an operation on a destroyed session never succeeds.", "quantifier": "all schedules of all operation sequences", "why_tests_cant": "schedule dependent", "anchors": ["src/nip47_session.c: find_session, nostr_nip47_session_create, nostr_nip47_session_destroy, nostr_nip47_session_get_connection"]}
{"id": "C40", "title": "Session creation is rate limited and bounded", "statement": "Within any one second of a non-decreasing clock at most 10 sessions are created, and the number of live sessions never exceeds the configured maximum; expired sessions are reclaimed.", "quantifier": "all histories of create/destroy/expire", "why_tests_cant": "history dependent", "anchors": ["src/nip47_session.c: nostr_nip47_session_create"]}
{"id": "C41", "title": "Permission table stays in bounds under configuration changes", "statement": "For every history of session operations and configuration updates, adding a permission never writes beyond the session's permission array.", "quantifier": "all histories including configuration changes between calls", "why_tests_cant": "needs particular interleaving of config update and add", "anchors": ["src/nip47_session.c: nostr_nip47_session_add_permission", "src/config.c: nostr_config_update"]}
{"id": "C42", "title": "Wallet responses are decrypted with the sender's key", "statement": "For every client and wallet key pair, a response the wallet encrypts to the client decrypts at the client to the same text.", "quantifier": "all key pairs and response texts", "why_tests_cant": "requires two-party reasoning about which key is used", "anchors": ["src/nip47.c: nostr_nip47_parse_response_event, nostr_nip47_create_request_event"]}
{"id": "C43", "title": "JSON escaping of embedded text is lossless, bounded and injective", "statement": "Escaping any text into a buffer either fails/truncates at a safe point or yields a JSON string body that decodes to exactly the text; it never contains an unescaped quote, backslash or control character and never exceeds the buffer.", "quantifier": "all texts, all buffer sizes", "why_tests_cant": "all texts and sizes", "anchors": ["src/nip47.c: nip47_json_escape", "src/nip51.c: json_escape_to", "src/event.c: escape_json_string"]}
{"id": "C44", "title": "The active configuration is always valid", "statement": "After any history of initialise and update calls with any (valid or invalid) configurations, the configuration in force satisfies every documented range; rejected updates leave it unchanged.", "quantifier": "all histories of configuration calls", "why_tests_cant": "history dependent", "anchors": ["src/config.c: nostr_config_validate, nostr_init_with_config, nostr_config_update"]}
{"id": "C45", "title": "Configuration initialises once", "statement": "The first successful initialisation fixes the configuration until an explicit update; later initialisations succeed without changing it; updates before initialisation fail.", "quantifier": "all histories", "why_tests_cant": "history dependent", "anchors": ["src/config.c: nostr_init_with_config, nostr_config_update"]}
{"id": "C46", "title": "NIP-51 list container behaves as a sequence", "statement": "For every sequence of add/remove/get operations the list behaves like a mathematical sequence of items bounded by the maximum count; failed operations change nothing.", "quantifier": "all operation sequences", "why_tests_cant": "history dependent, capacity growth boundaries", "anchors": ["src/nip51.c: add_item, nostr_list_remove, nostr_list_get, nostr_list_count"]}
{"id": "C47", "title": "Private list items survive the write/read cycle", "statement": "Every private list that can be written to an event can be read back, giving the same items in the same order with the same fields.", "quantifier": "all lists of items with arbitrary text fields", "why_tests_cant": "unbounded items, escapes, length limits on the read side", "anchors": ["src/nip51.c: build_private_content, parse_private_content"]}
{"id": "C48", "title": "Private content buffer is always large enough", "statement": "Building the private content of any list never writes past the buffer allocated for it.", "quantifier": "all lists", "why_tests_cant": "size estimate must dominate output for all inputs", "anchors": ["src/nip51.c: build_private_content, json_escape_to"]}
{"id": "C49", "title": "Relay list invariants", "statement": "After any sequence of additions a relay list has no duplicate URL, only ws/wss URLs, at most 256 entries, and each entry has read or write set; a rejected addition changes nothing.", "quantifier": "all sequences of additions", "why_tests_cant": "history dependent", "anchors": ["src/nip65.c: nostr_relay_list_add"]}
{"id": "C50", "title": "Relay list event round trip", "statement": "Converting a relay list to an event and back yields the same list (URLs, order, read/write flags), and importing an arbitrary event keeps exactly the first occurrence of each valid URL.", "quantifier": "all relay lists within the tag limit; all events", "why_tests_cant": "unbounded lists", "anchors": ["src/nip65.c: nostr_relay_list_to_event, nostr_relay_list_from_event"]}
{"id": "C51", "title": "Read and write relay views are complete", "statement": "The read view (write view) of a relay list is exactly the URLs whose read (write) flag is set, in order, and every URL is in at least one view.", "quantifier": "all lists", "why_tests_cant": "unbounded lists", "anchors": ["src/nip65.c: nostr_relay_list_get_read_relays, nostr_relay_list_get_write_relays"]}
{"id": "C52", "title": "Thread reference resolution", "statement": "For an event with marked e tags the root and reply lookups return the first tag carrying the respective marker; for unmarked events the first and last e tag; a tag marked mention is never reported as root or reply; tags written by the reply helper are read back as the same root and reply.", "quantifier": "all tag lists", "why_tests_cant": "all combinations of markers and positions", "anchors": ["src/nip10.c: find_e_tag_by_marker, nostr_event_get_root_id, nostr_event_get_reply_id, nostr_event_add_reply_tags, nostr_event_is_reply"]}
{"id": "C53", "title": "Repost round trip", "statement": "A created repost parses back to the reposted event's id, author, relay hint and kind, is of kind 6 exactly for kind-1 events, and only the last e tag's own relay hint is reported with its id.", "quantifier": "all events and reposts", "why_tests_cant": "all tag orders", "anchors": ["src/nip18.c: nostr_repost_create, nostr_repost_parse"]}
{"id": "C54", "title": "Reactions", "statement": "A created reaction parses back to its target id, author and kind; like and dislike are mutually exclusive; classification is determined by the content alone.", "quantifier": "all target events, all contents", "why_tests_cant": "unbounded contents", "anchors": ["src/nip25.c: nostr_reaction_create, nostr_reaction_parse, nostr_reaction_is_like, nostr_reaction_is_dislike"]}
{"id": "C55", "title": "Delegation conditions are conjunctive", "statement": "A delegation's condition check accepts an event (kind, time) only if it satisfies every clause of the condition string (kind clauses being alternatives).", "quantifier": "all condition strings and all events", "why_tests_cant": "repeated clauses; all orders", "anchors": ["src/nip26.c: parse_delegation_conditions, nostr_delegation_check_conditions"]}
{"id": "C56", "title": "Delegation tokens bind delegatee and conditions", "statement": "A delegation verifies iff its token is the delegator's signature over exactly the delegatee key and condition string; tokens created by the library verify, and a token for one (delegatee, conditions) never verifies for another (for an unforgeable signature and collision-free hash).", "quantifier": "all keys, condition strings", "why_tests_cant": "all substitutions", "anchors": ["src/nip26.c: build_delegation_hash, nostr_delegation_create, nostr_delegation_verify, nostr_event_verify_delegation"]}
{"id": "C57", "title": "NIP-05 identifiers", "statement": "An accepted identifier splits into a lower-cased local part of allowed characters and a valid domain; the verification URL is a function of exactly these two, always fits the internal buffer and names the domain as host.", "quantifier": "all identifiers", "why_tests_cant": "all texts and lengths", "anchors": ["src/nip05.c: nostr_nip05_parse, nostr_nip05_build_url"]}
{"id": "C58", "title": "NIP-05 verification soundness", "statement": "Verification succeeds only if the fetched document's names object maps the requested name to exactly the expected public key (case-insensitively).", "quantifier": "all documents, names and keys", "why_tests_cant": "adversarial documents", "anchors": ["src/nip05.c: nostr_nip05_parse_response, nostr_nip05_verify"]}
{"id": "C59", "title": "Private messages hide their time", "statement": "Every seal and gift wrap timestamp lies within the two days before the current time and never in the future, and the exact current time is never used because randomness was unavailable.", "quantifier": "all random values, all clock values, RNG failure at any call", "why_tests_cant": "rare RNG failure paths", "anchors": ["src/nip17.c: random_timestamp_past_two_days", "src/nip59.c: randomize_timestamp"]}
{"id": "C60", "title": "Unwrapped direct messages are authentic", "statement": "Unwrapping a direct message succeeds only if the wrap and seal have the right kinds, the seal's signature verifies and the inner message's author equals the seal's signer; the reported sender is that signer.", "quantifier": "all wraps, seals and rumors", "why_tests_cant": "adversarial nesting", "anchors": ["src/nip17.c: nostr_nip17_unwrap_dm"]}
{"id": "C61", "title": "Gift-wrap unwrap does not allow impersonation", "statement": "Unwrapping a gift wrap yields an inner event only if its author equals the seal's verified signer.", "quantifier": "all wraps, seals and rumors", "why_tests_cant": "adversarial nesting", "anchors": ["src/nip59.c: nostr_nip59_unwrap_event"]}
{"id": "C62", "title": "Sent direct messages carry a correct rumor id", "statement": "The id of the inner message that is sent equals the hash of its final content including recipient, subject and reply tags.", "quantifier": "all messages", "why_tests_cant": "all tag combinations", "anchors": ["src/nip17.c: nostr_nip17_send_dm, create_rumor"]}
{"id": "C63", "title": "Encrypted private key round trip", "statement": "For every private key, password and cost parameter accepted, decrypting the produced text with the same password returns the key, the text validates, and a wrong password or altered text is rejected (for a sound AEAD).", "quantifier": "all keys, passwords, salts, nonces, cost parameters 16..22", "why_tests_cant": "unbounded inputs, expensive KDF", "anchors": ["src/nip49.c: nostr_ncryptsec_encrypt, nostr_ncryptsec_decrypt, nostr_ncryptsec_validate, decode_ncryptsec"]}
{"id": "C64", "title": "Mnemonics produced are accepted and carry the entropy", "statement": "Every generated 12- or 24-word mnemonic validates, and distinct entropies give distinct mnemonics; validation accepts a phrase iff all words are in the word list and the checksum bits equal the hash prefix of the entropy bits.", "quantifier": "all entropies and all phrases, any hash function", "why_tests_cant": "2^128..2^256 entropies", "anchors": ["src/hd_key.c: nostr_mnemonic_generate, nostr_mnemonic_validate"]}
{"id": "C65", "title": "Word lookup finds exactly the listed words", "statement": "Looking a text up in the word list returns the index of that word if it is listed and not-found otherwise, for every text.", "quantifier": "all texts (and the whole 2048-word table)", "why_tests_cant": "all non-words", "anchors": ["src/hd_key.c: bip39_word_index", "src/data/bip39_english.h"]}
{"id": "C66", "title": "HD path derivation is the fold of its components", "statement": "Deriving a textual path equals deriving its listed indices one after another from the master key; distinct index sequences written canonically are derived distinctly (no two different in-range paths alias, out-of-range indices are rejected).", "quantifier": "all paths", "why_tests_cant": "all texts", "anchors": ["src/hd_key.c: nostr_hd_key_derive_path, nostr_hd_key_derive"]}
{"id": "C67", "title": "Equivalent mnemonics give the same seed", "statement": "Two phrases that validate and consist of the same words in the same order produce the same seed.", "quantifier": "all pairs of accepted phrases", "why_tests_cant": "whitespace variants", "anchors": ["src/hd_key.c: nostr_mnemonic_validate, nostr_mnemonic_to_seed"]}
{"id": "C68", "title": "Zap receipt verification", "statement": "A zap receipt verifies only if kinds are right, it is signed by the expected server key, embeds the given request's id, and, when both amounts are known, the amounts are equal.", "quantifier": "all receipts, requests and server keys", "why_tests_cant": "adversarial receipts", "anchors": ["src/zap.c: nostr_zap_verify"]}
{"id": "C69", "title": "Invoice amount decoding", "statement": "The amount reported for an invoice equals the human-readable amount times the unit (m, u, n, p) in millisatoshi.", "quantifier": "all amounts and units", "why_tests_cant": "overflow at large amounts", "anchors": ["src/zap.c: nostr_zap_parse_receipt"]}
{"id": "C70", "title": "LNURL validation never writes outside its buffers", "statement": "For every input text, LNURL validation returns without writing outside its local buffers.", "quantifier": "all texts", "why_tests_cant": "specific separator positions", "anchors": ["src/zap.c: decode_bech32, nostr_zap_validate_lnurl"]}
{"id": "C71", "title": "Remote-signer requests and responses are carried completely", "statement": "A remote-signing request that is encrypted to the signer is read as the id, method and parameters it has, for all lengths; the response event that is built verifies and decrypts to the same id, result and error.", "quantifier": "all requests, all responses", "why_tests_cant": "truncation only at particular lengths", "anchors": ["src/nip46.c: nostr_nip46_parse_request, nostr_nip46_create_response"]}
{"id": "C72", "title": "Relay information document", "statement": "Supported-NIP list operations keep a faithful ordered list; serialising into any buffer size never overruns and reports the required length.", "quantifier": "all documents and sizes", "why_tests_cant": "all sizes", "anchors": ["src/relay_nip11.c: nostr_relay_info_set_nips, nostr_relay_info_add_nip, nostr_relay_info_serialize"]}
{"id": "C73", "title": "Key hex codec", "statement": "Converting a key to hex and back gives the key; the hex reader accepts exactly 64-digit hex strings.", "quantifier": "all keys; all texts", "why_tests_cant": "all texts of length 64", "anchors": ["src/key.c: nostr_key_from_hex, nostr_key_to_hex"]}
{"id": "C74", "title": "Encoding an entity never silently loses relays", "statement": "If encoding a profile reports success, decoding the text gives back all its relays; at the least, it gives the same key and a subsequence of the relays.", "quantifier": "every profile, including over-long, malformed or numerous relay strings", "why_tests_cant": "the loss appears only at particular total sizes", "anchors": ["src/nip21.c: build_tlv, parse_tlv, nostr_nprofile_encode, nostr_nprofile_decode"]}
{"id": "C75", "title": "Parsing an untrusted nostr: URI is memory safe", "statement": "Parsing any text as a nostr: URI, or as a TLV entity, never reads or writes outside its buffers.", "quantifier": "all texts of every length", "why_tests_cant": "an overflow shows only at particular lengths", "anchors": ["src/nip21.c: nostr_uri_parse, decode_bech32_to_bytes, parse_tlv", "src/bech32.c: nostr_key_from_bech32, nostr_privkey_from_bech32, nostr_event_id_from_bech32"]}
{"id": "C76", "title": "Typos in TLV entities are detected", "statement": "Changing one or two characters anywhere in a valid nprofile/nevent/naddr/nrelay text (up to 1023 characters after the separator) makes decoding fail.", "quantifier": "all valid texts, all one- or two-character substitutions", "why_tests_cant": "quadratically many substitutions of unboundedly many texts", "anchors": ["src/nip21.c: decode_bech32_to_bytes", "src/bech32.c: bech32_verify_checksum"]}
{"id": "C77", "title": "A configuration-change callback may use the configuration API", "statement": "While a configuration update notifies the registered callback, the callback may itself call any configuration function and the update still completes.", "quantifier": "all callbacks and all configurations", "why_tests_cant": "a self-deadlock depends on the lock held at the call and never returns an error to test", "anchors": ["src/config.c: nostr_config_update, nostr_config_set_callback"]}
{"id": "C78", "title": "Event ids follow NIP-01", "statement": "The id computed for an event is the SHA-256 of the NIP-01 text [0,pubkey,created_at,kind,tags,content] with exactly the NIP-01 escapes, and it is the same whichever JSON back end the library was built with.", "quantifier": "all events, both builds", "why_tests_cant": "byte-exact agreement must hold for every string content; one differing byte gives an unrelated id", "anchors": ["src/event.c: serialize_for_id, escape_json_string, nostr_event_compute_id"]}
{"id": "C79", "title": "A failed JSON parse leaves no dangling event pointer", "statement": "If parsing an event from JSON reports an error, the caller's event pointer does not refer to freed memory.", "quantifier": "all input texts", "why_tests_cant": "depends on which of many error paths is taken", "anchors": ["src/event.c: nostr_event_from_json"]}
{"id": "C80", "title": "Computing an event id stays within its buffer", "statement": "Computing the id of any event, whatever the number and sizes of its tags, never writes outside the buffer sized beforehand.", "quantifier": "all events", "why_tests_cant": "the size estimate is wrong only for particular tag shapes and counts", "anchors": ["src/event.c: serialize_for_id"]}
{"id": "C81", "title": "Accepted proof of work was done on this event", "statement": "If proof-of-work verification accepts an event for a difficulty, then its id has that many leading zero bits (and as many as its nonce tag commits to) and the id is the hash of the event.", "quantifier": "all events, difficulties and hash functions", "why_tests_cant": "all ids and tag lists", "anchors": ["src/nip13.c: nostr_nip13_verify_pow"]}
{"id": "C82", "title": "Mining is memory safe for every event", "statement": "Mining an event, whatever tags it already carries, never writes outside the event's tag arrays.", "quantifier": "all events", "why_tests_cant": "only particular malformed tags trigger it", "anchors": ["src/nip13.c: nostr_nip13_mine_event, nostr_nip13_add_nonce_tag"]}
{"id": "C83", "title": "NIP-44 padding follows the specification", "statement": "The padded length of every plaintext is the one NIP-44 prescribes, so that messages of conforming peers are accepted.", "quantifier": "all plaintext lengths 1..65535", "why_tests_cant": "the two length formulas agree on many lengths and differ on others", "anchors": ["src/nip44.c: calc_padded_len, pad_plaintext, unpad_plaintext"]}
{"id": "C84", "title": "Field validators accept exactly their syntax", "statement": "The hex validators accept exactly 64 (or 1 to 64) lower-case hex digits, the subscription-id validator exactly 1 to 64 printable characters, the address validator exactly <digits>:<64 hex digits>:<identifier>.", "quantifier": "all strings", "why_tests_cant": "unbounded strings, every position", "anchors": ["src/relay_protocol.c: nostr_validate_hex64, nostr_validate_hex_prefix, nostr_validate_subscription_id, nostr_validate_address"]}
{"id": "C85", "title": "Binary tag extraction is exact", "statement": "Extracting the binary e or p tag values of an event returns exactly the 32-byte values of the tags that hold valid hex, in tag order, and never writes beyond the array it allocated.", "quantifier": "all events", "why_tests_cant": "the array is sized by one pass and filled by another", "anchors": ["src/relay_protocol.c: nostr_event_get_e_tags_binary, nostr_event_get_p_tags_binary"]}
{"id": "C86", "title": "Tag iteration visits every tag once", "statement": "Iterating over an event's tags returns every tag exactly once, in order, and then NULL for ever.", "quantifier": "all events, any number of calls", "why_tests_cant": "any number of calls", "anchors": ["src/relay_protocol.c: nostr_tag_iterator_init, nostr_tag_iterator_next"]}
{"id": "C87", "title": "Canonical serialisation is the id preimage and honours the buffer", "statement": "Serialising an event canonically yields exactly the text whose SHA-256 is the event id; for any buffer size the call either writes the whole text or fails reporting the needed length, and a retry with one byte more than that succeeds.", "quantifier": "all events, all buffer sizes", "why_tests_cant": "all sizes and contents", "anchors": ["src/relay_protocol.c: nostr_event_serialize_canonical"]}
{"id": "C88", "title": "Filter validation is exact", "statement": "A filter is accepted by validation iff its id and author prefixes are 1 to 64 lower-case hex digits, its #e and #p values are 64 and its search text is at most 65536 bytes long.", "quantifier": "all filters", "why_tests_cant": "any number of values in any position", "anchors": ["src/relay_filter.c: nostr_filter_validate"]}
{"id": "C89", "title": "Filter parsing never leaks and never corrupts memory", "statement": "Parsing a filter document, whatever the document and wherever allocation fails, either succeeds with the filter the document describes in newly allocated blocks only, or reports an error with the filter zeroed and no block leaked; freeing a parsed filter releases exactly what parsing allocated.", "quantifier": "all documents, all allocation-failure points", "why_tests_cant": "every allocation may fail independently", "anchors": ["src/relay_filter.c: nostr_filter_parse, nostr_filter_free"]}
{"id": "C90", "title": "Events are routed to the subscription they belong to", "statement": "After any history of subscribe, unsubscribe and received messages, an EVENT message leads to one callback: that of the latest active subscription with the id in the message, with the event in the message; without an active subscription of that id there is none. No other message leads to an event callback.", "quantifier": "all histories, all message texts", "why_tests_cant": "unbounded histories with repeated ids and CLOSED messages in any order", "anchors": ["src/relay.c: callback_nostr_relay, nostr_subscribe, nostr_relay_unsubscribe"]}
{"id": "C91", "title": "Only verified events reach the application", "statement": "Every event handed to a subscription callback has an id that matches its content and a valid signature.", "quantifier": "all messages a relay can send", "why_tests_cant": "an untrusted relay can send anything", "anchors": ["src/relay.c: callback_nostr_relay"]}
{"id": "C92", "title": "Accepted requests are sent as well-formed messages", "statement": "Whenever subscribe or publish accepts its arguments, the text handed to the websocket is one JSON array that a receiver reads back as the same id and filter, or the same event.", "quantifier": "all filters and events", "why_tests_cant": "all texts", "anchors": ["src/relay.c: nostr_subscribe, nostr_relay_send_event"]}
{"id": "C93", "title": "Subscriptions can be changed while messages arrive", "statement": "Subscribing and unsubscribing from the application thread while the service thread dispatches messages never leads to an access to freed memory.", "quantifier": "all interleavings of the two threads", "why_tests_cant": "interleavings", "anchors": ["src/relay.c: nostr_subscribe, nostr_relay_unsubscribe, callback_nostr_relay"]}
{"id": "C94", "title": "Unknown session ids are refused", "statement": "A call with an id that no live session has is refused without changing anything and without reading beyond the text it was given.", "quantifier": "all texts, all tables", "why_tests_cant": "all lengths of the text", "anchors": ["src/nip47_session.c: find_session"]}
{"id": "C95", "title": "The connection returned for a session stays valid", "statement": "The connection returned by get_connection can be used until the caller destroys the session.", "quantifier": "all histories of calls", "why_tests_cant": "histories", "anchors": ["src/nip47_session.c: nostr_nip47_session_get_connection, cleanup_expired_sessions"]}
{"id": "C96", "title": "An expired session is never usable again", "statement": "After the expiry time no call on the session succeeds.", "quantifier": "all histories of calls and clocks", "why_tests_cant": "histories", "anchors": ["src/nip47_session.c: nostr_nip47_session_extend, nostr_nip47_session_check_permission"]}
{"id": "C97", "title": "Session calls never deadlock", "statement": "In every interleaving, whenever calls on sessions are under way, at least one of them can go on, and whoever holds a lock is a call that is under way.", "quantifier": "all interleavings, any number of threads", "why_tests_cant": "interleavings", "anchors": ["src/nip47_session.c: sessions_lock, nostr_nip47_session_check_permission"]}
{"id": "C98", "title": "Wallet requests carry the method and parameters that were given", "statement": "A request event that is built successfully is of kind 23194, names the wallet, verifies, and decrypts with the wallet's key to a JSON object that has exactly the given method and the given parameters.", "quantifier": "all methods, all JSON parameters, all keys", "why_tests_cant": "texts with quotes and control characters, lengths around the buffer size", "anchors": ["src/nip47.c: nostr_nip47_create_request_event, nip47_json_escape"]}
{"id": "C99", "title": "Parameters of wallet commands are exactly the ones given", "statement": "The JSON text produced by each parameter builder parses to an object with exactly the given members and values, in particular the given amounts.", "quantifier": "all texts, all amounts, any number of records or payments", "why_tests_cant": "all texts and numbers", "anchors": ["src/nip47.c: nostr_nip47_create_pay_invoice_params, nostr_nip47_create_make_invoice_params", "src/nip47_commands.c: nostr_nip47_create_list_transactions_params, nostr_nip47_create_lookup_invoice_params, nostr_nip47_create_pay_keysend_params, nostr_nip47_create_multi_pay_invoice_params"]}
{"id": "C100", "title": "Parameter builders are memory safe and correct in builds without cJSON", "statement": "In builds without cJSON the parameter builders write only within their buffers, and the text parses to the given members and values.", "quantifier": "all texts, all amounts, any number of records or payments", "why_tests_cant": "lengths around the buffer size, texts with quotes", "anchors": ["src/nip47.c: nostr_nip47_create_pay_invoice_params, nostr_nip47_create_make_invoice_params", "src/nip47_commands.c: nostr_nip47_create_list_transactions_params, nostr_nip47_create_lookup_invoice_params, nostr_nip47_create_pay_keysend_params, nostr_nip47_create_multi_pay_invoice_params"]}
{"id": "C101", "title": "Wallet notifications are read completely", "statement": "A notification encrypted by the wallet for the client is decrypted and yields the type and the body that the wallet sent.", "quantifier": "all notification types and bodies, all keys", "why_tests_cant": "all JSON bodies", "anchors": ["src/nip47.c: nostr_nip47_parse_notification_event"]}
{"id": "C102", "title": "Wallet info events are read completely", "statement": "The capabilities, notification types and encryption schemes read from an info event are exactly the words of its content and tags.", "quantifier": "all events", "why_tests_cant": "all texts and tag lists", "anchors": ["src/nip47.c: nostr_nip47_parse_info_event"]}
{"id": "C103", "title": "Results of wallet commands are read exactly", "statement": "The balance, fees, preimage and method list that the client reads are the ones in the JSON text; every entry handed out has been written.", "quantifier": "all JSON texts", "why_tests_cant": "all JSON texts", "anchors": ["src/nip47_commands.c: nostr_nip47_parse_balance_response, nostr_nip47_parse_pay_invoice_response, nostr_nip47_parse_info_response"]}
{"id": "C104", "title": "Reading any event as a list is safe", "statement": "Reading an arbitrary event as a list, with or without a key pair, stays within memory bounds; what is returned is a list of at most 4096 items, private ones only with the key pair, and their fields are within the documented sizes.", "quantifier": "all events, all decrypted contents", "why_tests_cant": "hostile contents, escapes at buffer boundaries", "anchors": ["src/nip51.c: nostr_list_from_event, parse_private_content, encode_utf8"]}
{"id": "C105", "title": "A failed change of list metadata changes nothing", "statement": "Setting the title, description, image or identifier of a list either succeeds and the new text is stored, or fails and the old text is still there.", "quantifier": "all lists and texts, allocation failing at any point", "why_tests_cant": "memory failures", "anchors": ["src/nip51.c: set_string_field, nostr_list_set_title, nostr_list_set_description, nostr_list_set_image, nostr_list_set_d_tag"]}
{"id": "C106", "title": "Texts are BIP-173 texts", "statement": "The bech32 texts that the library writes for keys, ids and NIP-19 records are the ones BIP-173 defines, so other implementations read them; BIP-173 texts of keys written by other implementations are accepted.", "quantifier": "all keys, ids and records", "why_tests_cant": "the checksum must agree with the standard on all 2^256 values, not only with itself", "anchors": ["src/bech32.c: nostr_key_to_bech32, nostr_key_from_bech32", "src/nip21.c: nostr_nprofile_encode, nostr_nevent_encode, nostr_naddr_encode, nostr_nrelay_encode"]}
{"id": "C107", "title": "Quote tags follow the content", "statement": "Adding quote tags from the content appends one q tag per well-formed nostr:note, nostr:nevent or nostr:naddr URI of the content, in order of appearance, naming what the URI names; malformed URIs are skipped, and memory is never overrun.", "quantifier": "all contents", "why_tests_cant": "all positions and shapes of URIs", "anchors": ["src/nip18.c: nostr_quote_tags_from_content, find_nostr_uri"]}
{"id": "C108", "title": "Relays of a NIP-05 document", "statement": "The relays reported for a verified key are exactly the WebSocket addresses the document's relays object lists for that key, in order; whatever the document is, at most 100 are reported and each is a WebSocket address taken from the document.", "quantifier": "all documents", "why_tests_cant": "adversarial documents", "anchors": ["src/nip05.c: nostr_nip05_parse_response"]}
{"id": "C109", "title": "A sent direct message reaches its recipient intact", "statement": "When sending a direct message succeeds, the result is a gift wrap that verifies under the one-time key and names only the recipient, and the recipient's unwrap call returns exactly the message - author, text, subject, reply reference and time - and reports the sender.", "quantifier": "all texts, subjects, reply ids, keys, random values and clock values", "why_tests_cant": "three nested serialisation and encryption layers with size limits on each; the limits interact for long texts", "anchors": ["src/nip17.c: nostr_nip17_send_dm, nostr_nip17_unwrap_dm"]}
{"id": "C110", "title": "Encrypted keys are NIP-49 texts", "statement": "The text produced for an encrypted private key is the one NIP-49 defines: bech32 under ncryptsec of version, cost, salt, nonce, security byte, ciphertext and tag, sealed with XChaCha20-Poly1305 under the scrypt key, so other implementations with the same password read it.", "quantifier": "all keys, passwords, salts, nonces and costs", "why_tests_cant": "the library carries its own HChaCha20; agreement with the standard must hold for all keys and nonces", "anchors": ["src/nip49.c: nostr_ncryptsec_encrypt, hchacha20, xchacha20_poly1305_encrypt, derive_key_scrypt"]}
{"id": "C111", "title": "A failed decryption leaves no key material", "statement": "When decrypting an encrypted private key fails, the caller's key buffer is unchanged or all zero, never partly deciphered bytes.", "quantifier": "all texts and passwords, all buffer contents", "why_tests_cant": "every failure point", "anchors": ["src/nip49.c: nostr_ncryptsec_decrypt"]}
{"id": "C112", "title": "Mnemonic key pairs follow NIP-06", "statement": "The key pair made from a mnemonic, passphrase and account number is the one at m/44'/1237'/account'/0/0 below the BIP-32 master key of the BIP-39 seed; account numbers that cannot be hardened are refused rather than mapped to another account.", "quantifier": "all phrases, passphrases and account numbers", "why_tests_cant": "2^32 accounts; the path is built and re-read as text", "anchors": ["src/hd_key.c: nostr_mnemonic_to_keypair, nostr_hd_key_derive_path, nostr_hd_key_from_seed"]}
{"id": "C113", "title": "LNURL validation accepts exactly LNURLs", "statement": "A text is accepted by LNURL validation exactly when it is the bech32 text of some address under the prefix lnurl (checksum included), whatever the length of the address.", "quantifier": "all texts, all addresses", "why_tests_cant": "all texts; long addresses", "anchors": ["src/zap.c: nostr_zap_validate_lnurl, decode_bech32"]}
{"id": "C114", "title": "Zap requests carry what was asked", "statement": "A zap request made by the library is of kind 9734 and carries the content, every relay given, the amount in decimal, the LNURL and the recipient, each in its tag.", "quantifier": "all amounts, recipients, contents and relay lists", "why_tests_cant": "any number of relays", "anchors": ["src/zap.c: nostr_zap_create_request"]}
{"id": "C115", "title": "Relay information documents say what was set", "statement": "The JSON text of a relay information document has exactly the members that are set, each with the value that was set: texts, the list of NIPs, positive limits, flags, retention rules and fees, in order.", "quantifier": "all documents", "why_tests_cant": "all combinations of optional members, all texts", "anchors": ["src/relay_nip11.c: nostr_relay_info_serialize, nostr_relay_limitation_serialize"]}
{"id": "C116", "title": "Events are read from JSON as NIP-01 describes", "statement": "The JSON object of an event, with its members in any order and among other members, is read as exactly the event it describes; a text is refused if id, public key or signature are not hex texts of 64, 64 and 128 digits, the kind is not an integer from 0 to 65535, or the tags are not arrays of strings.", "quantifier": "all JSON texts, all member orders, all configured limits", "why_tests_cant": "all texts; unordered and unknown members", "anchors": ["src/event.c: nostr_event_from_json, hex_to_bytes"]}
{"id": "C117", "title": "Pointers are read exactly from their texts", "statement": "A text is read as a profile, event, address or relay pointer exactly when it is the bech32 text, under the right prefix, of records that contain the required fields; unknown records are skipped, and of repeated single-value records the last one counts.", "quantifier": "all texts, all record sequences", "why_tests_cant": "all record orders, unknown types and truncations", "anchors": ["src/nip21.c: nostr_nprofile_decode, nostr_nevent_decode, nostr_naddr_decode, nostr_nrelay_decode"]}
{"id": "C118", "title": "Private items of other programs are read", "statement": "If an event's content is the encryption of a JSON array of arrays of strings, in whatever layout and with whatever escapes, reading the event as a list gives one private item for each inner array that has a type and a value, with the strings that the JSON text denotes.", "quantifier": "all JSON texts of arrays of arrays of strings, all lists", "why_tests_cant": "all layouts and escapes, surrogate pairs, any number of items", "anchors": ["src/nip51.c: parse_private_content, encode_utf8, parse_hex4, nostr_list_from_event"]}
{"id": "C119", "title": "Setting the nonce disturbs nothing else", "statement": "Setting the nonce of an event that has a nonce tag replaces the nonce and the target in that tag and leaves all other tags and the memory of the caller as they are, wherever the event's memory moves to; when memory runs out the tags are as before.", "quantifier": "all histories of an event, all allocator behaviours, all nonces and targets", "why_tests_cant": "three places where the memory may move or run out, with pointers held across them", "anchors": ["src/nip13.c: nostr_nip13_add_nonce_tag, arena_ensure_capacity, arena_strdup"]}
{"id": "C120", "title": "A keypair's two keys belong together", "statement": "Whenever a keypair hands out keys, the private key is valid and the public key belongs to it, whatever sequence of generate, import, export, initialise and destroy calls was made, failing ones included; destroying wipes both keys; exporting the private key and importing the text gives the same two keys.", "quantifier": "all sequences of keypair calls, all key texts, both crypto backends", "why_tests_cant": "all call histories including failing calls in the middle", "anchors": ["src/key.c: nostr_keypair_generate, nostr_keypair_from_private_key, nostr_keypair_from_private_hex, nostr_keypair_export_private_hex, nostr_keypair_destroy"]}
{"id": "C121", "title": "The keypair check decides", "statement": "The keypair check succeeds exactly for an initialised keypair whose private key is valid and whose public key belongs to it.", "quantifier": "all keypairs", "why_tests_cant": "all contents of the structure", "anchors": ["src/key.c: nostr_keypair_validate"]}
{"id": "C122", "title": "Generated keys are the generator's bytes", "statement": "Key generation returns the first valid private key among the byte strings delivered by the random generator, with its public key, or an error; it never returns a fixed or partly filled key when the generator fails.", "quantifier": "all behaviours of the random generator, both backends", "why_tests_cant": "all failure points of the generator and all invalid draws", "anchors": ["src/key.c: nostr_key_generate"]}
{"id": "C123", "title": "Random buffers are filled completely", "statement": "A request for random bytes of any length returns that many bytes of the system generator, in order, split in requests of the size the system allows, or reports an error if one of them fails.", "quantifier": "all lengths, all answers of the system generator", "why_tests_cant": "all lengths, every failing request", "anchors": ["src/utils.c: nostr_random_bytes"]}
{"id": "C124", "title": "Two parties agree on a secret", "statement": "Two parties that know each other's public key compute the same shared secret, in every build.", "quantifier": "all pairs of private keys, both backends", "why_tests_cant": "all pairs of keys, in particular the parities of their points", "anchors": ["src/key.c: nostr_key_ecdh"]}
{"id": "C125", "title": "Initialisation from several threads", "statement": "Calls may be made from any number of threads, with or without an explicit initialisation, failing or not: the crypto context is set up once, never used before it is set up or after it is released, and no thread waits forever.", "quantifier": "all interleavings of any number of threads, all failures of the initialisation", "why_tests_cant": "schedules", "anchors": ["src/key.c: nostr_init, nostr_cleanup, nostr_key_generate, nostr_event_sign", "src/event.c: nostr_event_sign"]}
{"id": "C126", "title": "Legacy messages round-trip", "statement": "What one party encrypts with the legacy scheme, the other decrypts to the same text.", "quantifier": "all texts, keys and random vectors", "why_tests_cant": "all lengths relative to the cipher's blocks", "anchors": ["src/nip44.c: nostr_nip04_encrypt, nostr_nip04_decrypt"]}
{"id": "C127", "title": "Legacy messages cannot be altered", "statement": "A legacy message that was changed on the way is refused.", "quantifier": "all messages and all changes", "why_tests_cant": "all changes", "anchors": ["src/nip44.c: nostr_nip04_decrypt"]}
{"id": "C128", "title": "Malformed legacy messages are refused safely", "statement": "Decrypting any received text with the legacy scheme returns a text or an error, without memory errors.", "quantifier": "all received texts", "why_tests_cant": "all texts", "anchors": ["src/nip44.c: nostr_nip04_decrypt, base64_decode"]}
{"id": "C129", "title": "The feature report is truthful", "statement": "In every build configuration, a NIP is reported as supported, and appears in the list of features, exactly if its option is switched on; the list is never cut.", "quantifier": "all build configurations, all NIP numbers", "why_tests_cant": "2^22 build configurations", "anchors": ["src/features.c: nostr_feature_nip_supported, nostr_feature_list_enabled", "include/nostr_features.h.in"]}
{"id": "C132", "title": "Reading a wallet connection loses no memory", "statement": "Reading a connection text, wherever memory runs out, never uses or releases memory it does not own; a call that fails leaves nothing allocated; a connection that was read holds exactly the values of the text, and releasing it gives all its memory back.", "quantifier": "all connection texts, all allocators and all places where memory runs out", "why_tests_cant": "failures at every allocation combined with all texts", "anchors": ["src/nip47.c: nostr_nip47_parse_connection_uri, free_connection, nostr_nip47_free_connection"]}
{"id": "C133", "title": "A failed reading of a wallet information event can be cleaned up", "statement": "Reading an information event hands out three arrays that the caller can release; after a failure the caller can tell from the results what is left to release.", "quantifier": "all events, all allocators and all places where memory runs out", "why_tests_cant": "failures at every allocation", "anchors": ["src/nip47.c: nostr_nip47_parse_info_event"]}
{"id": "C134", "title": "A gift wrap carries its recipient, the given tags and the seal", "statement": "A gift wrap made from a seal has kind 1059, verifies under the one-time key, has exactly the recipient tag and the given key-value tags in order, and decrypts for the recipient to the text of the seal.", "quantifier": "all seals, keys, random values and lists of tags", "why_tests_cant": "all tag lists", "anchors": ["src/nip59.c: nostr_nip59_create_gift_wrap"]}
{"id": "C130", "title": "A relay is reached where its address says", "statement": "Connecting to a relay goes to the host, port and path its address names, with transport security exactly for wss; addresses of other schemes are refused, and running out of memory is reported.", "quantifier": "all relay addresses", "why_tests_cant": "all hosts, ports and paths", "anchors": ["src/relay.c: nostr_relay_connect"]}
{"id": "C131", "title": "A failed subscribe or unsubscribe changes nothing", "statement": "When subscribing or unsubscribing reports an error, nothing was sent and the subscriptions are as before; when it succeeds, the request was sent and the change is in effect. No later message from the relay can then misbehave.", "quantifier": "all sequences of subscriptions, all points at which memory or the network fails, all later messages", "why_tests_cant": "failures at every allocation and write, combined with later messages", "anchors": ["src/relay.c: nostr_subscribe, nostr_relay_unsubscribe, callback_nostr"]}
{"id": "C135", "title": "Reading a deletion request loses no memory", "statement": "Reading a deletion request, wherever memory runs out, never uses or releases memory it does not own; a call that fails leaves nothing allocated and an empty request; a request that was read holds exactly the values of the event, releasing it gives all its memory back, and releasing it again is harmless.", "quantifier": "all events, all allocators and all places where memory runs out", "why_tests_cant": "failures at every allocation combined with all events", "anchors": ["src/relay_protocol.c: nostr_deletion_parse, nostr_deletion_free"]}
{"id": "C136", "title": "An event's memory through its life", "statement": "From creation to destruction, through any sequence of setting the content and adding tags, wherever memory runs out, an event never uses or releases memory it does not own; destroying it gives back exactly its memory. A call that fails leaves the event as it was, and the content may be set to any text, also to the event's own.", "quantifier": "all sequences of calls, all allocators and all places where memory runs out", "why_tests_cant": "all histories with failures at every allocation", "anchors": ["src/event.c: nostr_event_create, nostr_event_set_content, nostr_event_add_tag, nostr_event_destroy, tag_arena_create, tag_arena_destroy"]}
{"id": "C137", "title": "Reading an event from JSON loses no memory", "statement": "Reading an event from any text, wherever memory runs out, never uses or releases memory it does not own; a call that fails leaves nothing allocated; an event that was read is the one the text describes, and destroying it gives all its memory back.", "quantifier": "all texts, configurations, allocators and all places where memory runs out", "why_tests_cant": "failures at every allocation combined with all texts", "anchors": ["src/event.c: nostr_event_from_json, nostr_event_destroy"]}
{"id": "C138", "title": "Decoding a pointer or URI loses no memory", "statement": "Decoding any text as a profile, event or address pointer or as a nostr URI, wherever memory runs out, never uses or releases memory it does not own; a call that fails leaves nothing allocated and no relays; a pointer that was decoded holds exactly the relays of the text, releasing it gives all its memory back, and releasing it again is harmless.", "quantifier": "all texts, all allocators and all places where memory runs out", "why_tests_cant": "failures at every allocation combined with all texts", "anchors": ["src/nip21.c: nostr_nprofile_decode, nostr_nevent_decode, nostr_naddr_decode, nostr_nrelay_decode, nostr_uri_parse, nostr_uri_free, parse_tlv, free_relay_array"]}
{"id": "C139", "title": "Encoding a pointer without memory is reported", "statement": "Encoding a pointer gives its text or an error, wherever memory runs out, and leaves nothing allocated.", "quantifier": "all pointers, all allocators and all places where memory runs out", "why_tests_cant": "failures at every allocation", "anchors": ["src/nip21.c: encode_bytes_to_bech32", "src/bech32.c: bech32_create_checksum"]}
{"id": "C140", "title": "Reading a client message loses no memory", "statement": "Reading a client message from any text, wherever memory runs out, never uses or releases memory it does not own; a call that fails leaves nothing allocated and a message that can be released safely; a message that was read is the one the text describes, releasing it gives all its memory back, and releasing it again is harmless.", "quantifier": "all texts, configurations, allocators and all places where memory runs out", "why_tests_cant": "failures at every allocation combined with all texts, nested in events and filters", "anchors": ["src/relay_message.c: nostr_client_msg_parse, parse_filters, nostr_client_msg_free", "src/relay_filter.c: nostr_filter_parse, nostr_filter_free"]}
{"id": "C141", "title": "Looking up an identifier loses no memory", "statement": "Reading a NIP-05 response, or verifying an identifier with any callback, wherever memory runs out, never uses or releases memory it does not own; the callback's response is released exactly once; a call that fails leaves nothing allocated and hands out no relays; after a call that succeeds the relays are those the response names and releasing them gives all memory back.", "quantifier": "all identifiers, expected keys, callbacks, responses, allocators and all places where memory runs out", "why_tests_cant": "failures at every allocation combined with all responses", "anchors": ["src/nip05.c: nostr_nip05_parse_response, nostr_nip05_verify, nostr_nip05_free_relays"]}
{"id": "C142", "title": "Verifying an identifier reads only what the callback delivered", "statement": "Verification reads at most the number of bytes the callback reports for its response, whatever those bytes are.", "quantifier": "all identifiers and all responses a callback can deliver", "why_tests_cant": "every byte string, of every length, must be safe", "anchors": ["src/nip05.c: nostr_nip05_verify", "include/nostr.h: nostr_nip05_http_callback"]}
{"id": "C143", "title": "Parallel mining always comes back", "statement": "With a positive iteration limit a parallel mining call makes a bounded number of steps under every schedule, and with or without a limit its threads never wait for each other for ever; when it returns, no worker runs any more and the lock it destroys is free.", "quantifier": "all events, targets, numbers of workers, limits, schedules, clocks, hash values and places where memory runs out", "why_tests_cant": "no test runs all schedules, and a deadlock or an endless run shows only in some", "anchors": ["src/nip13.c: nostr_nip13_mine_event_threaded, mining_thread"]}
{"id": "C144", "title": "Parallel mining reports \"not found\" only after every worker has used its iterations", "statement": "When a parallel mining call reports that the target was not reached, every worker has tried as many nonces as the limit allows, on the caller's event, each with a freshly computed id that misses the target.", "quantifier": "all events, targets, numbers of workers, limits, schedules and places where memory runs out", "why_tests_cant": "the claim is about what was tried in every run", "anchors": ["src/nip13.c: nostr_nip13_mine_event_threaded, mining_thread"]}
{"id": "C145", "title": "Parallel mining has no data race", "statement": "Under no schedule do two workers of a parallel mining call use the same memory at the same time without the lock, one of them writing.", "quantifier": "all events, targets, numbers of workers and schedules", "why_tests_cant": "races show only in some schedules, and often not even there", "anchors": ["src/nip13.c: mining_thread"]}
{"id": "C146", "title": "Parallel mining tries no nonce twice", "statement": "In a parallel mining call no two attempts, of the same worker or of different ones, use the same nonce.", "quantifier": "all numbers of workers, limits and schedules", "why_tests_cant": "the nonces tried depend on the number of workers and the schedule", "anchors": ["src/nip13.c: nostr_nip13_mine_event_threaded, mining_thread"]}
{"id": "C147", "title": "A call that builds an event delivers it or leaves nothing behind", "statement": "Every call that builds an event (a repost, a reaction, the event of a relay list or of a list, a zap request, a request to a wallet, a response of a remote signer) either delivers exactly the event described by its arguments, whose destruction releases all the memory the call took, or fails with all of that memory released; no block is used after its release or released twice.", "quantifier": "all arguments, configurations and places where memory runs out", "why_tests_cant": "the failures depend on which of the many allocations fails, and leaks have no visible effect", "anchors": ["src/nip18.c: nostr_repost_create", "src/nip25.c: nostr_reaction_create", "src/nip65.c: nostr_relay_list_to_event", "src/nip51.c: nostr_list_to_event", "src/zap.c: nostr_zap_create_request", "src/nip47.c: nostr_nip47_create_request_event", "src/nip46.c: nostr_nip46_create_response"]}
{"id": "C148", "title": "A failed call that builds an event leaves no dangling pointer", "statement": "When a call that builds an event fails, the pointer it was given to store the event is NULL or as it was; it does not point to memory that has been released.", "quantifier": "all arguments, configurations and places where memory runs out", "why_tests_cant": "a dangling pointer does harm only when the caller later uses or destroys the event", "anchors": ["src/event.c: nostr_event_create", "src/nip18.c: nostr_repost_create", "src/nip25.c: nostr_reaction_create", "src/nip65.c: nostr_relay_list_to_event", "src/nip51.c: nostr_list_to_event", "src/zap.c: nostr_zap_create_request", "src/nip47.c: nostr_nip47_create_request_event", "src/nip46.c: nostr_nip46_create_response"]}
{"id": "C149", "title": "A remote signer's response names its recipient", "statement": "When a response of a remote signer is reported as created, the event carries exactly one tag, naming the client the response is for.", "quantifier": "all responses, keys, configurations and places where memory runs out", "why_tests_cant": "the tag is missing only when one particular allocation fails or under unusual limits", "anchors": ["src/nip46.c: nostr_nip46_create_response"]}
{"id": "C150", "title": "Sending a message leaves nothing behind but the gift wrap", "statement": "Creating a direct message, a seal or a gift wrap, sending a direct message and wrapping an event each deliver exactly the event described by the arguments or fail; the message inside, the seal and every text in between are released in either case, each exactly once, and destroying the delivered event releases the rest.", "quantifier": "all arguments, configurations, random draws and places where memory runs out", "why_tests_cant": "the calls make about thirty allocations between them, in three nested layers, and a leak of the plain message has no visible effect", "anchors": ["src/nip17.c: nostr_nip17_create_rumor, nostr_nip17_create_seal, nostr_nip17_create_gift_wrap, nostr_nip17_send_dm", "src/nip59.c: nostr_nip59_create_rumor, nostr_nip59_create_seal, nostr_nip59_create_gift_wrap, nostr_nip59_wrap_event"]}
{"id": "C151", "title": "Opening a gift wrap leaves nothing behind but the message", "statement": "Opening a gift wrap, whoever made it, delivers exactly the event inside or fails; the seal and the decrypted texts are released in either case, each exactly once, and destroying the delivered event releases the rest.", "quantifier": "all gift wraps, also hostile ones, keys, configurations and places where memory runs out", "why_tests_cant": "a hostile sender chooses at which layer opening fails, and leaks have no visible effect until memory is exhausted", "anchors": ["src/nip17.c: nostr_nip17_unwrap_dm", "src/nip59.c: nostr_nip59_unwrap_event"]}
{"id": "C152", "title": "A relay list keeps exactly the memory of its entries", "statement": "Whatever relays a program adds to a relay list, with addresses of its own or with addresses taken from the list itself, and wherever memory runs out, no call uses memory that has been released; each call adds the entry or leaves the list as it was; reading a list from an event hands out a list or nothing; and freeing the list releases all the memory that was taken.", "quantifier": "all sequences of calls, all events, and all places where memory runs out", "why_tests_cant": "the faults depend on which allocation fails and on arguments that lie inside the list", "anchors": ["src/nip65.c: nostr_relay_list_create, nostr_relay_list_add, nostr_relay_list_get, nostr_relay_list_from_event, nostr_relay_list_free"]}
{"id": "C153", "title": "A list keeps exactly the memory of its texts and items", "statement": "Whatever sequence of calls sets the texts of a list, adds items and removes items, with texts of the caller or with texts that belong to the list, and wherever memory runs out, no call uses memory that has been released; each call has the effect and the result that its arguments demand; and freeing the list releases all the memory that was taken.", "quantifier": "all sequences of calls, arguments and places where memory runs out", "why_tests_cant": "the faults depend on the history of the list, on which allocation fails and on arguments that lie inside the list", "anchors": ["src/nip51.c: nostr_list_create, nostr_list_set_d_tag, nostr_list_set_title, nostr_list_set_description, nostr_list_set_image, nostr_list_add_pubkey, nostr_list_add_event, nostr_list_add_hashtag, nostr_list_add_word, nostr_list_add_relay, nostr_list_add_reference, nostr_list_remove_item, nostr_list_free"]}
{"id": "C154", "title": "Reading a list from an event leaves nothing behind but the list", "statement": "Reading a list from an event, whoever made it, hands out a list that holds exactly what the event says and whose freeing releases all the memory that was taken, or it fails with all of that memory released; no block is used after its release or released twice.", "quantifier": "all events, also hostile ones, keys, decrypted contents and places where memory runs out", "why_tests_cant": "a hostile author chooses at which item reading fails, and leaks have no visible effect", "anchors": ["src/nip51.c: nostr_list_from_event, nostr_list_free"]}
{"id": "C155", "title": "The read and write relays of a list are handed out as copies", "statement": "Asking a relay list for its read relays or its write relays hands out copies of exactly the addresses that carry the flag, in the order of the list, with their number, and leaves the list as it is; releasing the copies releases all the memory the call took; a call that fails leaves nothing behind.", "quantifier": "all relay lists, both flags, and all places where memory runs out", "why_tests_cant": "the failing paths depend on which copy finds no memory, and leaks have no visible effect", "anchors": ["src/nip65.c: nostr_relay_list_get_read_relays, nostr_relay_list_get_write_relays, nostr_free_strings"]}
{"id": "C156", "title": "A delegation keeps exactly the memory of its conditions", "statement": "Creating a delegation and reading the delegation of an event hand out exactly the delegation described, whose freeing releases all the memory that was taken and may be repeated, or fail with nothing kept; verifying the delegation of an event leaves nothing behind; no block is used after its release or released twice; and a failure names its reason.", "quantifier": "all conditions, keys, events, also hostile ones, and all places where memory runs out", "why_tests_cant": "the conditions are chosen by whoever made the event, and the failing paths depend on which allocation fails", "anchors": ["src/nip26.c: nostr_delegation_create, nostr_event_get_delegation, nostr_delegation_verify, nostr_event_verify_delegation, nostr_delegation_free"]}
{"id": "C157", "title": "A remote signer's request keeps exactly the memory of its parameters", "statement": "Reading a request of a client hands out exactly the request in the event, whose freeing releases all the memory that was taken and may be repeated, or fails with nothing kept; the decrypted text is released in either case; freeing a response releases its result and its error exactly once.", "quantifier": "all events, also hostile ones, keys and places where memory runs out", "why_tests_cant": "a hostile client chooses at which step reading fails, and lost parameters look like a request without parameters", "anchors": ["src/nip46.c: nostr_nip46_parse_request, nostr_nip46_request_free, nostr_nip46_response_free"]}
{"id": "C158", "title": "Freeing a relay information document releases all of it", "statement": "Whatever sequence of calls sets and extends the list of supported NIPs of a document, wherever memory runs out and whatever arrays are attached to the document, no call uses memory that has been released, the document holds the list that the calls demand, and freeing it releases every block taken or attached exactly once and leaves a document that may be freed again.", "quantifier": "all sequences of calls, attached arrays and places where memory runs out", "why_tests_cant": "leaks have no visible effect, and the faults depend on the history of the document", "anchors": ["src/relay_nip11.c: nostr_relay_info_init, nostr_relay_info_set_nips, nostr_relay_info_add_nip, nostr_relay_info_free"]}
{"id": "C159", "title": "Signing leaves nothing secret behind", "statement": "When signing an event or a delegation returns, on success and on every failure, no local buffer of the call holds the secret key, the randomness of the signature or anything else that was not public or there before; the outcome is the one that signing prescribes.", "quantifier": "all keys, events, random draws, contents of the stack before the call, and all steps at which a library can fail, with both cryptographic backends", "why_tests_cant": "what stays behind on the stack has no effect that a test of the API can see, and the failing paths need a library that fails on demand", "anchors": ["src/event.c: nostr_event_sign", "src/nip26.c: nostr_delegation_create", "src/utils.c: secure_wipe"]}
{"id": "C160", "title": "Handling keys leaves nothing secret behind", "statement": "When generating, importing, checking or using a key for a shared secret returns, on success and on every failure, the local buffers hold nothing that was not public or there before, and a call that fails does not leave a private key in the caller's object; destroying a key pair leaves zeros in it.", "quantifier": "all keys, key texts, random draws, contents of memory before the call, and all steps at which a library can fail, with both cryptographic backends", "why_tests_cant": "what stays behind has no effect that a test of the API can see, and a failing random generator cannot be ordered", "anchors": ["src/key.c: nostr_key_generate, nostr_key_ecdh, nostr_keypair_from_private_key, nostr_keypair_from_private_hex, nostr_keypair_validate, nostr_keypair_destroy", "src/utils.c: secure_wipe"]}
{"id": "C161", "title": "Deriving keys leaves nothing secret behind", "statement": "When deriving a master key, a child key or the key at a path returns, on success and on every failure, no local buffer holds a private key, a chain code or anything else that was not public or there before, and a call that fails leaves nothing secret in the key it was to fill.", "quantifier": "all seeds, keys, indices, paths of any length, contents of memory before the call, and all steps at which a library can fail, with both cryptographic backends", "why_tests_cant": "what stays behind has no visible effect, and the failing steps have a probability of 2^-127 or need a library that fails on demand", "anchors": ["src/hd_key.c: nostr_hd_key_from_seed, nostr_hd_key_derive, nostr_hd_key_derive_path"]}
{"id": "C162", "title": "Handling mnemonics leaves nothing secret behind", "statement": "When generating or validating a mnemonic, or turning it into a seed or a key pair returns, on success and on every failure, no local buffer and no released block holds the words, the entropy, the seed, the passphrase or a key.", "quantifier": "all mnemonics, passphrases, accounts, random draws, contents of memory before the call, and all places where memory runs out, with both cryptographic backends and with and without normalisation", "why_tests_cant": "what stays behind has no visible effect, and the buffers of five nested functions take part", "anchors": ["src/hd_key.c: nostr_mnemonic_generate, nostr_mnemonic_validate, nostr_mnemonic_to_seed, nostr_mnemonic_to_keypair"]}
{"id": "C163", "title": "Encrypting and decrypting a private key with a password leaves nothing secret behind", "statement": "When encrypting a private key with a password, decrypting it or validating an encrypted key returns, on success and on every failure, each local buffer holds zeros, what it held before the call, or data that is part of the encrypted text. Neither the private key nor the key derived from the password stays behind.", "quantifier": "all keys, passwords, texts, random draws, contents of memory before the call, and all steps at which a library can fail", "why_tests_cant": "what stays behind has no visible effect, and most steps fail only with a library that fails on demand", "anchors": ["src/nip49.c: nostr_ncryptsec_encrypt, nostr_ncryptsec_decrypt, nostr_ncryptsec_validate, xchacha20_poly1305_encrypt, xchacha20_poly1305_decrypt, hchacha20"]}
{"id": "C164", "title": "Encrypting and decrypting messages leaves no key and no plaintext behind", "statement": "When one of the encryption and decryption functions for messages (NIP-44, NIP-04) returns, on success and on every failure, no local buffer holds a key, and no block released by the call holds the plaintext of the message.", "quantifier": "all keys, messages, ciphertexts, random draws, contents of memory before the call, and all steps at which a library or the allocator can fail", "why_tests_cant": "what stays behind has no visible effect, and most steps fail only with a library that fails on demand", "anchors": ["src/nip44.c: nostr_nip44_encrypt, nostr_nip44_decrypt", "src/nip04.c: nostr_nip04_encrypt, nostr_nip04_decrypt"]}
{"id": "C165", "title": "Private messages and gift wraps leave no key and no plaintext behind", "statement": "When sending or opening a private direct message, or making or opening a seal or a gift wrap returns, on success and on every failure, no local buffer holds the sender's private key or the one-time key of the wrap, and no block released by the call holds the message.", "quantifier": "all events, messages, keys, random draws, contents of memory before the call, and all steps at which a library or the allocator can fail", "why_tests_cant": "what stays behind has no visible effect, and the one-time key is handled by a function with nine exits", "anchors": ["src/nip17.c: nostr_nip17_create_seal, nostr_nip17_create_gift_wrap, nostr_nip17_send_dm, nostr_nip17_unwrap_dm", "src/nip59.c: nostr_nip59_wrap_event, nostr_nip59_unwrap_event, nostr_nip59_create_seal, nostr_nip59_create_gift_wrap"]}
{"id": "C166", "title": "A relay gives back its memory, whatever is done inside callbacks", "statement": "A relay is created, connected and disconnected any number of times, and destroyed; in between the application subscribes, unsubscribes, publishes and sets callbacks, bytes arrive in any chunks, and the connection is established and lost, in any order; inside every callback the application may again subscribe, unsubscribe, publish and set callbacks. Then no memory is used or released that is not live, the callbacks are made that the messages call for given the subscriptions at that moment, and when the relay is destroyed all memory, the websocket context and the mutex have been given back.", "quantifier": "all addresses, histories of calls, arrivals and state changes, applications that react to callbacks by further calls, and allocators that may fail at any time", "why_tests_cant": "an application may change the list of subscriptions while a message is being handled, at any message of any history", "anchors": ["src/relay.c: nostr_relay_create, nostr_relay_connect, nostr_relay_disconnect, nostr_relay_destroy, nostr_subscribe, nostr_relay_unsubscribe, nostr_relay_send_event, nostr_relay_set_message_callback, callback_nostr_relay"]}
{"id": "C167", "title": "Tags are reached alike by index, by name and by iteration", "statement": "For every event an application can get, reading tags by index up to the count gives every tag and every value in order and NULL beyond; looking a name up gives the first tag of that name, and NULL exactly if the event has none; iterating with names and values gives every tag once and in order, its name apart from its values, and then reports the end for ever. The hexadecimal id and public key are the 64 lower-case digits and a NUL, and nothing else of the buffer is written.", "quantifier": "all events built by any history of calls or read from any JSON text, all indices, names and numbers of calls", "why_tests_cant": "events have any number of tags of any shape", "anchors": ["src/relay_protocol.c: nostr_event_get_tag_at, nostr_event_get_tag, nostr_tag_get_name, nostr_tag_get_value, nostr_event_find_tag, nostr_event_has_tag, nostr_tag_iterator_next_info, nostr_event_get_id_hex, nostr_event_get_pubkey_hex"]}
{"id": "C168", "title": "A query planned from a filter's accessors finds exactly the matching events", "statement": "A relay that selects events by what the filter accessors report (ids, authors, kinds, times, values for every tag letter) finds exactly the events that the filter matches; if no tag condition is reported tags play no role, and a search text is reported exactly if the search callback is needed.", "quantifier": "all filters, including every parsed document, and all events", "why_tests_cant": "the agreement is between two pieces of code over all filters and events", "anchors": ["src/relay_filter.c: nostr_filter_get_tag_values, nostr_filter_get_e_tags, nostr_filter_get_p_tags, nostr_filter_has_tag_filters, nostr_filter_get_ids, nostr_filter_has_search, nostr_filter_matches, nostr_filter_matches_with_search"]}
{"id": "C169", "title": "A failed validation can be reported", "statement": "Whatever the result structure held before, after a failed validation of an event or a filter it names the code, a text and the field, and formatting it into any buffer writes a terminated text within the buffer: the whole sentence and its length if it fits, otherwise its beginning and 0.", "quantifier": "all events and filters (also NULL), all previous contents of the result, all buffer sizes", "why_tests_cant": "contents left over from earlier calls or never written, and every buffer size", "anchors": ["src/relay_protocol.c: nostr_event_validate_full, nostr_validation_error_format", "src/relay_filter.c: nostr_filter_validate"]}
{"id": "C170", "title": "No two error codes have the same description", "statement": "The description of an error code determines the code, for both sets of codes.", "quantifier": "all pairs of error codes", "why_tests_cant": "tests look at single codes", "anchors": ["src/key.c: nostr_error_string", "src/relay_protocol.c: nostr_relay_error_string"]}
{"id": "C171", "title": "Wallet sessions give back their memory", "statement": "Sessions are created, given permissions, checked, looked up, extended and destroyed in any order, also by calls that overtake each other, and expired sessions are cleaned up on the way. At every moment the memory in use is exactly the table, the texts of ids that the application holds, and the connection and permissions of each session in use; nothing is released twice or used after release, whatever the allocator refuses. The results are those of the sessions seen as values.", "quantifier": "all histories of calls, connection texts, permission names, times, configured maxima, and allocators that may fail at any time", "why_tests_cant": "a slot is reused for ever; what the previous session left in it matters only in some histories, and memory runs out at any step", "anchors": ["src/nip47_session.c: nostr_nip47_session_init, nostr_nip47_session_create, nostr_nip47_session_add_permission, nostr_nip47_session_check_permission, nostr_nip47_session_get_connection, nostr_nip47_session_extend, nostr_nip47_session_destroy, cleanup_expired_sessions", "src/nip47.c: nostr_nip47_parse_connection_uri, nostr_nip47_free_connection"]}
{"id": "C172", "title": "Secrets written or read as text leave nothing behind", "statement": "When writing a private key as nsec, reading one, or reading a wallet connection text returns, no local buffer and no block released by the call holds the key or the connection's secret. Releasing a connection, or ending a session, leaves its secret nowhere; releasing an address leaves no private key.", "quantifier": "all keys, texts, buffer sizes, contents of memory before the call, and failures of the allocator", "why_tests_cant": "what stays behind has no visible effect", "anchors": ["src/bech32.c: nostr_privkey_to_bech32, nostr_privkey_from_bech32, bech32_create_checksum, bech32_verify_checksum", "src/nip47.c: nostr_nip47_parse_connection_uri, nostr_nip47_free_connection", "src/nip21.c: nostr_uri_free"]}
{"id": "C173", "title": "Encrypting and decrypting leaves nothing behind but the text", "statement": "Encrypting or decrypting a message (NIP-44, NIP-04) either succeeds and adds to memory exactly one block, to which the caller's pointer then points and which holds the text, or fails and leaves memory as it was. Nothing is released twice or used after release, whatever the allocator refuses, and success is reported only with the right text.", "quantifier": "all messages, keys, received texts, configurations, and allocators (of the library and of OpenSSL) that may fail at any time", "why_tests_cant": "memory runs out at any of a dozen steps, inside the library or inside OpenSSL", "anchors": ["src/nip44.c: nostr_nip44_encrypt, nostr_nip44_decrypt, nostr_nip04_encrypt, nostr_nip04_decrypt, base64_encode, base64_decode, pad_plaintext, unpad_plaintext"]}
{"id": "C174", "title": "A relay's two threads do not collide", "statement": "An application calls the relay functions from its own thread while the service thread of the connection handles what arrives and makes the application's callbacks, which may call the relay functions too. No two of these accesses to the same memory, one of them a write, can take place at the same time; in particular two messages are never written to the connection at once.", "quantifier": "all histories of calls, all sequences of arrivals, callbacks and what they do, all interleavings of the two threads after any single access", "why_tests_cant": "a collision needs two threads at the same place in the same instant", "anchors": ["src/relay.c: nostr_relay_connect, nostr_relay_disconnect, nostr_relay_send_event, nostr_subscribe, nostr_relay_unsubscribe, nostr_relay_set_message_callback, service_thread_func, callback_nostr_relay, lock_queue_mutex"]}
{"id": "C175", "title": "Disconnecting stops the service thread first, and comes back", "statement": "While the service thread runs, nothing it uses has been released. Once disconnecting waits for it, the service thread only finishes the work it is in, in a bounded number of steps, and enters the websocket library no more; then disconnecting goes on. There is no schedule in which neither thread can go on.", "quantifier": "all histories of calls, all sequences of arrivals and callbacks, all interleavings", "why_tests_cant": "a standstill or a use after release occurs in rare interleavings only", "anchors": ["src/relay.c: nostr_relay_disconnect, nostr_relay_destroy, service_thread_func, callback_nostr_relay"]}
{"id": "C176", "title": "An event's id is right or an error is reported", "statement": "Computing the id of an event either succeeds, the id being the hash of the event's canonical text, or reports an error and leaves the event as it was; in both cases memory is as before. So is what signing signs and what verifying compares.", "quantifier": "all events, and all allocators that may refuse any allocation", "why_tests_cant": "memory runs out at any of dozens of allocations inside the JSON library", "anchors": ["src/event.c: nostr_event_compute_id, serialize_for_id, escape_json_string, nostr_event_sign, nostr_event_verify"]}
{"id": "C177", "title": "A JSON text is written completely or not at all", "statement": "A function that writes an event, a relay message, a relay information document or the parameters of a wallet request either reports an error or delivers the whole text: no field, tag or element is missing from it.", "quantifier": "all events, messages, documents and parameters, all buffer sizes, and all allocators that may refuse any allocation", "why_tests_cant": "memory runs out at any of dozens of allocations inside the JSON library", "anchors": ["src/event.c: nostr_event_to_json", "src/relay_protocol.c: nostr_event_serialize, nostr_event_serialize_canonical", "src/relay_message.c: nostr_relay_msg_serialize", "src/relay_nip11.c: nostr_relay_limitation_serialize, nostr_relay_info_serialize", "src/nip47.c: nostr_nip47_create_pay_invoice_params, nostr_nip47_create_make_invoice_params", "src/nip47_commands.c: nostr_nip47_create_list_transactions_params, nostr_nip47_create_lookup_invoice_params, nostr_nip47_create_pay_keysend_params, nostr_nip47_create_multi_pay_invoice_params"]}
{"id": "C178", "title": "Writing a JSON text leaves nothing behind but the text", "statement": "Writing a JSON text adds exactly one block to memory, the text, or nothing: the tree it is printed from is released completely, whichever allocation is refused.", "quantifier": "all documents as in C177, and all allocators that may refuse any allocation", "why_tests_cant": "a lost block has no visible effect", "anchors": ["src/event.c: nostr_event_to_json", "src/relay_message.c: nostr_relay_msg_serialize", "src/relay_nip11.c: nostr_relay_limitation_serialize, nostr_relay_info_serialize", "src/nip47.c: nostr_nip47_create_pay_invoice_params", "src/nip47_commands.c: nostr_nip47_create_pay_keysend_params, nostr_nip47_create_multi_pay_invoice_params"]}
{"id": "C179", "title": "What a wallet answers is handed out completely, and nothing else stays", "statement": "Reading a wallet's response, notification, payment result or information either reports an error, with the caller's variables and the memory as before, or succeeds: every variable asked for then holds a copy of the text in the answer, or what it held if the answer has no such text, and these copies are all the memory that is new. The list of methods can be released with the library's own function.", "quantifier": "all events, keys and texts a wallet may send, all choices of variables, and all allocators that may refuse any allocation", "why_tests_cant": "memory runs out at any allocation, and new memory holds anything", "anchors": ["src/nip47.c: nostr_nip47_parse_response_event, nostr_nip47_parse_notification_event", "src/nip47_commands.c: nostr_nip47_parse_pay_invoice_response, nostr_nip47_parse_info_response"]}
{"id": "C180", "title": "Searching a nonce takes a bounded amount of memory", "statement": "While a nonce is searched for an event, the memory of the event stays below a bound that does not depend on the number of attempts.", "quantifier": "all events, difficulties, numbers of attempts, and all ways memory is laid out", "why_tests_cant": "a test runs few attempts; real difficulties need billions", "anchors": ["src/nip13.c: nostr_nip13_mine_event, nostr_nip13_mine_event_threaded, nostr_nip13_add_nonce_tag, arena_strdup, arena_ensure_capacity"]}
{"id": "C181", "title": "Reading a zap receipt gives the caller all the memory it takes", "statement": "Reading a zap receipt either reports an error and leaves memory as it was, or succeeds, and the invoice and the request handed out are all the memory that is new. What the variables and buffers of the documented size held before does not matter. Verifying a receipt leaves memory as it was.", "quantifier": "all receipts with any number and order of tags, all choices and contents of the caller's variables, and all allocators that may refuse any allocation", "why_tests_cant": "receipts come from strangers; lost blocks and uninitialised variables have no visible effect in a test", "anchors": ["src/zap.c: nostr_zap_parse_receipt, nostr_zap_verify", "include/nostr.h: nostr_zap_parse_receipt"]}
{"id": "C182", "title": "Quotes in a text become tags, or an error is reported", "statement": "Adding the tags for the quotes in an event's text either adds one tag for every quote, in their order, or reports an error. The event and its memory stay consistent in both cases, and memory that was taken to decode a quote does not stay.", "quantifier": "all texts with any number of quotes, all tag limits, and all allocators that may refuse any allocation", "why_tests_cant": "memory runs out at any of several allocations for each quote", "anchors": ["src/nip18.c: nostr_quote_tags_from_content, find_nostr_uri", "src/nip21.c: nostr_uri_parse", "src/nip19.c: nostr_nevent_free, nostr_naddr_free"]}
{"id": "C183", "title": "Looking up thread references and deriving keys from mnemonics leaves memory as it was", "statement": "Looking up the root or the reply a note refers to, asking whether a note is a reply, checking a mnemonic, computing its seed or keys, and deriving a key along a path leave memory exactly as it was, whatever the outcome. The outcome is that of an unlimited memory, or the report that memory ran out.", "quantifier": "all events, mnemonics, passphrases, paths and keys, with and without Unicode normalisation, and all allocators that may refuse any allocation", "why_tests_cant": "memory runs out at any allocation; a lost or doubly released copy has no visible effect", "anchors": ["src/nip10.c: nostr_event_get_root_id, nostr_event_get_reply_id, nostr_event_is_reply, collect_e_tags, find_e_tag_by_marker", "src/hd_key.c: nostr_hd_key_derive_path, nostr_mnemonic_validate, nostr_mnemonic_to_seed, nostr_mnemonic_to_keypair"]}
{"id": "C184", "title": "A signer's response says what it was asked to say", "statement": "A response created by a remote signer carries exactly the identifier and the error or result it was given (a result that is JSON as that value, any other as a string), or an error is reported. Creating it leaves no memory behind but the event.", "quantifier": "all responses, keys and times, and all allocators that may refuse any allocation", "why_tests_cant": "memory runs out at any of the allocations for the members of the text", "anchors": ["src/nip46.c: nostr_nip46_create_response"]}
{"id": "C185", "title": "A text is read up to its length, and not further", "statement": "An event, a filter or a client message read from an array and a length is what the first bytes, as many as the length says, mean. Other bytes of the array do not matter, and nothing behind it is looked at.", "quantifier": "all arrays, lengths and platforms", "why_tests_cant": "a test passes strings, which end with a NUL at just the place", "anchors": ["src/relay_protocol.c: nostr_event_parse", "src/relay_filter.c: nostr_filter_parse", "src/relay_message.c: nostr_client_msg_parse", "include/nostr_relay_protocol.h: nostr_event_parse, nostr_filter_parse, nostr_client_msg_parse"]}
{"id": "C186", "title": "Threads that share the configuration see whole configurations", "statement": "When several threads initialise, change and ask for the configuration at the same time, every call answers as if the calls had been made one after the other in the order in which they return: a configuration handed out was in force as a whole and is in range, a callback is told exactly the configurations before and after, two threads never use the shared variables at once, and no thread keeps the lock. What a caller was handed stays as it was.", "quantifier": "all numbers of threads, calls, configurations and schedules down to the copying of single fields", "why_tests_cant": "the number of schedules is unbounded; the harmful ones need an interruption between two assignments", "anchors": ["src/config.c: nostr_config_get_current, nostr_config_update, nostr_init_with_config, nostr_config_set_callback, lock_config, unlock_config"]}
{"id": "C187", "title": "Session calls of several threads do not collide", "statement": "When several threads make session calls at the same time, no variable shared between the calls is written by one of them while another reads or writes it.", "quantifier": "all numbers of threads, sessions and calls, and all schedules of single reads, writes and lock operations", "why_tests_cant": "a collision shows only in rare schedules, and then as undefined behaviour", "anchors": ["src/nip47_session.c: nostr_nip47_session_init, nostr_nip47_session_create, nostr_nip47_session_add_permission, nostr_nip47_session_check_permission, nostr_nip47_session_get_connection, nostr_nip47_session_extend, nostr_nip47_session_destroy, find_session, cleanup_expired_sessions"]}
{"id": "C188", "title": "A failed creation of a relay, or a failed search, leaves nothing behind", "statement": "Creating a relay gives a relay with the address given, or an error with memory as before and a variable that can be destroyed; destroying a relay gives all its memory back. Parallel mining gives its working memory back however it ends.", "quantifier": "all addresses, all numbers of threads and ends of the search, and all allocators that may refuse any allocation", "why_tests_cant": "memory runs out, or a thread cannot be started, at every place", "anchors": ["src/relay.c: nostr_relay_create, nostr_relay_destroy", "src/nip13.c: nostr_nip13_mine_event_threaded"]}
{"id": "C189", "title": "Keys and ids are written and read as texts, or an error is reported", "statement": "Writing a key, a secret key or an event id as a text, and reading one back, gives what it gives with enough memory, or an encoding error if memory was refused; never a text with a wrong checksum or another key. Memory is afterwards as it was before.", "quantifier": "all keys, prefixes, texts and buffer sizes, and all allocators that may refuse any allocation", "why_tests_cant": "memory runs out at the one allocation made for the checksum", "anchors": ["src/bech32.c: nostr_key_to_bech32, nostr_key_from_bech32, nostr_privkey_to_bech32, nostr_privkey_from_bech32, nostr_event_id_to_bech32, nostr_event_id_from_bech32, bech32_create_checksum, bech32_verify_checksum"]}
{"id": "C190", "title": "Times of any size survive as texts and are bound by ids", "statement": "Writing an event as JSON and reading it back gives the same time, and two events that differ in their times have different ids, for every time a signed 64-bit integer can hold.", "quantifier": "all events within the limits, all times, as cJSON writes and reads numbers as doubles", "why_tests_cant": "which of the 2^64 times change follows from the rounding of doubles and from the digits cJSON prints; tests use times of ten digits", "anchors": ["src/event.c: nostr_event_to_json, nostr_event_from_json, nostr_event_compute_id, nostr_event_verify", "src/relay_message.c: nostr_client_msg_parse", "src/relay.c: callback_nostr_relay"]}
{"id": "C191", "title": "No number in a text makes reading undefined", "statement": "Reading an event, a filter or the answer of a wallet is defined for every number the text holds, whatever its size.", "quantifier": "all texts, with numbers of any length, fraction and exponent", "why_tests_cant": "tests use numbers of usual size; the edges follow from the spacing of doubles", "anchors": ["src/event.c: nostr_event_from_json", "src/relay_filter.c: nostr_filter_parse", "src/relay_message.c: nostr_client_msg_parse", "src/nip47_commands.c: nostr_nip47_parse_info_response"]}
{"id": "C192", "title": "Amounts of payments are not altered", "statement": "The amount given to a wallet command is the amount that a reader of the command sees, and the balance a wallet reports is the balance the application gets.", "quantifier": "all 64-bit amounts, invoices, descriptions and lists of payments", "why_tests_cant": "which of the 2^64 amounts change follows from the rounding of doubles and from the digits cJSON prints", "anchors": ["src/nip47.c: nostr_nip47_create_pay_invoice_params, nostr_nip47_create_make_invoice_params", "src/nip47_commands.c: nostr_nip47_create_pay_keysend_params, nostr_nip47_create_multi_pay_invoice_params, nostr_nip47_parse_balance_response"]}
{"id": "C193", "title": "Without cJSON a wallet's answers are understood as with it", "statement": "In a build without cJSON the answer of a wallet is read as it is with cJSON: whether the command succeeded, its result, code and message of an error, type and body of a notification, the balance, the preimage and the fees of a payment, and the description of the wallet.", "quantifier": "all answers, documents in every layout, keys and amounts", "why_tests_cant": "the search for a name in the text meets every text in front of it, and the build without cJSON is hardly ever tested against a wallet", "anchors": ["src/nip47.c: nostr_nip47_parse_response_event, nostr_nip47_parse_notification_event", "src/nip47_commands.c: nostr_nip47_parse_balance_response, nostr_nip47_parse_pay_invoice_response, nostr_nip47_parse_info_response"]}
{"id": "C194", "title": "Random bytes are drawn once, also by many threads", "statement": "In a build with mbedTLS and threading, however many threads draw random bytes, generate keys or initialise the library at the same time: no answer of the generator goes to two callers, a draw that succeeds is filled completely from a seeded generator, a failed seeding loses nothing and can be repeated, and no thread waits forever.", "quantifier": "all schedules of any number of threads, all lengths, all failures of seeding and drawing", "why_tests_cant": "identical keys need one schedule among very many, and a deadlock between the two locks another one", "anchors": ["src/key.c: nostr_random_bytes, nostr_init, nostr_key_generate"]}
{"id": "C195", "title": "A result may be written over its argument", "statement": "A caller who no longer needs an argument may name it as the place of the result: decoding hexadecimal, reading a key from text, writing a key as text, making a keypair of a private key or of a text, deriving a child key and deriving along a path give the same status and the same result as with separate memory, and change nothing else.", "quantifier": "all texts, keys, indices, paths and contents of memory, all positions of the result relative to the argument, both cryptographic backends", "why_tests_cant": "a test calls with separate buffers, or with one overlap and one text; whether a byte is overwritten before it is read depends on the position and the value, and copying a region onto itself is undefined without being visible", "anchors": ["src/utils.c: nostr_hex_decode, nostr_hex_encode", "src/key.c: nostr_key_from_hex, nostr_privkey_from_hex, nostr_key_to_hex, nostr_keypair_from_private_key, nostr_keypair_from_private_hex", "src/hd_key.c: nostr_hd_key_derive, nostr_hd_key_derive_path"]}
{"id": "C196", "title": "Texts arrive whole in the caller's buffers", "statement": "Reading a reaction, a repost, the root or reply of a thread, or a name@domain identifier writes only into the buffers the caller gave, within their sizes. If it reports success, every buffer holds the text it is meant for, whole and terminated; a text without room makes the call fail; and a call that fails leaves the buffers as they were or with empty texts.", "quantifier": "all events and texts, all buffer sizes including zero and NULL, and all contents of the buffers before the call", "why_tests_cant": "tests use buffers with room to spare that were cleared before; what happens at the edge depends on the length of texts chosen by strangers", "anchors": ["src/nip25.c: nostr_reaction_parse", "src/nip18.c: nostr_repost_parse", "src/nip10.c: nostr_event_get_root_id, nostr_event_get_reply_id", "src/nip05.c: nostr_nip05_parse"]}
{"id": "C197", "title": "Encoded texts are written whole or not at all", "statement": "Encoding a key, an event id, a profile, event, address or relay reference, a nostr: URI, an encrypted private key, the address of a NIP-05 document or a new mnemonic never writes outside the buffer given. A buffer with room for the text and its end receives it and keeps every byte behind it; a smaller buffer, like any other refusal, is reported and leaves the buffer as it was.", "quantifier": "all keys, entities, names, passwords and entropies, all buffer sizes and contents before the call, all results of the cryptographic libraries", "why_tests_cant": "tests use one generous size per encoder; the decisive sizes are those around the length of each text, and the bytes behind the text are not looked at", "anchors": ["src/bech32.c: nostr_key_to_bech32, nostr_privkey_to_bech32, nostr_event_id_to_bech32", "src/nip21.c: nostr_nprofile_encode, nostr_nevent_encode, nostr_naddr_encode, nostr_nrelay_encode, nostr_uri_encode", "src/nip49.c: nostr_ncryptsec_encrypt", "src/nip05.c: nostr_nip05_build_url", "src/hd_key.c: nostr_mnemonic_generate"]}
{"id": "C198", "title": "A published event reaches the matching subscribers as it was signed", "statement": "An author signs an event and publishes it; a relay written with the library's calls reads the message, verifies the signature, asks which subscriptions match and sends the event to those; a subscriber receives the text. Then exactly the matching subscriptions are served, each once; at the subscriber exactly one callback is made, that of its latest subscription with this id, and the event it gets is the one that was signed and verifies there. Conversely, whatever anybody sends to such a relay, no event reaches a subscriber through it that does not verify or does not match. The request of a subscriber is read by the relay as the filter that was asked for.", "quantifier": "all events, keys, filters and subscriptions, all texts sent to the relay, all splittings of the stream into chunks, all histories of the subscriber's connection, three different hosts with their own limits and platforms", "why_tests_cant": "it joins signing, printing, parsing, filtering, framing and routing, which are tested one by one with samples; an inconsistency between two of them shows only for particular contents", "anchors": ["src/event.c: nostr_event_sign, nostr_event_verify", "src/relay.c: nostr_publish_event, nostr_subscribe, callback_nostr_relay", "src/relay_message.c: nostr_client_msg_parse, nostr_relay_msg_event, nostr_relay_msg_serialize", "src/relay_filter.c: nostr_filters_match"]}
{"id": "C199", "title": "Every build that is accepted is complete, and says what it can do", "statement": "Whatever options a user gives the build system and whatever libraries it finds: if it accepts them, the library defines every function its own code uses, defines no function twice, and contains every function the headers declare; a function whose feature is switched off answers NOT_SUPPORTED; and what nostr_feature_nip_supported reports as supported is there and works.", "quantifier": "every choice of options, every set of libraries found, every platform (Linux, Windows, ESP32), the build with Zig for every target, every preset, every function declared in the public headers, every use of a function in the sources", "why_tests_cant": "the options and libraries give more than 2^30 configurations; a test suite builds a handful, each with its own compiled text", "anchors": ["CMakeLists.txt", "include/nostr_features.h.in", "include/nostr.h", "include/nostr_relay_protocol.h", "src/features.c:nostr_feature_nip_supported", "src/nip44.c:nostr_nip44_encrypt", "src/hd_key.c", "src/relay.c", "docs/FEATURE_FLAGS.md", "build.zig", "zig-include/nostr_features.h", "CMakePresets.json"]}
{"id": "C200", "title": "Calls find the library initialised", "statement": "Whatever a program has done before - initialised or not, cleaned up, had initialisations fail - a call never uses a cryptographic context that is not there: after a successful nostr_init every call finds it until nostr_cleanup, and without one a call initialises the library itself and then behaves as it would after nostr_init.", "quantifier": "every build (noscrypt, secp256k1, both), every history of initialisations, clean-ups and calls with every failure of the libraries, every public function that uses a context, every point at which a call may end", "why_tests_cant": "a test program calls nostr_init first and never sees it fail; the property is about all orders of calls and all failures", "anchors": ["src/key.c:nostr_init", "src/key.c:nostr_cleanup", "src/key.c:nostr_key_generate", "src/event.c:nostr_event_sign", "src/nip44.c:nostr_nip44_encrypt", "src/nip26.c:nostr_delegation_create", "src/nip17.c:nostr_nip17_send_dm", "src/nip59.c:nostr_nip59_wrap_event", "src/nip47.c:nostr_nip47_create_request_event", "src/hd_key.c:nostr_hd_key_derive"]}
{"id": "C201", "title": "A relay's state is the state of its connection", "statement": "nostr_relay_get_state, and what the state callback was told last, say CONNECTED exactly while the connection is up and CONNECTING exactly while an attempt is under way; after a loss a relay that says it is connecting is connecting again; and an application can always begin again.", "quantifier": "every history of connecting, attempts that fail at each point, connections established, refused and lost at every time, disconnecting and sending, with the callbacks of the service thread at every point in between, with and without threads", "why_tests_cant": "it depends on when a connection is lost and on the order of two threads; a test sees one loss, usually within the first seconds", "anchors": ["src/relay.c: nostr_relay_connect, nostr_relay_disconnect, nostr_relay_get_state, nostr_relay_send_event, callback_nostr_relay", "include/nostr.h: nostr_relay_state_callback"]}
{"id": "C202", "title": "A private message reaches its recipient through a relay", "statement": "What nostr_nip17_send_dm accepts and nostr_relay_send_event publishes reaches the recipient that asked a relay for events of kind 1059 addressed to its key: exactly one callback is made there, and nostr_nip17_unwrap_dm of the event it gets yields the message as it was written (text, subject, reply, time) and the key of the sender. A message that is too long to arrive is refused when it is sent.", "quantifier": "all messages, keys and random values, all histories of the recipient's connection, all splittings of the text into chunks, three hosts with their own builds, platforms and limits", "why_tests_cant": "the sizes of four encodings inside each other decide, and the limits of three programs; tests wrap and unwrap a short message in one process", "anchors": ["src/nip17.c:nostr_nip17_send_dm", "src/nip17.c:nostr_nip17_unwrap_dm", "src/relay.c:nostr_relay_send_event", "src/event.c:nostr_event_from_json", "src/config.c", "src/relay_message.c:nostr_client_msg_parse", "src/relay_filter.c:nostr_filters_match"]}
{"id": "C203", "title": "The limits that are configured are kept", "statement": "Under the configuration in force no event gets more tags, values per tag or content than it allows, nor does NIP-44 encrypt or decrypt a text outside its bounds; what the library writes under a configuration it can read under the same one; and each field of the configuration has an effect.", "quantifier": "all configurations and changes of them, all histories of an event's content, tags, fields and readings, all plaintexts and ciphertexts", "why_tests_cant": "a limit holds only if every way to exceed it is closed; tests try one way per limit, and a field that is never read passes every test", "anchors": ["src/config.c: nostr_init_with_config, nostr_config_update, nostr_config_get_current", "src/event.c: nostr_event_set_content, nostr_event_add_tag, nostr_event_to_json, nostr_event_from_json", "src/nip44.c: nostr_nip44_encrypt, nostr_nip44_decrypt", "include/nostr.h: nostr_config"]}
{"id": "C204", "title": "Requests and answers reach the other side through a relay", "statement": "An encrypted request to a remote signer (NIP-46) or to a wallet (NIP-47), the answer to it and a notification, once made and published without an error, reach the party they are addressed to if it asked a relay for them: exactly one callback is made there, the signature verifies, and the library's functions read from the event what was written (id, method, parameters, result or error, notification) and who wrote it.", "quantifier": "all requests, answers and notifications, all keys and random values, all histories of the connection, all splittings of the text into chunks, three hosts with their own builds, platforms and limits", "why_tests_cant": "it joins encryption, signing, printing, relaying, framing and parsing on three hosts; a test exercises one function with its own output in one process", "anchors": ["src/nip46.c: nostr_nip46_parse_request, nostr_nip46_create_response", "src/nip47.c: nostr_nip47_create_request_event, nostr_nip47_parse_response_event, nostr_nip47_parse_notification_event", "src/nip44.c: nostr_nip44_encrypt, nostr_nip44_decrypt", "src/relay.c: nostr_relay_send_event", "src/event.c: nostr_event_from_json", "src/config.c"]}
{"id": "C205", "title": "What is made with the library's calls arrives and is understood", "statement": "Whatever event an application makes with the library's calls, in whatever order, and signs without an error can be published, and arrives at every subscriber whose filters match with the author's key, the time, the kind, all tags and the content it was made with. There a reaction, a repost, an answer in a thread, a relay list, a list with private items, a delegation and proof of work are read as they were given.", "quantifier": "all sequences of constructors and of calls that change an event, all arguments, keys and filters, all histories of the subscriber's connection, all splittings into chunks, three hosts with their own builds and limits", "why_tests_cant": "the calls can be combined in any order and each restricts what the next ones meet; a test builds a few events and reads them in the same process", "anchors": ["src/event.c: nostr_event_create, nostr_event_set_content, nostr_event_add_tag, nostr_event_sign", "src/nip10.c: nostr_event_add_reply_tags, nostr_event_get_root_id, nostr_event_get_reply_id", "src/nip13.c: nostr_nip13_mine_event, nostr_nip13_mine_event_threaded, nostr_nip13_verify_pow", "src/nip18.c: nostr_repost_create, nostr_repost_parse, nostr_quote_tags_from_content", "src/nip25.c: nostr_reaction_create, nostr_reaction_parse", "src/nip26.c: nostr_event_add_delegation, nostr_event_verify_delegation", "src/nip51.c: nostr_list_to_event, nostr_list_from_event", "src/nip65.c: nostr_relay_list_to_event, nostr_relay_list_from_event", "src/zap.c: nostr_zap_create_request", "src/relay.c: nostr_relay_send_event"]}
{"id": "C206", "title": "A call means the same where long has 32 bits", "statement": "The same call with the same arguments gives the same result on a platform whose long has 32 bits (Windows, ESP32) as on one where it has 64: the amount a zap request asks for and the amount of an invoice, the verdict on a zap receipt, the settings from the environment, the key at a derivation path, the kinds in delegations, reposts and reactions, the records and times in wallet commands.", "quantifier": "all amounts, receipts, requests, environments, paths, texts and records, both widths of long", "why_tests_cant": "the tests run on a 64-bit Linux machine, where the two are the same; the difference shows only on the other platform and for large or negative numbers", "anchors": ["src/zap.c: nostr_zap_create_request, nostr_zap_parse_receipt, nostr_zap_verify", "src/config.c: nostr_config_load_env, nostr_init_with_config", "src/hd_key.c: nostr_hd_key_derive_path", "src/nip26.c: nostr_delegation_create, nostr_event_get_delegation", "src/nip18.c: nostr_repost_parse", "src/nip25.c: nostr_reaction_parse", "src/nip47_commands.c: nostr_nip47_create_pay_keysend_params, nostr_nip47_create_list_transactions_params", "CMakeLists.txt"]}
{"id": "C207", "title": "A failure is reported with the documented error code", "statement": "Where the documentation names the error code of a failure, the call answers that failure with that code, and where it knows only success and one code, with no other: keys from and to hex and from bech32, signing, verifying and reading events, connecting, checking mnemonics, mining, the root and parent of a thread, decrypting an ncryptsec with a wrong password, delegations, and texts that do not fit the caller's buffer.", "quantifier": "all arguments of these calls, all keys, texts, passwords, buffer sizes and targets, all failures of the libraries below", "why_tests_cant": "a program branches on the code; tests check that a bad input is refused, for one bad input per call, and seldom how", "anchors": ["docs/API.md", "include/nostr.h", "include/nostr_relay_protocol.h", "src/key.c: nostr_key_from_hex, nostr_key_to_hex", "src/bech32.c: nostr_key_from_bech32", "src/event.c: nostr_event_sign, nostr_event_verify, nostr_event_from_json", "src/relay.c: nostr_relay_connect", "src/hd_key.c: nostr_mnemonic_validate", "src/nip13.c: nostr_nip13_mine_event", "src/nip10.c: nostr_event_get_root_id, nostr_event_get_reply_id", "src/nip49.c: nostr_ncryptsec_decrypt", "src/nip26.c: nostr_delegation_verify, nostr_delegation_check_conditions, nostr_event_get_delegation", "src/relay_message.c: nostr_relay_msg_serialize", "src/relay_protocol.c: nostr_event_serialize, nostr_event_serialize_canonical"]}
{"id": "C208", "title": "A successful call sets what it puts out", "statement": "When a call with output arguments reports success, every output the caller asked for has been set: what the caller reads in it does not depend on what the variable or buffer held before the call. Calls: reading reactions, reposts, thread references, identifiers and zap receipts, validating an LNURL, and reading a wallet's responses, notifications, payments and balances.", "quantifier": "all events and texts, every choice of outputs asked for, every buffer size and every earlier content of the caller's memory", "why_tests_cant": "a test declares its variables initialised or looks only at the outputs its sample sets; the property is about all earlier contents and all inputs that lack something", "anchors": ["src/nip25.c: nostr_reaction_parse", "src/nip18.c: nostr_repost_parse", "src/nip10.c: nostr_event_get_root_id, nostr_event_get_reply_id", "src/nip05.c: nostr_nip05_parse", "src/zap.c: nostr_zap_parse_receipt, nostr_zap_validate_lnurl", "src/nip47.c: nostr_nip47_parse_response_event, nostr_nip47_parse_notification_event", "src/nip47_commands.c: nostr_nip47_parse_pay_invoice_response, nostr_nip47_parse_balance_response", "include/nostr.h"]}
{"id": "C209", "title": "NULL is refused, not followed", "statement": "Any public function may be called with NULL for any of its pointer arguments: nothing is read or written through NULL. If an argument the function needs is NULL the call is refused, with an error code or with the answer for nothing (NULL, 0, false, -1), and an argument the headers describe as optional may be left out without the call being refused for it.", "quantifier": "all functions declared in the public headers, all choices of which pointer arguments are NULL", "why_tests_cant": "a function with n pointer arguments has 2^n such calls; tests try one argument of some functions", "anchors": ["include/nostr.h", "include/nostr_relay_protocol.h", "src/*.c: the public functions", "src/key.c: nostr_random_bytes", "src/utils.c: nostr_constant_time_memcmp", "src/nip47_commands.c: nostr_nip47_create_pay_keysend_params, nostr_nip47_create_multi_pay_invoice_params", "src/nip10.c: nostr_event_add_reply_tags"]}
{"id": "C210", "title": "Calls of several threads neither collide nor wait for each other for ever", "statement": "Any number of threads may call any functions of the library on objects of their own, in any order. No two of them touch one of the library's own variables at the same time with one of them writing it; a thread that waits for one of the library's own locks waits, perhaps through others, for a thread that can go on; and a call that is over has given back its locks.", "quantifier": "all functions of the library, all numbers of threads, all sequences of calls in each, all schedules, all calls made inside callbacks of relays, searches and lookups", "why_tests_cant": "a collision or a deadlock needs a particular schedule, and every pair of functions would have to be tried", "anchors": ["docs/THREAD_SAFETY.md", "src/config.c: nostr_config_get_current, nostr_init_with_config, nostr_config_set_callback, nostr_config_update", "src/key.c: nostr_init, nostr_cleanup, nostr_key_generate, nostr_random_bytes", "src/features.c: nostr_feature_list_enabled", "src/nip47_session.c: nostr_nip47_session_create, nostr_nip47_session_destroy, nostr_nip47_session_extend", "src/event.c: nostr_event_sign, nostr_event_verify"]}
{"id": "C211", "title": "A text taken from an event stays usable while the event lives", "statement": "What nostr_event_get_tag_value, nostr_event_get_tag_values and nostr_event_get_tag_at hand out (the address of a text, of the values of a tag) can be read until the event is destroyed, and the same text is found there, whatever tags are added to the event and nonces set in it in the meantime.", "quantifier": "all histories of an event, all tags and values in it, all sequences of additions and settings of the nonce after the reading, successful or not, all choices of the allocator, all uses of other memory in between", "why_tests_cant": "a test reads a text right after it was handed out; whether an address survives depends on how full the memory of the event is and on where the allocator puts it next", "anchors": ["src/relay_protocol.c:nostr_event_get_tag_value", "src/relay_protocol.c:nostr_event_get_tag_values", "src/relay_protocol.c:nostr_event_get_tag_at", "src/event.c:nostr_event_add_tag"]}
{"id": "C212", "title": "What the library keeps changes only through the calls made for that", "statement": "The configuration changes only through nostr_init_with_config and nostr_config_update, its callback only through nostr_config_set_callback; the wallet sessions, their permissions and their times change only through the session calls, each of them changing only what it is for; the cryptographic contexts are made by nostr_init and by calls that need them and are taken down only by nostr_cleanup. All other calls, of any thread and from any callback, leave everything the library keeps as it is, and what has been set up stays set up.", "quantifier": "all functions of the library, all numbers of threads, all sequences of calls in each, all schedules, all calls made inside callbacks", "why_tests_cant": "a test that a setting is still there after a call checks one call; that no call changes it needs all of them, with everything they call", "anchors": ["src/config.c:nostr_config_update", "src/config.c:nostr_init_with_config", "src/config.c:nostr_config_set_callback", "src/features.c:nostr_feature_list_enabled", "src/key.c:nostr_init", "src/key.c:nostr_cleanup", "src/key.c:nostr_random_bytes", "src/nip47_session.c:nostr_nip47_session_create", "src/nip47_session.c:nostr_nip47_session_check_permission"]}
{"id": "C213", "title": "What the documentation calls thread-safe is thread-safe", "statement": "The functions which docs/THREAD_SAFETY.md calls always thread-safe or internally synchronized (keys, signing and verifying, encryption, reading and writing events, Bech32, NIP-13, NIP-17 and NIP-59, initialising and cleaning up, the configuration, wallet sessions) can be called by several threads at the same time on objects of their own: no two calls touch one of the library's own variables at the same time with one of them writing it.", "quantifier": "all these functions, all numbers of threads, all sequences of calls in each, all schedules", "why_tests_cant": "a collision of two threads changes no result in almost all runs; no number of runs shows that there is none", "anchors": ["docs/THREAD_SAFETY.md", "src/key.c:nostr_init", "src/key.c:nostr_cleanup", "src/key.c:nostr_key_generate", "src/config.c:nostr_config_update", "src/nip47_session.c:nostr_nip47_session_extend", "src/nip47_session.c:nostr_nip47_session_destroy"]}
{"id": "C214", "title": "The configuration follows its documentation", "statement": "CONFIG.md holds: a configuration within the documented bounds is accepted and any other refused with NOSTR_ERR_INVALID_PARAM; initialising puts the documented defaults in force, changed by the documented environment variables that are set; a successful update is in force and tells the registered function, once, the old and the new configuration, a refused one changes nothing and tells nobody; and an initialisation that reports success has initialised the library.", "quantifier": "all configurations, all environments, all histories of initialising, registering, updating, cleaning up and asking, with every failure of the crypto libraries", "why_tests_cant": "thirteen values with two bounds each, and any order of the calls; tests use one configuration that is accepted and a few that are not", "anchors": ["CONFIG.md", "include/nostr.h: nostr_config, nostr_config_callback", "src/config.c: nostr_config_get_defaults, nostr_config_load_env, nostr_config_validate, nostr_config_get_current, nostr_init_with_config, nostr_config_set_callback, nostr_config_update", "src/key.c: nostr_init, nostr_cleanup"]}
{"id": "C215", "title": "Zaps made and checked as the guide shows are right", "statement": "The programs of the integration guide do what the guide says: a zap request made by the sending program names the recipient, amount and address that were given; the receipt of a payment server for it, sent as JSON text and read again, is accepted; and the checking program says 'Zap verified!' only for a receipt that the payment server has signed for a known request, and prints its amount, invoice and preimage.", "quantifier": "all recipients, amounts, messages, addresses, keys, invoices and receipts; sender and server on hosts with any limits; every text given to the checking program as a receipt", "why_tests_cant": "tests of the programs use a few receipts that are in order; what is accepted among all texts, and what a chain of two hosts makes of all requests, is not covered by them", "anchors": ["docs/INTEGRATION.md", "src/zap.c:nostr_zap_create_request", "src/zap.c:nostr_zap_parse_receipt", "src/zap.c:nostr_zap_verify", "src/event.c:nostr_event_from_json", "src/bech32.c:nostr_key_from_bech32"]}
{"id": "C216", "title": "The proof-of-work example tells the truth", "statement": "When the example program for proof of work says that mining has succeeded, the difficulty it prints is the number of leading zero bits of the printed id and at least the difficulty asked for, the id is that of the event it prints, its own verification says PASSED, it ends with status 0, and the event it prints can be read from its JSON and passes nostr_event_verify.", "quantifier": "all arguments of the program, all keys, clocks and hash functions, with and without threads, all numbers of threads, all schedules, both builds", "why_tests_cant": "a run takes one path through one search; with threads the outcome depends on the schedule", "anchors": ["examples/nip13_example.c", "src/nip13.c:nostr_nip13_mine_event", "src/nip13.c:nostr_nip13_mine_event_threaded", "src/nip13.c:nostr_nip13_verify_pow", "src/nip13.c:nostr_nip13_calculate_difficulty", "src/event.c:nostr_event_compute_id", "src/event.c:nostr_event_to_json"]}
{"id": "C217", "title": "The publishing example tells the truth", "statement": "The example program that publishes a note makes an event with the generated key, the words given and its two tags, which verifies and whose id is the one printed; every relay whose connection stands is sent exactly this event; and the program says that the note has been published only if a relay has accepted this event, and ends with status 0 only then.", "quantifier": "all words, keys, clocks, random bytes, signature schemes and hash functions; any number of relays, connected or not, which send any bytes in any chunks before and after the note is sent", "why_tests_cant": "a run meets one set of relays with one set of answers; refusals, answers about other events and answers before the sending are not produced on demand by public relays", "anchors": ["examples/publish_note.c:main", "examples/publish_note.c:message_callback", "src/relay.c:nostr_relay_send_event", "src/relay.c:nostr_relay_set_message_callback"]}
{"id": "C218", "title": "The subscribing example shows what it asked for and survives its relay", "statement": "The example program that subscribes to events prints, for every EVENT message that belongs to one of its subscriptions in force and whose event can be read, one line that describes this event, and none for any other message; the events shown are of the kinds it asked for and signed by the key shown; and no message of a relay makes it run into undefined behaviour.", "quantifier": "all histories of subscribing, unsubscribing and texts from the relay, all texts, all calendars of the host, all signature schemes", "why_tests_cant": "a run meets one well-behaved relay; a relay that sends what was not asked for, unsigned events or impossible time stamps is not among the public ones", "anchors": ["examples/subscribe_events.c:event_callback", "examples/subscribe_events.c:message_callback", "src/relay.c:nostr_subscribe"]}
{"id": "C219", "title": "The zap example makes and checks zaps rightly", "statement": "The example program for zaps: 'create' prints the JSON of a signed zap request with the recipient, amount and address given, the last message and the relays given after the built-in one, and refuses an amount that is not a number; it never overruns its table of relays. 'verify' says that a receipt is valid only if the named server has signed it for the given request, prints the invoice and the amount of a valid receipt and of no other, and ends with status 0 only then.", "quantifier": "all arguments, in particular any number of options in any order, all keys, clocks, hosts and signature schemes, all receipt and request texts", "why_tests_cant": "argument lists and texts are unbounded; a run tries one list", "anchors": ["examples/zap_example.c:main", "src/zap.c:nostr_zap_create_request", "src/zap.c:nostr_zap_verify", "src/zap.c:nostr_zap_parse_receipt"]}

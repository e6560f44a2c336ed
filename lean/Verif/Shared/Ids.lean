/-! Written by tools/shared.py: the numbers of the functions named in Library.lean. -/

namespace Nostr.Shared.Id

/-- cleanup_expired_sessions (src/nip47_session.c:63) -/
abbrev cleanupExpired : Nat := 20

/-- find_session (src/nip47_session.c:39) -/
abbrev findSession : Nat := 43

/-- free_connection (src/nip47.c:94) -/
abbrev release : Nat := 44

/-- nostr_cleanup (src/key.c:261) -/
abbrev cleanup : Nat := 81

/-- nostr_config_get_current (src/config.c:177) -/
abbrev getCurrent : Nat := 88

/-- nostr_config_get_defaults (src/config.c:56) -/
abbrev getDefaults : Nat := 89

/-- nostr_config_load_env (src/config.c:98) -/
abbrev loadEnv : Nat := 90

/-- nostr_config_set_callback (src/config.c:233) -/
abbrev setCallback : Nat := 91

/-- nostr_config_update (src/config.c:241) -/
abbrev update : Nat := 92

/-- nostr_config_validate (src/config.c:118) -/
abbrev validate : Nat := 93

/-- nostr_constant_time_memcmp (src/utils.c:14) -/
abbrev compare : Nat := 94

/-- nostr_feature_list_enabled (src/features.c:105) -/
abbrev featureList : Nat := 150

/-- nostr_init (src/key.c:211) -/
abbrev init : Nat := 183

/-- nostr_init_with_config (src/config.c:193) -/
abbrev initWithConfig : Nat := 184

/-- nostr_key_generate (src/key.c:283) -/
abbrev keyGenerate : Nat := 188

/-- nostr_nip47_free_connection (src/nip47.c:846) -/
abbrev freeConnection : Nat := 270

/-- nostr_nip47_parse_connection_uri (src/nip47.c:155) -/
abbrev parseUri : Nat := 272

/-- nostr_nip47_session_add_permission (src/nip47_session.c:187) -/
abbrev sessionAdd : Nat := 278

/-- nostr_nip47_session_check_permission (src/nip47_session.c:234) -/
abbrev sessionCheck : Nat := 279

/-- nostr_nip47_session_create (src/nip47_session.c:115) -/
abbrev sessionCreate : Nat := 280

/-- nostr_nip47_session_destroy (src/nip47_session.c:343) -/
abbrev sessionDestroy : Nat := 281

/-- nostr_nip47_session_extend (src/nip47_session.c:320) -/
abbrev sessionExtend : Nat := 282

/-- nostr_nip47_session_get_connection (src/nip47_session.c:290) -/
abbrev sessionGet : Nat := 283

/-- nostr_nip47_session_init (src/nip47_session.c:86) -/
abbrev sessionInit : Nat := 284

/-- nostr_random_bytes (src/key.c:125) -/
abbrev randomBytes : Nat := 301

/-- parse_int_env (src/config.c:87) -/
abbrev envInt : Nat := 370

/-- parse_uint32_env (src/config.c:76) -/
abbrev envUint : Nat := 374

/-- secure_wipe (src/utils.c:26) -/
abbrev wipe : Nat := 377

end Nostr.Shared.Id

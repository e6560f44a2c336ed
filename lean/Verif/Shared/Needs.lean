import Verif.Shared.Writes

/-! # Theorem: every writer of a variable is needed (C212) -/

namespace Nostr.Shared.Props

open Nostr.Shared

/-- A call of one function alone up to its first assignment of a variable: the variable, the function with its number, what the flags are before,
the ways at forks, and the number of steps. -/
structure Single where
  var : Var
  name : String
  id : Nat
  flags : Bool
  ways : List Nat
  steps : Nat

/-- One for every writer of every variable. -/
def singles : List Single := [
  ⟨.config, "nostr_init_with_config", 184, false, [1, 1], 11⟩,
  ⟨.config, "nostr_config_update", 92, true, [1, 1], 13⟩,
  ⟨.configInit, "nostr_init_with_config", 184, false, [1, 0], 14⟩,
  ⟨.callback, "nostr_config_set_callback", 91, false, [], 3⟩,
  ⟨.callbackData, "nostr_config_set_callback", 91, false, [], 5⟩,
  ⟨.featureText, "nostr_feature_list_enabled", 150, false, [1], 4⟩,
  ⟨.featureInit, "nostr_feature_list_enabled", 150, false, [0], 5⟩,
  ⟨.contextInit, "nostr_cleanup", 81, false, [0, 0], 9⟩,
  ⟨.contextInit, "nostr_delegation_create", 96, false, [1, 1, 1, 1, 0, 0, 0, 1], 18⟩,
  ⟨.contextInit, "nostr_delegation_verify", 98, false, [1, 1, 1, 1, 0, 0, 0, 1], 18⟩,
  ⟨.contextInit, "nostr_event_sign", 142, false, [1, 1, 1, 1, 0, 0, 0, 1], 18⟩,
  ⟨.contextInit, "nostr_event_validate_full", 144, false, [1, 1, 1, 0, 1, 1, 1, 1, 1, 0, 0, 0, 1], 24⟩,
  ⟨.contextInit, "nostr_event_verify", 145, false, [1, 1, 1, 1, 1, 0, 0, 0, 1], 19⟩,
  ⟨.contextInit, "nostr_event_verify_delegation", 146, false, [1, 1, 1, 0, 1, 1, 1, 1, 0, 0, 0, 1], 23⟩,
  ⟨.contextInit, "nostr_init", 183, false, [0, 0, 1], 12⟩,
  ⟨.contextInit, "nostr_init_with_config", 184, false, [1, 0, 0, 0, 1], 31⟩,
  ⟨.contextInit, "nostr_key_ecdh", 185, false, [1, 1, 1, 1, 0, 0, 0, 1], 18⟩,
  ⟨.contextInit, "nostr_key_generate", 188, false, [1, 0, 0, 1], 16⟩,
  ⟨.contextInit, "nostr_keypair_from_private_hex", 194, false, [1, 0, 1, 1, 1, 1, 0, 0, 0, 1], 21⟩,
  ⟨.contextInit, "nostr_keypair_from_private_key", 195, false, [1, 1, 1, 1, 0, 0, 0, 1], 18⟩,
  ⟨.contextInit, "nostr_keypair_generate", 196, false, [1, 0, 1, 0, 0, 1], 19⟩,
  ⟨.contextInit, "nostr_keypair_validate", 200, false, [1, 1, 1, 1, 1, 0, 0, 0, 1], 19⟩,
  ⟨.contextInit, "nostr_list_from_event", 217, false, [1, 1, 1, 1, 1, 1, 1, 1, 1, 1, 0, 1, 1, 1, 0, 0, 0, 1], 29⟩,
  ⟨.contextInit, "nostr_list_to_event", 224, false, [1, 1, 1, 1, 1, 1, 1, 1, 1, 1, 0, 1, 1, 1, 0, 0, 0, 1], 29⟩,
  ⟨.contextInit, "nostr_nip04_decrypt", 238, false, [1, 1, 0, 1, 1, 1, 1, 0, 0, 0, 1], 22⟩,
  ⟨.contextInit, "nostr_nip04_encrypt", 239, false, [1, 1, 0, 1, 1, 1, 1, 0, 0, 0, 1], 22⟩,
  ⟨.contextInit, "nostr_nip17_create_gift_wrap", 250, false, [1, 1, 1, 1, 1, 1, 1, 1, 1, 0, 1, 1, 1, 0, 0, 0, 1], 28⟩,
  ⟨.contextInit, "nostr_nip17_create_seal", 252, false, [1, 1, 1, 1, 1, 1, 1, 1, 1, 0, 1, 1, 1, 0, 0, 0, 1], 28⟩,
  ⟨.contextInit, "nostr_nip17_send_dm", 253, false, [1, 1, 1, 1, 1, 1, 1, 0, 1, 1, 1, 1, 1, 1, 1, 1, 1, 0, 1, 1, 1, 0, 0, 0, 1], 37⟩,
  ⟨.contextInit, "nostr_nip17_unwrap_dm", 254, false, [1, 1, 1, 1, 0, 1, 1, 1, 0, 0, 0, 1], 23⟩,
  ⟨.contextInit, "nostr_nip44_decrypt", 255, false, [1, 1, 1, 0, 0, 0, 1], 17⟩,
  ⟨.contextInit, "nostr_nip44_encrypt", 256, false, [1, 1, 1, 0, 0, 0, 1], 17⟩,
  ⟨.contextInit, "nostr_nip46_create_response", 257, false, [1, 1, 1, 1, 1, 1, 1, 1, 0, 1, 1, 1, 0, 0, 0, 1], 27⟩,
  ⟨.contextInit, "nostr_nip46_parse_request", 258, false, [1, 0, 1, 1, 1, 0, 0, 0, 1], 20⟩,
  ⟨.contextInit, "nostr_nip47_create_request_event", 269, false, [1, 1, 1, 1, 1, 1, 1, 1, 1, 1, 0, 1, 1, 1, 0, 0, 0, 1], 29⟩,
  ⟨.contextInit, "nostr_nip47_parse_notification_event", 275, false, [1, 0, 1, 1, 1, 0, 0, 0, 1], 20⟩,
  ⟨.contextInit, "nostr_nip47_parse_response_event", 277, false, [1, 1, 0, 1, 1, 1, 0, 0, 0, 1], 21⟩,
  ⟨.contextInit, "nostr_nip59_create_gift_wrap", 285, false, [1, 1, 1, 1, 1, 1, 1, 1, 1, 0, 1, 1, 1, 0, 0, 0, 1], 28⟩,
  ⟨.contextInit, "nostr_nip59_create_seal", 287, false, [1, 1, 1, 1, 1, 1, 1, 1, 1, 0, 1, 1, 1, 0, 0, 0, 1], 28⟩,
  ⟨.contextInit, "nostr_nip59_unwrap_event", 288, false, [1, 1, 1, 1, 0, 1, 1, 1, 0, 0, 0, 1], 23⟩,
  ⟨.contextInit, "nostr_nip59_wrap_event", 289, false, [1, 1, 1, 1, 1, 1, 1, 1, 1, 1, 1, 0, 1, 1, 1, 0, 0, 0, 1], 30⟩,
  ⟨.contextInit, "nostr_zap_verify", 363, false, [1, 1, 1, 0, 1, 1, 1, 1, 1, 0, 0, 0, 1], 24⟩,
  ⟨.ncContext, "nostr_cleanup", 81, false, [1, 1], 8⟩,
  ⟨.ncContext, "nostr_delegation_create", 96, false, [1, 1, 1, 1, 0, 1], 13⟩,
  ⟨.ncContext, "nostr_delegation_verify", 98, false, [1, 1, 1, 1, 0, 1], 13⟩,
  ⟨.ncContext, "nostr_event_sign", 142, false, [1, 1, 1, 1, 0, 1], 13⟩,
  ⟨.ncContext, "nostr_event_validate_full", 144, false, [1, 1, 1, 0, 1, 1, 1, 1, 1, 0, 1], 19⟩,
  ⟨.ncContext, "nostr_event_verify", 145, false, [1, 1, 1, 1, 1, 0, 1], 14⟩,
  ⟨.ncContext, "nostr_event_verify_delegation", 146, false, [1, 1, 1, 0, 1, 1, 1, 1, 0, 1], 18⟩,
  ⟨.ncContext, "nostr_init", 183, false, [1], 7⟩,
  ⟨.ncContext, "nostr_init_with_config", 184, false, [1, 0, 1], 26⟩,
  ⟨.ncContext, "nostr_key_ecdh", 185, false, [1, 1, 1, 1, 0, 1], 13⟩,
  ⟨.ncContext, "nostr_key_generate", 188, false, [1, 1], 11⟩,
  ⟨.ncContext, "nostr_keypair_from_private_hex", 194, false, [1, 0, 1, 1, 1, 1, 0, 1], 16⟩,
  ⟨.ncContext, "nostr_keypair_from_private_key", 195, false, [1, 1, 1, 1, 0, 1], 13⟩,
  ⟨.ncContext, "nostr_keypair_generate", 196, false, [1, 0, 1, 1], 14⟩,
  ⟨.ncContext, "nostr_keypair_validate", 200, false, [1, 1, 1, 1, 1, 0, 1], 14⟩,
  ⟨.ncContext, "nostr_list_from_event", 217, false, [1, 1, 1, 1, 1, 1, 1, 1, 1, 1, 0, 1, 1, 1, 0, 1], 24⟩,
  ⟨.ncContext, "nostr_list_to_event", 224, false, [1, 1, 1, 1, 1, 1, 1, 1, 1, 1, 0, 1, 1, 1, 0, 1], 24⟩,
  ⟨.ncContext, "nostr_nip04_decrypt", 238, false, [1, 1, 0, 1, 1, 1, 1, 0, 1], 17⟩,
  ⟨.ncContext, "nostr_nip04_encrypt", 239, false, [1, 1, 0, 1, 1, 1, 1, 0, 1], 17⟩,
  ⟨.ncContext, "nostr_nip17_create_gift_wrap", 250, false, [1, 1, 1, 1, 1, 1, 1, 1, 1, 0, 1, 1, 1, 0, 1], 23⟩,
  ⟨.ncContext, "nostr_nip17_create_seal", 252, false, [1, 1, 1, 1, 1, 1, 1, 1, 1, 0, 1, 1, 1, 0, 1], 23⟩,
  ⟨.ncContext, "nostr_nip17_send_dm", 253, false, [1, 1, 1, 1, 1, 1, 1, 0, 1, 1, 1, 1, 1, 1, 1, 1, 1, 0, 1, 1, 1, 0, 1], 32⟩,
  ⟨.ncContext, "nostr_nip17_unwrap_dm", 254, false, [1, 1, 1, 1, 0, 1, 1, 1, 0, 1], 18⟩,
  ⟨.ncContext, "nostr_nip44_decrypt", 255, false, [1, 1, 1, 0, 1], 12⟩,
  ⟨.ncContext, "nostr_nip44_encrypt", 256, false, [1, 1, 1, 0, 1], 12⟩,
  ⟨.ncContext, "nostr_nip46_create_response", 257, false, [1, 1, 1, 1, 1, 1, 1, 1, 0, 1, 1, 1, 0, 1], 22⟩,
  ⟨.ncContext, "nostr_nip46_parse_request", 258, false, [1, 0, 1, 1, 1, 0, 1], 15⟩,
  ⟨.ncContext, "nostr_nip47_create_request_event", 269, false, [1, 1, 1, 1, 1, 1, 1, 1, 1, 1, 0, 1, 1, 1, 0, 1], 24⟩,
  ⟨.ncContext, "nostr_nip47_parse_notification_event", 275, false, [1, 0, 1, 1, 1, 0, 1], 15⟩,
  ⟨.ncContext, "nostr_nip47_parse_response_event", 277, false, [1, 1, 0, 1, 1, 1, 0, 1], 16⟩,
  ⟨.ncContext, "nostr_nip59_create_gift_wrap", 285, false, [1, 1, 1, 1, 1, 1, 1, 1, 1, 0, 1, 1, 1, 0, 1], 23⟩,
  ⟨.ncContext, "nostr_nip59_create_seal", 287, false, [1, 1, 1, 1, 1, 1, 1, 1, 1, 0, 1, 1, 1, 0, 1], 23⟩,
  ⟨.ncContext, "nostr_nip59_unwrap_event", 288, false, [1, 1, 1, 1, 0, 1, 1, 1, 0, 1], 18⟩,
  ⟨.ncContext, "nostr_nip59_wrap_event", 289, false, [1, 1, 1, 1, 1, 1, 1, 1, 1, 1, 1, 0, 1, 1, 1, 0, 1], 25⟩,
  ⟨.ncContext, "nostr_zap_verify", 363, false, [1, 1, 1, 0, 1, 1, 1, 1, 1, 0, 1], 19⟩,
  ⟨.secpContext, "nostr_cleanup", 81, false, [0, 1, 1], 11⟩,
  ⟨.secpContext, "nostr_delegation_create", 96, false, [1, 1, 1, 1, 0, 0, 1], 16⟩,
  ⟨.secpContext, "nostr_delegation_verify", 98, false, [1, 1, 1, 1, 0, 0, 1], 16⟩,
  ⟨.secpContext, "nostr_event_sign", 142, false, [1, 1, 1, 1, 0, 0, 1], 16⟩,
  ⟨.secpContext, "nostr_event_validate_full", 144, false, [1, 1, 1, 0, 1, 1, 1, 1, 1, 0, 0, 1], 22⟩,
  ⟨.secpContext, "nostr_event_verify", 145, false, [1, 1, 1, 1, 1, 0, 0, 1], 17⟩,
  ⟨.secpContext, "nostr_event_verify_delegation", 146, false, [1, 1, 1, 0, 1, 1, 1, 1, 0, 0, 1], 21⟩,
  ⟨.secpContext, "nostr_init", 183, false, [0, 1], 10⟩,
  ⟨.secpContext, "nostr_init_with_config", 184, false, [1, 0, 0, 1], 29⟩,
  ⟨.secpContext, "nostr_key_ecdh", 185, false, [1, 1, 1, 1, 0, 0, 1], 16⟩,
  ⟨.secpContext, "nostr_key_generate", 188, false, [1, 0, 1], 14⟩,
  ⟨.secpContext, "nostr_keypair_from_private_hex", 194, false, [1, 0, 1, 1, 1, 1, 0, 0, 1], 19⟩,
  ⟨.secpContext, "nostr_keypair_from_private_key", 195, false, [1, 1, 1, 1, 0, 0, 1], 16⟩,
  ⟨.secpContext, "nostr_keypair_generate", 196, false, [1, 0, 1, 0, 1], 17⟩,
  ⟨.secpContext, "nostr_keypair_validate", 200, false, [1, 1, 1, 1, 1, 0, 0, 1], 17⟩,
  ⟨.secpContext, "nostr_list_from_event", 217, false, [1, 1, 1, 1, 1, 1, 1, 1, 1, 1, 0, 1, 1, 1, 0, 0, 1], 27⟩,
  ⟨.secpContext, "nostr_list_to_event", 224, false, [1, 1, 1, 1, 1, 1, 1, 1, 1, 1, 0, 1, 1, 1, 0, 0, 1], 27⟩,
  ⟨.secpContext, "nostr_nip04_decrypt", 238, false, [1, 1, 0, 1, 1, 1, 1, 0, 0, 1], 20⟩,
  ⟨.secpContext, "nostr_nip04_encrypt", 239, false, [1, 1, 0, 1, 1, 1, 1, 0, 0, 1], 20⟩,
  ⟨.secpContext, "nostr_nip17_create_gift_wrap", 250, false, [1, 1, 1, 1, 1, 1, 1, 1, 1, 0, 1, 1, 1, 0, 0, 1], 26⟩,
  ⟨.secpContext, "nostr_nip17_create_seal", 252, false, [1, 1, 1, 1, 1, 1, 1, 1, 1, 0, 1, 1, 1, 0, 0, 1], 26⟩,
  ⟨.secpContext, "nostr_nip17_send_dm", 253, false, [1, 1, 1, 1, 1, 1, 1, 0, 1, 1, 1, 1, 1, 1, 1, 1, 1, 0, 1, 1, 1, 0, 0, 1], 35⟩,
  ⟨.secpContext, "nostr_nip17_unwrap_dm", 254, false, [1, 1, 1, 1, 0, 1, 1, 1, 0, 0, 1], 21⟩,
  ⟨.secpContext, "nostr_nip44_decrypt", 255, false, [1, 1, 1, 0, 0, 1], 15⟩,
  ⟨.secpContext, "nostr_nip44_encrypt", 256, false, [1, 1, 1, 0, 0, 1], 15⟩,
  ⟨.secpContext, "nostr_nip46_create_response", 257, false, [1, 1, 1, 1, 1, 1, 1, 1, 0, 1, 1, 1, 0, 0, 1], 25⟩,
  ⟨.secpContext, "nostr_nip46_parse_request", 258, false, [1, 0, 1, 1, 1, 0, 0, 1], 18⟩,
  ⟨.secpContext, "nostr_nip47_create_request_event", 269, false, [1, 1, 1, 1, 1, 1, 1, 1, 1, 1, 0, 1, 1, 1, 0, 0, 1], 27⟩,
  ⟨.secpContext, "nostr_nip47_parse_notification_event", 275, false, [1, 0, 1, 1, 1, 0, 0, 1], 18⟩,
  ⟨.secpContext, "nostr_nip47_parse_response_event", 277, false, [1, 1, 0, 1, 1, 1, 0, 0, 1], 19⟩,
  ⟨.secpContext, "nostr_nip59_create_gift_wrap", 285, false, [1, 1, 1, 1, 1, 1, 1, 1, 1, 0, 1, 1, 1, 0, 0, 1], 26⟩,
  ⟨.secpContext, "nostr_nip59_create_seal", 287, false, [1, 1, 1, 1, 1, 1, 1, 1, 1, 0, 1, 1, 1, 0, 0, 1], 26⟩,
  ⟨.secpContext, "nostr_nip59_unwrap_event", 288, false, [1, 1, 1, 1, 0, 1, 1, 1, 0, 0, 1], 21⟩,
  ⟨.secpContext, "nostr_nip59_wrap_event", 289, false, [1, 1, 1, 1, 1, 1, 1, 1, 1, 1, 1, 0, 1, 1, 1, 0, 0, 1], 28⟩,
  ⟨.secpContext, "nostr_zap_verify", 363, false, [1, 1, 1, 0, 1, 1, 1, 1, 1, 0, 0, 1], 22⟩,
  ⟨.random, "nostr_random_bytes", 301, false, [1], 6⟩,
  ⟨.random, "nostr_mnemonic_generate", 225, false, [1, 0, 1], 9⟩,
  ⟨.random, "nostr_delegation_create", 96, false, [1, 1, 1, 1, 1, 0, 1], 13⟩,
  ⟨.random, "nostr_delegation_verify", 98, false, [1, 1, 1, 1, 0, 1, 1], 24⟩,
  ⟨.random, "nostr_event_sign", 142, false, [1, 1, 1, 1, 1, 0, 1], 13⟩,
  ⟨.random, "nostr_event_validate_full", 144, false, [1, 1, 1, 0, 1, 1, 1, 1, 1, 0, 1, 1], 30⟩,
  ⟨.random, "nostr_event_verify", 145, false, [1, 1, 1, 1, 1, 0, 1, 1], 25⟩,
  ⟨.random, "nostr_event_verify_delegation", 146, false, [1, 1, 1, 0, 1, 1, 1, 1, 0, 1, 1], 29⟩,
  ⟨.random, "nostr_init", 183, false, [1, 1], 18⟩,
  ⟨.random, "nostr_init_with_config", 184, false, [1, 0, 1, 1], 37⟩,
  ⟨.random, "nostr_key_ecdh", 185, false, [1, 1, 1, 1, 0, 1, 1], 24⟩,
  ⟨.random, "nostr_key_generate", 188, false, [1, 1, 1], 22⟩,
  ⟨.random, "nostr_keypair_from_private_hex", 194, false, [1, 0, 1, 1, 1, 1, 0, 1, 1], 27⟩,
  ⟨.random, "nostr_keypair_from_private_key", 195, false, [1, 1, 1, 1, 0, 1, 1], 24⟩,
  ⟨.random, "nostr_keypair_generate", 196, false, [1, 0, 1, 1, 1], 25⟩,
  ⟨.random, "nostr_keypair_validate", 200, false, [1, 1, 1, 1, 1, 0, 1, 1], 25⟩,
  ⟨.random, "nostr_list_from_event", 217, false, [1, 1, 1, 1, 1, 1, 1, 1, 1, 1, 0, 1, 1, 1, 0, 1, 1], 35⟩,
  ⟨.random, "nostr_list_to_event", 224, false, [1, 1, 1, 1, 1, 1, 1, 1, 1, 1, 0, 1, 1, 1, 0, 1, 1], 35⟩,
  ⟨.random, "nostr_nip04_decrypt", 238, false, [1, 1, 0, 1, 1, 1, 1, 0, 1, 1], 28⟩,
  ⟨.random, "nostr_nip04_encrypt", 239, false, [1, 1, 0, 1, 1, 1, 1, 0, 1, 1], 28⟩,
  ⟨.random, "nostr_nip17_create_gift_wrap", 250, false, [1, 1, 1, 1, 1, 1, 1, 1, 1, 0, 1, 1, 1, 0, 1, 1], 34⟩,
  ⟨.random, "nostr_nip17_create_seal", 252, false, [1, 1, 1, 1, 1, 1, 1, 1, 1, 0, 1, 1, 1, 0, 1, 1], 34⟩,
  ⟨.random, "nostr_nip17_send_dm", 253, false, [1, 1, 1, 1, 1, 1, 1, 0, 1, 1, 1, 1, 1, 1, 1, 1, 1, 0, 1, 1, 1, 0, 1, 1], 43⟩,
  ⟨.random, "nostr_nip17_unwrap_dm", 254, false, [1, 1, 1, 1, 0, 1, 1, 1, 0, 1, 1], 29⟩,
  ⟨.random, "nostr_nip44_decrypt", 255, false, [1, 1, 1, 0, 1, 1], 23⟩,
  ⟨.random, "nostr_nip44_encrypt", 256, false, [1, 1, 1, 0, 1, 1], 23⟩,
  ⟨.random, "nostr_nip46_create_response", 257, false, [1, 1, 1, 1, 1, 1, 1, 1, 0, 1, 1, 1, 0, 1, 1], 33⟩,
  ⟨.random, "nostr_nip46_parse_request", 258, false, [1, 0, 1, 1, 1, 0, 1, 1], 26⟩,
  ⟨.random, "nostr_nip47_create_request_event", 269, false, [1, 1, 1, 1, 1, 1, 1, 1, 1, 1, 0, 1, 1, 1, 0, 1, 1], 35⟩,
  ⟨.random, "nostr_nip47_parse_notification_event", 275, false, [1, 0, 1, 1, 1, 0, 1, 1], 26⟩,
  ⟨.random, "nostr_nip47_parse_response_event", 277, false, [1, 1, 0, 1, 1, 1, 0, 1, 1], 27⟩,
  ⟨.random, "nostr_nip59_create_gift_wrap", 285, false, [1, 1, 1, 1, 1, 1, 1, 1, 1, 0, 1, 1, 1, 0, 1, 1], 34⟩,
  ⟨.random, "nostr_nip59_create_seal", 287, false, [1, 1, 1, 1, 1, 1, 1, 1, 1, 0, 1, 1, 1, 0, 1, 1], 34⟩,
  ⟨.random, "nostr_nip59_unwrap_event", 288, false, [1, 1, 1, 1, 0, 1, 1, 1, 0, 1, 1], 29⟩,
  ⟨.random, "nostr_nip59_wrap_event", 289, false, [1, 1, 1, 1, 1, 1, 1, 1, 1, 1, 1, 0, 1, 1, 1, 0, 1, 1], 36⟩,
  ⟨.random, "nostr_zap_verify", 363, false, [1, 1, 1, 0, 1, 1, 1, 1, 1, 0, 1, 1], 30⟩,
  ⟨.randomInit, "nostr_random_bytes", 301, false, [1, 1], 10⟩,
  ⟨.randomInit, "nostr_mnemonic_generate", 225, false, [1, 0, 1, 1], 13⟩,
  ⟨.randomInit, "nostr_delegation_create", 96, false, [1, 1, 1, 1, 1, 0, 1, 1], 17⟩,
  ⟨.randomInit, "nostr_delegation_verify", 98, false, [1, 1, 1, 1, 0, 1, 1, 1], 28⟩,
  ⟨.randomInit, "nostr_event_sign", 142, false, [1, 1, 1, 1, 1, 0, 1, 1], 17⟩,
  ⟨.randomInit, "nostr_event_validate_full", 144, false, [1, 1, 1, 0, 1, 1, 1, 1, 1, 0, 1, 1, 1], 34⟩,
  ⟨.randomInit, "nostr_event_verify", 145, false, [1, 1, 1, 1, 1, 0, 1, 1, 1], 29⟩,
  ⟨.randomInit, "nostr_event_verify_delegation", 146, false, [1, 1, 1, 0, 1, 1, 1, 1, 0, 1, 1, 1], 33⟩,
  ⟨.randomInit, "nostr_init", 183, false, [1, 1, 1], 22⟩,
  ⟨.randomInit, "nostr_init_with_config", 184, false, [1, 0, 1, 1, 1], 41⟩,
  ⟨.randomInit, "nostr_key_ecdh", 185, false, [1, 1, 1, 1, 0, 1, 1, 1], 28⟩,
  ⟨.randomInit, "nostr_key_generate", 188, false, [1, 1, 1, 1], 26⟩,
  ⟨.randomInit, "nostr_keypair_from_private_hex", 194, false, [1, 0, 1, 1, 1, 1, 0, 1, 1, 1], 31⟩,
  ⟨.randomInit, "nostr_keypair_from_private_key", 195, false, [1, 1, 1, 1, 0, 1, 1, 1], 28⟩,
  ⟨.randomInit, "nostr_keypair_generate", 196, false, [1, 0, 1, 1, 1, 1], 29⟩,
  ⟨.randomInit, "nostr_keypair_validate", 200, false, [1, 1, 1, 1, 1, 0, 1, 1, 1], 29⟩,
  ⟨.randomInit, "nostr_list_from_event", 217, false, [1, 1, 1, 1, 1, 1, 1, 1, 1, 1, 0, 1, 1, 1, 0, 1, 1, 1], 39⟩,
  ⟨.randomInit, "nostr_list_to_event", 224, false, [1, 1, 1, 1, 1, 1, 1, 1, 1, 1, 0, 1, 1, 1, 0, 1, 1, 1], 39⟩,
  ⟨.randomInit, "nostr_nip04_decrypt", 238, false, [1, 1, 0, 1, 1, 1, 1, 0, 1, 1, 1], 32⟩,
  ⟨.randomInit, "nostr_nip04_encrypt", 239, false, [1, 1, 0, 1, 1, 1, 1, 0, 1, 1, 1], 32⟩,
  ⟨.randomInit, "nostr_nip17_create_gift_wrap", 250, false, [1, 1, 1, 1, 1, 1, 1, 1, 1, 0, 1, 1, 1, 0, 1, 1, 1], 38⟩,
  ⟨.randomInit, "nostr_nip17_create_seal", 252, false, [1, 1, 1, 1, 1, 1, 1, 1, 1, 0, 1, 1, 1, 0, 1, 1, 1], 38⟩,
  ⟨.randomInit, "nostr_nip17_send_dm", 253, false, [1, 1, 1, 1, 1, 1, 1, 0, 1, 1, 1, 1, 1, 1, 1, 1, 1, 0, 1, 1, 1, 0, 1, 1, 1], 47⟩,
  ⟨.randomInit, "nostr_nip17_unwrap_dm", 254, false, [1, 1, 1, 1, 0, 1, 1, 1, 0, 1, 1, 1], 33⟩,
  ⟨.randomInit, "nostr_nip44_decrypt", 255, false, [1, 1, 1, 0, 1, 1, 1], 27⟩,
  ⟨.randomInit, "nostr_nip44_encrypt", 256, false, [1, 1, 1, 0, 1, 1, 1], 27⟩,
  ⟨.randomInit, "nostr_nip46_create_response", 257, false, [1, 1, 1, 1, 1, 1, 1, 1, 0, 1, 1, 1, 0, 1, 1, 1], 37⟩,
  ⟨.randomInit, "nostr_nip46_parse_request", 258, false, [1, 0, 1, 1, 1, 0, 1, 1, 1], 30⟩,
  ⟨.randomInit, "nostr_nip47_create_request_event", 269, false, [1, 1, 1, 1, 1, 1, 1, 1, 1, 1, 0, 1, 1, 1, 0, 1, 1, 1], 39⟩,
  ⟨.randomInit, "nostr_nip47_parse_notification_event", 275, false, [1, 0, 1, 1, 1, 0, 1, 1, 1], 30⟩,
  ⟨.randomInit, "nostr_nip47_parse_response_event", 277, false, [1, 1, 0, 1, 1, 1, 0, 1, 1, 1], 31⟩,
  ⟨.randomInit, "nostr_nip59_create_gift_wrap", 285, false, [1, 1, 1, 1, 1, 1, 1, 1, 1, 0, 1, 1, 1, 0, 1, 1, 1], 38⟩,
  ⟨.randomInit, "nostr_nip59_create_seal", 287, false, [1, 1, 1, 1, 1, 1, 1, 1, 1, 0, 1, 1, 1, 0, 1, 1, 1], 38⟩,
  ⟨.randomInit, "nostr_nip59_unwrap_event", 288, false, [1, 1, 1, 1, 0, 1, 1, 1, 0, 1, 1, 1], 33⟩,
  ⟨.randomInit, "nostr_nip59_wrap_event", 289, false, [1, 1, 1, 1, 1, 1, 1, 1, 1, 1, 1, 0, 1, 1, 1, 0, 1, 1, 1], 40⟩,
  ⟨.randomInit, "nostr_zap_verify", 363, false, [1, 1, 1, 0, 1, 1, 1, 1, 1, 0, 1, 1, 1], 34⟩,
  ⟨.table, "nostr_nip47_session_init", 284, false, [], 17⟩,
  ⟨.table, "nostr_nip47_session_create", 280, false, [1], 21⟩,
  ⟨.tableSize, "nostr_nip47_session_init", 284, false, [], 15⟩,
  ⟨.tableSize, "nostr_nip47_session_create", 280, false, [1], 19⟩,
  ⟨.tableInit, "nostr_nip47_session_init", 284, false, [1], 25⟩,
  ⟨.tableInit, "nostr_nip47_session_create", 280, false, [1, 1], 29⟩,
  ⟨.rateWindow, "nostr_nip47_session_create", 280, false, [1, 0, 0, 1, 1], 41⟩,
  ⟨.rateCount, "nostr_nip47_session_create", 280, false, [1, 0, 0, 1, 1], 43⟩,
  ⟨.sActive, "nostr_nip47_session_create", 280, false, [1, 0, 0, 1, 0, 1, 1, 1, 1], 67⟩,
  ⟨.sActive, "nostr_nip47_session_destroy", 281, false, [1, 0, 1], 16⟩,
  ⟨.sId, "nostr_nip47_session_create", 280, false, [1, 0, 0, 1, 0, 1, 0, 0, 1], 57⟩,
  ⟨.sConnection, "nostr_nip47_session_create", 280, false, [1, 0, 0, 1, 0, 1, 1, 1, 1, 1, 0], 76⟩,
  ⟨.sConnection, "nostr_nip47_session_destroy", 281, false, [1, 0, 1, 1, 0], 25⟩,
  ⟨.sPermissions, "nostr_nip47_session_create", 280, false, [1, 0, 0, 1, 0, 1, 1, 1, 1, 0, 1], 77⟩,
  ⟨.sPermissions, "nostr_nip47_session_destroy", 281, false, [1, 0, 1, 0, 1], 26⟩,
  ⟨.sPermissions, "nostr_nip47_session_add_permission", 278, false, [1, 0, 1, 1, 1], 33⟩,
  ⟨.sPermissions, "nostr_nip47_session_check_permission", 279, false, [1, 0, 1, 1, 0, 1, 1], 29⟩,
  ⟨.sCount, "nostr_nip47_session_create", 280, false, [1, 0, 0, 1, 0, 1, 1, 1, 1, 0, 0], 80⟩,
  ⟨.sCount, "nostr_nip47_session_destroy", 281, false, [1, 0, 1, 0, 0], 29⟩,
  ⟨.sCount, "nostr_nip47_session_add_permission", 278, false, [1, 0, 1, 1, 0, 1], 41⟩,
  ⟨.sCreated, "nostr_nip47_session_create", 280, false, [1, 0, 0, 1, 0, 1, 0, 0, 1, 1], 63⟩,
  ⟨.sUsed, "nostr_nip47_session_create", 280, false, [1, 0, 0, 1, 0, 1, 0, 0, 1, 1], 65⟩,
  ⟨.sUsed, "nostr_nip47_session_check_permission", 279, false, [1, 0, 1, 1], 20⟩,
  ⟨.sUsed, "nostr_nip47_session_get_connection", 283, false, [1, 0, 1, 1], 20⟩,
  ⟨.sExpires, "nostr_nip47_session_create", 280, false, [1, 0, 0, 1, 0, 1, 0, 0, 1, 1], 79⟩,
  ⟨.sExpires, "nostr_nip47_session_extend", 282, false, [1, 0, 1], 18⟩
]

def Single.ok (s : Single) : Bool :=
  match play (solely s.name (library .skip)) [⟨0, some s.id, s.ways, s.steps⟩] (.outside fun _ => s.flags) with
  | some w => (w.threads 0).access == some (s.var, true)
  | none => false

theorem singles_ok : singles.all Single.ok = true := by decide +kernel

theorem singles_all : variables.flatMap (fun v => (writers v).map fun n => (v, n)) = singles.map fun s => (s.var, s.name) := by decide +kernel

/-- No writer can be left out of the lists: when nobody calls anything but this one, a thread can come to write the variable. -/
theorem C212_needed (v : Var) (name : String) (hn : name ∈ writers v) :
    ∃ flags w, Reach (solely name (library .skip)) (.outside flags) w ∧ (w.threads 0).access = some (v, true) := by
  have h : (v, name) ∈ singles.map fun s => (s.var, s.name) := by
    rw [← singles_all]
    exact List.mem_flatMap.2 ⟨v, mem_variables v, List.mem_map.2 ⟨name, hn, rfl⟩⟩
  obtain ⟨s, hs, e⟩ := List.mem_map.1 h
  cases e
  have h1 := List.all_eq_true.1 singles_ok s hs
  unfold Single.ok at h1
  split at h1
  · rename_i w e
    exact ⟨_, w, play_reach e, by simpa using h1⟩
  · exact nomatch h1

/-! ## Cases -/

theorem reach_of {fns : List Fn} {ps : List Part} {flags : Var → Bool} {P : World → Bool}
    (h : (match play fns ps (.outside flags) with | some w => P w | none => false) = true) : ∃ w, Reach fns (.outside flags) w ∧ P w = true := by
  split at h
  · rename_i w e; exact ⟨w, play_reach e, h⟩
  · exact nomatch h

/-- The hypotheses of `C212_only` can be met with threads at work: a session has been made, one thread adds a permission to it and another
is about to prolong it, while nobody changes the configuration. -/
example : ∃ w, Reach (barred (writers .config) (library .user)) (.outside fun _ => false) w ∧
    ((w.threads 0).access == some (.sExpires, true) && !(w.threads 1).todo.isEmpty) = true :=
  reach_of (ps := oneSession ++ [⟨1, some Id.sessionAdd, [1], 2⟩, ⟨0, some Id.sessionExtend, [1, 0, 1], 18⟩]) (by decide +kernel)

/-- The hypotheses of `C212_ready` can be met: the library is initialised. -/
example : ∃ w, Reach (barred ["nostr_cleanup"] (library .user)) (.outside fun _ => false) w ∧ w.flag .contextInit = true :=
  reach_of (ps := [⟨0, some Id.init, [1], 7⟩, ⟨0, none, [0, 0, 1], 16⟩]) (by decide +kernel)

/-- The hypotheses of `C212_once` can be met: the table of sessions is made. -/
example : ∃ w, Reach (library .user) (.outside fun _ => false) w ∧ w.flag .tableInit = true :=
  reach_of (ps := oneSession) (by decide +kernel)

/-- `nostr_cleanup` is a real exception. -/
example : ∃ w, Reach (library .user) (.outside fun _ => true) w ∧ (!w.flag .contextInit) = true :=
  reach_of (ps := [⟨0, some Id.cleanup, [0, 0], 12⟩]) (by decide +kernel)

end Nostr.Shared.Props

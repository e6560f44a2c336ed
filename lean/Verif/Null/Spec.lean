import Verif.Null.Table

/-! # Specification for C209

What the caller may leave out, from the text of the headers and not from the code. -/

namespace Nostr.Null.Spec
open Nostr Nostr.Null

/-- The pointer arguments that the comments of the public headers describe as optional or as allowed to be NULL, with the
line of the comment. (`created_at` and `target_difficulty`, said to be optional too, are numbers.) -/
def optional : List (String × String) := [
  -- include/nostr.h:231
  ("nostr_init_with_config", "config"),
  -- include/nostr.h:473
  ("nostr_mnemonic_to_seed", "passphrase"),
  -- include/nostr.h:482
  ("nostr_mnemonic_to_keypair", "passphrase"),
  -- include/nostr.h:738
  ("nostr_zap_create_request", "content"),
  -- include/nostr.h:748
  ("nostr_zap_validate_lnurl", "nostr_pubkey"),
  -- include/nostr.h:749
  ("nostr_zap_validate_lnurl", "allows_nostr"),
  -- include/nostr.h:757
  ("nostr_zap_parse_receipt", "amount"),
  -- include/nostr.h:758
  ("nostr_zap_parse_receipt", "bolt11"),
  -- include/nostr.h:759
  ("nostr_zap_parse_receipt", "preimage"),
  -- include/nostr.h:760
  ("nostr_zap_parse_receipt", "zap_request"),
  -- include/nostr.h:861
  ("nostr_nip17_send_dm", "subject"),
  -- include/nostr.h:862
  ("nostr_nip17_send_dm", "reply_to"),
  -- include/nostr.h:897
  ("nostr_nip59_unwrap_event", "author_pubkey"),
  -- include/nostr.h:908
  ("nostr_nip59_create_rumor", "content"),
  -- include/nostr.h:930
  ("nostr_nip59_create_gift_wrap", "extra_tags"),
  -- include/nostr.h:1077
  ("nostr_event_get_root_id", "relay_hint"),
  -- include/nostr.h:1089
  ("nostr_event_get_reply_id", "relay_hint"),
  -- include/nostr.h:1099
  ("nostr_event_add_reply_tags", "root_id"),
  -- include/nostr.h:1100
  ("nostr_event_add_reply_tags", "root_relay"),
  -- include/nostr.h:1101
  ("nostr_event_add_reply_tags", "root_pubkey"),
  -- include/nostr.h:1102
  ("nostr_event_add_reply_tags", "reply_id"),
  -- include/nostr.h:1103
  ("nostr_event_add_reply_tags", "reply_relay"),
  -- include/nostr.h:1104
  ("nostr_event_add_reply_tags", "reply_pubkey"),
  -- include/nostr.h:1115
  ("nostr_event_add_mention_tag", "relay_hint"),
  -- include/nostr.h:1131
  ("nostr_reaction_create", "reaction_content"),
  -- include/nostr.h:1134
  ("nostr_reaction_create", "relay_hint"),
  -- include/nostr.h:1145
  ("nostr_reaction_parse", "reaction_content"),
  -- include/nostr.h:1147
  ("nostr_reaction_parse", "target_event_id"),
  -- include/nostr.h:1149
  ("nostr_reaction_parse", "target_pubkey"),
  -- include/nostr.h:1151
  ("nostr_reaction_parse", "target_kind"),
  -- include/nostr.h:1182
  ("nostr_repost_create", "d_tag"),
  -- include/nostr.h:1183
  ("nostr_repost_create", "embedded_json"),
  -- include/nostr.h:1194
  ("nostr_repost_parse", "reposted_event_id"),
  -- include/nostr.h:1196
  ("nostr_repost_parse", "reposted_pubkey"),
  -- include/nostr.h:1198
  ("nostr_repost_parse", "relay_hint"),
  -- include/nostr.h:1200
  ("nostr_repost_parse", "reposted_kind"),
  -- include/nostr_relay_protocol.h:267
  ("nostr_filter_matches_with_search", "search_cb"),
  -- include/nostr_relay_protocol.h:291
  ("nostr_filters_match_with_search", "search_cb")]

/-- The caller has left out (given as NULL) only arguments that are described as optional. -/
def OnlyOptional (f : Fn) (n : Nat → Bool) : Prop :=
  ∀ i (h : i < f.args.length), n i = true → (f.name, f.args[i]) ∈ optional

/-- A group of arguments of which one is needed has none: all are NULL. -/
def Lacking (f : Fn) (n : Nat → Bool) : Prop := ∃ g ∈ f.needs, ∀ p ∈ g, n p = true

/-- The arguments that the code follows without a test, by function: no test at all (src/key.c:125-163,
src/utils.c:14-24), and elements of an array (src/nip47_commands.c:193-195 and 314). The caller has to give them. -/
def followed : List (String × List String) := [
  ("nostr_random_bytes", ["buf"]),
  ("nostr_constant_time_memcmp", ["a", "b"]),
  ("nostr_nip47_create_pay_keysend_params", ["tlv_records[i]"]),
  ("nostr_nip47_create_multi_pay_invoice_params", ["invoices[i]"])]

/-- The caller has given every argument that the code follows without a test. -/
def Given (f : Fn) (n : Nat → Bool) : Prop :=
  ∀ fs ∈ followed, fs.1 = f.name → ∀ i (h : i < f.args.length), f.args[i] ∈ fs.2 → n i = false

end Nostr.Null.Spec

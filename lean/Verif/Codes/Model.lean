import Verif.Relay.Faults

/-! # The answer of connecting to a relay (src/relay.c) -/

namespace Nostr.Codes
open Nostr

/-- What decides the answer of `nostr_relay_connect`, relay.c:197-327, beside the URL. -/
structure Attempt where
  /-- the relay is connected or connecting already (line 202) -/
  busy : Bool
  /-- `lws_create_context` succeeded (214) -/
  context : Bool
  /-- `strdup` succeeded (225) -/
  copied : Bool
  /-- `calloc` of the connection's data succeeded (251) -/
  data : Bool
  /-- `init_queue_mutex` succeeded (270) -/
  mutex : Bool
  /-- `lws_client_connect_via_info` succeeded (280) -/
  client : Bool
  /-- `NOSTR_FEATURE_THREADING` is defined (294) -/
  threading : Bool
  /-- `pthread_create` succeeded (309) -/
  thread : Bool
  deriving DecidableEq, Repr

/-- relay.c:197-327 `nostr_relay_connect` with a relay and a callback that are not NULL: the answer only. The memory is in
`Verif/Own/Relay.lean`, the states in `Verif/Relay/State.lean`. -/
def connect (a : Attempt) (url : Bytes) : Res Unit :=
  if a.busy then .err .connection
  else if !a.context then .err .connection
  else
    Relay.resolve a.copied url >>= fun _ =>
    if !a.data then .err .memory
    else if !a.mutex then .err .memory
    else if !a.client then .err .connection
    else if a.threading && !a.thread then .err .memory
    else .ok ()

end Nostr.Codes

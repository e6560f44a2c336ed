import Verif.Shared.Model
import Verif.Shared.Ids

/-!
# The functions that write the library's variables or use its locks

In the build with NOSTR_FEATURE_THREADING. The alternatives of the cryptographic libraries are all there (`alt`), as are all ways out of
a function.
-/

namespace Nostr.Shared

/-- Any number of the given parts, in any order. -/
def any (ps : List Prog) : Prog := .many (ps.foldr .alt .skip)

/-- One part after the other. -/
def all (ps : List Prog) : Prog := ps.foldr .seq .skip

/-- Perhaps. -/
def maybe (p : Prog) : Prog := .alt .skip p

namespace body

/-- `nostr_config_get_current` (src/config.c:177-191). -/
def getCurrent : Prog :=
  all [.lock .config, .test .configInit (.read .config) .skip, .unlock .config]

/-- `nostr_init_with_config` (src/config.c:193-231). Every error before line 227 gives back the lock and returns. -/
def initWithConfig : Prog :=
  all [.lock .config, .test .configInit (.unlock .config)
    (.alt
      (all [.alt (.call Id.validate)
          (all [.call Id.getDefaults, .write .config, maybe (all [.call Id.loadEnv, .read .config, .write .config]),
            maybe (all [.call Id.validate, .read .config])]),
        .unlock .config])
      (all [.alt (all [.call Id.validate, .write .config])
          (all [.call Id.getDefaults, .write .config, .call Id.loadEnv, .read .config, .write .config, .call Id.validate, .read .config]),
        .set .configInit true, .unlock .config, .call Id.init]))]

/-- `nostr_config_set_callback` (src/config.c:233-239). -/
def setCallback : Prog :=
  all [.lock .config, .write .callback, .write .callbackData, .unlock .config]

/-- `nostr_config_update` (src/config.c:241-266). `cb` is what the callback does (line 261), with the lock taken. -/
def update (cb : Prog) : Prog :=
  maybe (all [.lock .config, .test .configInit
    (all [.call Id.validate, maybe (all [.read .config, .write .config, .read .callback,
      maybe (all [.read .callback, .read .config, .read .callbackData, cb])])]) .skip, .unlock .config])

/-- `nostr_feature_list_enabled` (src/features.c:105-188). There is no lock. -/
def featureList : Prog :=
  all [.test .featureInit .skip (all [.many (.write .featureText), .set .featureInit true]), .read .featureText]

/-- `nostr_random_bytes` (src/key.c:125-209): with mbedTLS the generator is used under its lock, with OpenSSL there is no variable. -/
def randomBytes : Prog :=
  .alt .skip
    (all [.lock .random, .test .randomInit (.many (.write .random))
      (all [.write .random, maybe (all [.set .randomInit true, .many (.write .random)])]), .unlock .random])

/-- `nostr_init` (src/key.c:211-259): both cryptographic libraries; each failure gives back the lock and returns. -/
def init : Prog :=
  all [.lock .context, .test .contextInit .skip
    (all [maybe (all [.write .ncContext, .read .ncContext, .call Id.randomBytes, .write .ncContext]),
      maybe (all [.write .secpContext, .read .secpContext, maybe (.write .ncContext)]),
      maybe (.set .contextInit true)]), .unlock .context]

/-- `nostr_cleanup` (src/key.c:261-280). -/
def cleanup : Prog :=
  all [.lock .context, maybe (all [.read .ncContext, maybe (.write .ncContext)]),
    maybe (all [.read .secpContext, maybe (.write .secpContext)]), .set .contextInit false, .unlock .context]

/-- `nostr_key_generate` (src/key.c:283-377). -/
def keyGenerate : Prog :=
  maybe (all [.test .contextInit .skip (.call Id.init),
    maybe (all [.many (all [.call Id.randomBytes, maybe (.alt (.read .ncContext) (.read .secpContext))]),
      maybe (.alt (.read .ncContext) (.read .secpContext)), .many (.call Id.wipe)])])

/-- `find_session` (src/nip47_session.c:39-47): all sessions are looked at. -/
def findSession : Prog :=
  .many (all [.read .tableSize, .read .table, .pick, .read .sActive, maybe (all [.read .sId, .call Id.compare])])

/-- `cleanup_expired_sessions` (src/nip47_session.c:63-84). -/
def cleanupExpired : Prog :=
  .many (all [.read .tableSize, .read .table, .pick, .read .sActive, maybe (all [.read .sExpires,
    maybe (all [.lock .session, .write .sActive, .read .sConnection, maybe (all [.call Id.freeConnection, .write .sConnection]),
      .read .sCount, .many (.write .sPermissions), .write .sPermissions, .write .sCount, .unlock .session])])])

/-- `nostr_nip47_session_init` (src/nip47_session.c:86-113). The members of the sessions are set here while the table is new and nobody
else can have reached it, which is no access to a shared variable. -/
def sessionInit : Prog :=
  all [.lock .table, .test .tableInit .skip
    (all [.call Id.getCurrent, .write .tableSize, .write .table, maybe (all [.read .tableSize, .read .table, .set .tableInit true])]),
    .unlock .table]

/-- `nostr_nip47_session_create` (src/nip47_session.c:115-185). -/
def sessionCreate : Prog :=
  maybe (all [.test .tableInit .skip (.call Id.sessionInit), .call Id.parseUri,
    maybe (all [.lock .table, .read .rateWindow, maybe (all [.write .rateWindow, .write .rateCount]), .read .rateCount,
      .alt (all [.unlock .table, .call Id.freeConnection])
        (all [.write .rateCount, .call Id.cleanupExpired,
          .many (all [.read .tableSize, .read .table, .pick, .read .sActive]),
          .alt (all [.unlock .table, .call Id.freeConnection])
            (all [.lock .session, .write .sId,
              .alt (all [.unlock .session, .unlock .table, .call Id.freeConnection])
                (all [.write .sConnection, .write .sCreated, .write .sUsed, .call Id.getCurrent, .read .sCreated, .write .sExpires,
                  .write .sActive, .write .sCount, .read .sId, .unlock .session, .unlock .table])])])])])

/-- The beginning of the calls that look for a session, and what they do with the lock of the session taken and that of the table given
back (src/nip47_session.c:194-204 and the same lines of the calls below). -/
def withSession (p : Prog) : Prog :=
  maybe (all [.lock .table, .call Id.findSession,
    .alt (.unlock .table) (all [.pick, .lock .session, .unlock .table, p, .unlock .session])])

/-- `nostr_nip47_session_add_permission` (src/nip47_session.c:187-232). -/
def sessionAdd : Prog :=
  withSession (all [.call Id.getCurrent, .read .sCount,
    maybe (all [.read .sPermissions, maybe (.write .sPermissions), maybe (all [.read .sCount, .write .sPermissions, .write .sCount])])])

/-- `nostr_nip47_session_check_permission` (src/nip47_session.c:234-288). -/
def sessionCheck : Prog :=
  withSession (all [.read .sExpires, maybe (all [.write .sUsed, .many (all [.read .sCount, .read .sPermissions]),
    maybe (all [.read .sPermissions, maybe (.write .sPermissions), .read .sPermissions, maybe (.write .sPermissions)])])])

/-- `nostr_nip47_session_get_connection` (src/nip47_session.c:290-318). -/
def sessionGet : Prog :=
  withSession (all [.read .sExpires, maybe (all [.write .sUsed, .read .sConnection])])

/-- `nostr_nip47_session_extend` (src/nip47_session.c:320-341). -/
def sessionExtend : Prog :=
  withSession (all [.read .sExpires, .write .sExpires])

/-- `nostr_nip47_session_destroy` (src/nip47_session.c:343-375). -/
def sessionDestroy : Prog :=
  withSession (all [.write .sActive, .read .sConnection, maybe (all [.call Id.freeConnection, .write .sConnection]),
    .read .sCount, .many (.write .sPermissions), .write .sPermissions, .write .sCount])

end body

end Nostr.Shared

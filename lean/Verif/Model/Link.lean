/-
Which mechanism implementation, in which initial state, an `Auth` made by the registry stands
for; and sessions as the user starts them.
-/
import Verif.Model.Registry
import Verif.Model.Mech.Plain
import Verif.Model.Mech.OAuth
import Verif.Model.Mech.ScramServer
import Verif.Model.Mech.Gssapi

namespace Rsasl

/-- The external dependencies of the mechanisms. -/
structure Deps where
  /-- `sha1`/`sha2`, `hmac`, `pbkdf2` -/
  digest : Hash → Scram.Digest
  /-- `stringprep::saslprep` -/
  prep : Str → Option Str
  /-- `serde_json` -/
  json : OAuthBearer.Json
  /-- `libgssapi` -/
  gss : Gssapi.Lib

/-- A mechanism with a state. -/
structure Started where
  mech : Mech
  init : mech.S

/-- The `client` start functions (mechinfo.rs of each mechanism, for example
src/mechanisms/plain/mechinfo.rs:22 and src/mechanisms/scram/mechinfo.rs:26, 92). `none` for
implementations outside of the crate and for server-only ones. -/
def Auth.startClient (deps : Deps) : Auth → Option Started
  | .plain => some ⟨Plain.client, ()⟩
  | .login => some ⟨Login.client, .authid⟩
  | .external => some ⟨External.client, ()⟩
  | .anonymous => some ⟨Anonymous.client, ()⟩
  | .xoauth2 => some ⟨XOAuth2.client, .initial⟩
  | .oauthbearer => some ⟨OAuthBearer.client deps.json, .initial⟩
  | .gssapi => some ⟨Gssapi.client deps.gss, .initial⟩
  | .scramClient h b => some ⟨Scram.client (deps.digest h), Scram.clientNew b⟩
  | .scramClientPlus h => some ⟨Scram.client (deps.digest h), Scram.clientNewPlus⟩
  | .scramServer _ _ => none
  | .scramServerPlus _ => none
  | .custom _ => none

/-- The `server` start functions. -/
def Auth.startServer (deps : Deps) : Auth → Option Started
  | .plain => some ⟨Plain.server deps.prep, ()⟩
  | .login => some ⟨Login.server, .new⟩
  | .external => some ⟨External.server, ()⟩
  | .anonymous => some ⟨Anonymous.server, ()⟩
  | .xoauth2 => some ⟨XOAuth2.server, .initial⟩
  | .oauthbearer => some ⟨OAuthBearer.server deps.json, .initial⟩
  | .gssapi => some ⟨Gssapi.server deps.gss, .initial⟩
  | .scramServer h b => some ⟨Scram.server (deps.digest h), Scram.serverNew b⟩
  | .scramServerPlus h => some ⟨Scram.server (deps.digest h), Scram.serverNewPlus⟩
  | .scramClient _ _ => none
  | .scramClientPlus _ => none
  | .custom _ => none

/-- `Session::new`, src/session.rs:48-60: a fresh session. -/
def Started.session (s : Started) (rng : Nat → Nat) : Session s.mech.S :=
  { st := s.init, rng := rng }

end Rsasl

/-
Two sides of one mechanism.
-/
import Verif.Model.Registry

namespace Rsasl.Spec

/-- What the client runs and what the server runs are the two sides of one mechanism, and of one
hash. A SCRAM client that says the server does not do channel binding says so to a server that
does not. -/
def SidesFit : Auth → Auth → Prop
  | .plain, .plain | .login, .login | .external, .external | .anonymous, .anonymous
  | .xoauth2, .xoauth2 | .oauthbearer, .oauthbearer | .gssapi, .gssapi => True
  | .scramClient x told, .scramServer y canCb => x = y ∧ (told = false → canCb = false)
  | .scramClientPlus x, .scramServerPlus y => x = y
  | _, _ => False

end Rsasl.Spec

/-
The channel binding callbacks that come with the crate: src/channel_bindings.rs.

A protocol crate hands one of these, or one of its own, to `with_cb` (src/sasl.rs:73-77, 123-127 and
167-175); in the model it is the field `chanbind` of the environment.
-/
import Verif.Model.Callback

namespace Rsasl

/-- `NoChannelBindings::get_cb_data`, src/channel_bindings.rs:15-20: the callback of `SASLClient::new`
and `SASLServer::new`, src/sasl.rs:148-165. -/
def noChannelBindings (_cbname : Str) : Option Bytes := none

/-- `ThisCb`, src/channel_bindings.rs:22-31. -/
structure ThisCb where
  name : Str
  value : Bytes

/-- `ThisCb::get_cb_data`, src/channel_bindings.rs:32-40. -/
def ThisCb.getCbData (cb : ThisCb) (cbname : Str) : Option Bytes :=
  if cb.name = cbname then some cb.value else none

/-- `Sasl::with_cb`, src/sasl.rs:166-175. -/
def Env.withCb (env : Env) (cb : Str → Option Bytes) : Env := { env with chanbind := cb }

end Rsasl

/-
What `Debug` shows of what an application holds: a configuration, a context, a mechanism, the data of a session.
Without the `#` flag, so in one line.
-/
import Verif.Model.Text
import Verif.Model.Builder

namespace Rsasl.Shown

def mapText (f : Str → Str) : Unchecked → Unchecked
  | .text s => .text (f s)
  | .undefined => .undefined

/-- `Debug` of a `bool`. -/
def bool : Bool → Str
  | true => c!"true"
  | false => c!"false"

/-- `Mechanism`, src/registry.rs:114-122. -/
def mechanism (m : Mechanism) : Unchecked :=
  mapText (fun name => c!"Mechanism { name: " ++ name ++ c!", has client: " ++ bool m.client.isSome ++
    c!", has server: " ++ bool m.server.isSome ++ c!", .. }") (Mechname.debug m.name)

/-- The entries of a slice after the first one. -/
def others : List Mechanism → Unchecked
  | [] => .text []
  | m :: ms =>
    match mechanism m, others ms with
    | .text s, .text t => .text (c!", " ++ s ++ t)
    | _, _ => .undefined

/-- `Debug` of a slice. -/
def mechanisms : List Mechanism → Unchecked
  | [] => .text (c!"[]")
  | m :: ms =>
    match mechanism m, others ms with
    | .text s, .text t => .text (c!"[" ++ s ++ t ++ c!"]")
    | _, _ => .undefined

/-- `Registry`, derived, src/registry.rs:130-137. -/
def registry (ms : List Mechanism) : Unchecked :=
  mapText (fun s => c!"Registry { static_mechanisms: " ++ s ++ c!" }") (mechanisms ms)

/-- `Inner`, src/config.rs:171-176, what is behind a `SASLConfig`: of the callback its answers and what
configures a client. -/
structure Inner where
  cb : Bool
  callback : List Event → SessionData → Provider → CbProg
  validate : List Event → SessionData → Provider → ValProg
  enableCb : Bool
  prefer : Prefer
  mechs : List Mechanism

/-- `Inner::new`, src/config.rs:190-199. -/
def Inner.new (callback : List Event → SessionData → Provider → CbProg)
    (validate : List Event → SessionData → Provider → ValProg) (enableCb : Bool) (prefer : Prefer)
    (mechs : List Mechanism) : Inner :=
  ⟨false, callback, validate, enableCb, prefer, mechs⟩

/-- The configuration as the rest of the model knows it. -/
def Inner.config (i : Inner) : Config := ⟨i.mechs, i.cb || i.enableCb, i.prefer⟩

/-- `SASLConfig::with_credentials`, src/config.rs:130-168. The provided methods of `SessionCallback` are the
default ones: `validate` does nothing, src/callback.rs:131-140. -/
def Inner.withCredentials (on : Build) (authzid : Option Str) (authid password : Str) : Inner :=
  .new (fun _ _ _ => credentialCallback authzid authid password) (fun _ _ _ => .ret (.ok ())) false
    defaultPrefer (on.credentials authzid.isSome)

/-- `Inner`, src/config.rs:178-185; `SASLConfig`, src/config.rs:43-47. -/
def Inner.debug (i : Inner) : Unchecked :=
  mapText (fun s => c!"SASLConfig { channel_binding: " ++ bool i.cb ++ c!", mechanisms: " ++ s ++ c!", .. }")
    (registry i.mechs)

/-- `Sasl`, src/sasl.rs:32-39; `cb` is what `Debug` makes of the source of channel bindings. -/
def sasl (i : Inner) (cb : Str) : Unchecked :=
  mapText (fun s => c!"Sasl { config: " ++ s ++ c!", cb: " ++ cb ++ c!", .. }") i.debug

/-- `Side`, derived, src/session.rs:13-17. -/
def side : Side → Str
  | .client => c!"Client"
  | .server => c!"Server"

/-- `SessionData`, derived, src/session.rs:417-423. -/
def sessionData (m : Mechanism) (s : Side) : Unchecked :=
  mapText (fun t => c!"SessionData { mechanism_desc: " ++ t ++ c!", side: " ++ side s ++ c!" }") (mechanism m)

end Rsasl.Shown

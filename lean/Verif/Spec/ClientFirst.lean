/-
What a SCRAM client's first message says, in terms of its callbacks' answers.
-/
import Verif.Spec.Upright
import Verif.Spec.ScramSession
import Verif.Spec.Validate

namespace Rsasl.Spec

open Scram

/-- The context of a request for channel binding data of the type `name`. -/
def nameOffer (name : Str) : (p : Property) → Option p.Value
  | .channelBindingName => some name
  | _ => none

/-- Looking for the channel binding data of type `name`: the protocol's callback has it, or the user's
callback is asked for the data of that type. -/
inductive FindsData (env : Env) (name : Str) : Option Bytes → List Event → Prop where
  | protocol (data) (h : env.chanbind name = some data) : FindsData env name (some data) []
  | user (ctx r es) (h : env.chanbind name = none) (hc : Provider.Exactly ctx (nameOffer name))
      (ha : Asked .channelBindings ctx r es) : FindsData env name r es

/-- Which channel the client binds to: the type the user's callback names and its data, otherwise
`tls-exporter` if there is data for it, otherwise `tls-unique`. -/
inductive Picks (env : Env) : Str → Bytes → List Event → Prop where
  | override (name data es es') (h : Asked .overrideCBType .empty (some name) es)
      (h' : FindsData env name (some data) es') : Picks env name data (es ++ es')
  | exporter (data es es') (h : Asked .overrideCBType .empty none es)
      (h' : FindsData env (c!"tls-exporter") (some data) es') :
      Picks env (c!"tls-exporter") data (es ++ es')
  | unique (data es es' es'') (h : Asked .overrideCBType .empty none es)
      (h' : FindsData env (c!"tls-exporter") none es')
      (h'' : FindsData env (c!"tls-unique") (some data) es'') :
      Picks env (c!"tls-unique") data (es ++ es' ++ es'')

/-- The channel binding flag (RFC 5802 section 7) and the data for the client's mode. -/
inductive BindsAs (env : Env) : CbSupport → CbFlag → Bytes → List Event → Prop where
  | off : BindsAs env .clientNoSupport .notSupported [] []
  | unoffered : BindsAs env .serverNoSupport .supportedNotUsed [] []
  | used (name data es) (h : Picks env name data es) :
      BindsAs env .supported (.used (Str.bytes name)) data es

/-- An optional name, escaped. -/
inductive EscapesOpt : Option Str → Option Str → Prop where
  | none : EscapesOpt none none
  | some {name text : Str} (h : Escapes name text) : EscapesOpt (some name) (some text)

/-- What a client says in its first message: the channel it binds to, the authorization identity and
the user name, each as the callbacks gave it; and what happened with the callbacks. -/
structure Says (env : Env) (plus : CbSupport) (asked : List Event) (flag : CbFlag) (data : Bytes)
    (authz : Option Str) (user : Str) : Prop where
  says : ∃ es es' es'' authzid name, asked = es ++ es' ++ es'' ∧ BindsAs env plus flag data es ∧
    Asked .authzId .empty authzid es' ∧ EscapesOpt authzid authz ∧
    Asked .authId .empty (some name) es'' ∧ Escapes name user

end Rsasl.Spec

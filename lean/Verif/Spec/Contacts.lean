/-
What a mechanism may ask the user's callback, tell it and show it, and with which properties on
offer.
-/
import Verif.Spec.Reads
import Verif.Spec.Session

namespace Rsasl

/-- The provider has a value for these properties and for no others. -/
def Provider.Offering (ctx : Provider) (ps : List Property) : Prop :=
  ∀ p, (ctx.getRef p).isSome ↔ p ∈ ps

/-- Requests for values, notifications and calls of `validate`, each with what is on offer. -/
structure Contacts where
  asks : List (Property × List Property) := []
  tells : List (Property × List Property) := []
  shows : List (List Property) := []

/-- The event belongs to such a request, notification or call. -/
def Contacts.Allows (t : Contacts) : Event → Prop
  | .asked p ctx => ∃ ps, (p, ps) ∈ t.asks ∧ ctx.Offering ps
  | .notified p ctx => ∃ ps, (p, ps) ∈ t.tells ∧ ctx.Offering ps
  | .validated ctx => ∃ ps, ps ∈ t.shows ∧ ctx.Offering ps
  | .answered p _ | .evaluated p => ∃ ps, (p, ps) ∈ t.asks
  | .delivered p _ => ∃ ps, (p, ps) ∈ t.tells
  | .vEvaluated _ => t.shows ≠ []

namespace Spec

/-- The contacts of the clients, src/mechanisms/mod.rs:28-215 and the properties of SCRAM
(src/mechanisms/scram/properties.rs:7-66), which also ask for stored secrets and offer to have
them cached. -/
def clientContacts : Auth → Contacts
  | .plain => { asks := [(.authzId, []), (.authId, []), (.password, [])] }
  | .login => { asks := [(.authId, []), (.password, [])] }
  | .external => { asks := [(.authzId, [])] }
  | .anonymous => { asks := [(.anonymousToken, [])] }
  | .xoauth2 =>
    { asks := [(.authId, []), (.oauthBearerToken, [])], tells := [(.xoauth2Error, [])] }
  | .oauthbearer =>
    { asks := [(.authzId, []), (.oauthBearerKV, []), (.oauthBearerToken, [])],
      tells := [(.oauthBearerErrored, [])] }
  | .gssapi => { asks := [(.gssService, []), (.hostname, []), (.gssSecurityLayer, [])] }
  | .scramClient _ _ =>
    { asks := [(.authzId, []), (.authId, []), (.scramCachedPassword, [.salt, .iterations]),
        (.saltedPassword, [.salt, .iterations]), (.password, [.salt, .iterations])],
      tells := [(.scramCachedPassword, [.salt, .iterations])] }
  | .scramClientPlus _ =>
    { asks := [(.overrideCBType, []), (.channelBindings, [.channelBindingName]), (.authzId, []),
        (.authId, []), (.scramCachedPassword, [.salt, .iterations]),
        (.saltedPassword, [.salt, .iterations]), (.password, [.salt, .iterations])],
      tells := [(.scramCachedPassword, [.salt, .iterations])] }
  | _ => {}

/-- The contacts of the servers, src/mechanisms/mod.rs:28-215. SCRAM and OAUTHBEARER offer an
`AuthzId` only if the client sent one; a SCRAM server asks for channel bindings if the client
says it used some. -/
def serverContacts : Auth → Contacts
  | .plain => { shows := [[.authId, .password, .authzId]] }
  | .login => { shows := [[.authId, .password]] }
  | .external => { shows := [[.authzId]] }
  | .anonymous => { shows := [[.anonymousToken]] }
  | .xoauth2 =>
    { asks := [(.xoauth2Validate, [.authId, .oauthBearerToken])],
      shows := [[.authId, .oauthBearerToken]] }
  | .oauthbearer =>
    { asks := [(.oauthBearerValidate, [.authzId, .oauthBearerToken, .oauthBearerKV]),
        (.oauthBearerValidate, [.oauthBearerToken, .oauthBearerKV])],
      shows := [[.authzId, .oauthBearerToken, .oauthBearerKV],
        [.oauthBearerToken, .oauthBearerKV]] }
  | .gssapi => { asks := [(.gssSecurityLayer, [])] }
  | .scramServer _ _ | .scramServerPlus _ =>
    { asks := [(.channelBindings, [.channelBindingName, .authId, .authzId]),
        (.channelBindings, [.channelBindingName, .authId]),
        (.scramStoredPassword, [.authId, .authzId]), (.scramStoredPassword, [.authId])],
      shows := [[.authId, .authzId], [.authId]] }
  | _ => {}

/-- Everything a session did so far belongs to these contacts, whatever the user does with it. -/
def Sticks (st : Started) (t : Contacts) : Prop :=
  ∀ (env : Env) (rng : Nat → Nat) (ops : List Op),
    ∀ e ∈ ((st.session rng).afterAll st.mech env ops).log, t.Allows e

/-- The rule of `Authentication::step` (src/mechanism.rs:56-59): the provider passed to
`validate` always provides the same set of properties. -/
def SameSet (st : Started) : Prop :=
  ∃ ps : List Property, ∀ (env : Env) (rng : Nat → Nat) (ops : List Op) (ctx : Provider),
    Event.validated ctx ∈ ((st.session rng).afterAll st.mech env ops).log → ctx.Offering ps

end Spec

end Rsasl

/-
In which order, and how often, a mechanism turns to the user's callback.
-/
import Verif.Spec.Session

namespace Rsasl

/-- One call of the user's `callback` or `validate`. -/
inductive Contact where
  /-- a request for a value -/
  | asks (p : Property)
  /-- a value to be told -/
  | tells (p : Property)
  /-- `validate` -/
  | shows
deriving DecidableEq

/-- The call an event stands for. -/
def Event.contact : Event → Option Contact
  | .asked p _ => some (.asks p)
  | .notified p _ => some (.tells p)
  | .validated _ => some .shows
  | _ => none

/-- The calls in a log, oldest first. -/
def contactsOf (log : List Event) : List Contact := log.filterMap Event.contact

namespace Spec

/-- The order in which a client turns to the callback, src/mechanisms/mod.rs:28-215. SCRAM with
channel binding asks about the data of two types at the most, if none is asked for by name; it asks
for a password only if there are no keys, and offers to keep the keys at the end. -/
def clientOrder : Auth → List Contact
  | .plain => [.asks .authzId, .asks .authId, .asks .password]
  | .login => [.asks .authId, .asks .password]
  | .external => [.asks .authzId]
  | .anonymous => [.asks .anonymousToken]
  | .xoauth2 => [.asks .authId, .asks .oauthBearerToken, .tells .xoauth2Error]
  | .oauthbearer =>
    [.asks .authzId, .asks .oauthBearerKV, .asks .oauthBearerToken, .tells .oauthBearerErrored]
  | .gssapi => [.asks .gssService, .asks .hostname, .asks .gssSecurityLayer]
  | .scramClient _ _ =>
    [.asks .authzId, .asks .authId, .asks .scramCachedPassword, .asks .saltedPassword,
     .asks .password, .tells .scramCachedPassword]
  | .scramClientPlus _ =>
    [.asks .overrideCBType, .asks .channelBindings, .asks .channelBindings,
     .asks .authzId, .asks .authId, .asks .scramCachedPassword, .asks .saltedPassword,
     .asks .password, .tells .scramCachedPassword]
  | _ => []

/-- The order in which a server turns to the callback. -/
def serverOrder : Auth → List Contact
  | .plain | .login | .external | .anonymous => [.shows]
  | .xoauth2 => [.asks .xoauth2Validate, .shows]
  | .oauthbearer => [.asks .oauthBearerValidate, .shows]
  | .gssapi => [.asks .gssSecurityLayer]
  | .scramServer _ _ | .scramServerPlus _ =>
    [.asks .channelBindings, .asks .scramStoredPassword, .shows]
  | _ => []

/-- The exchange is under way: every call but the last returned `Running`. -/
def UnderWay (rs : List (Reply State)) : Prop := AllRunning rs.dropLast

/-- In any exchange, up to its end, the callback is turned to in this order, leaving out some. -/
def InOrder (st : Started) (order : List Contact) : Prop :=
  ∀ (env : Env) (rng : Nat → Nat) (calls : List Call),
    UnderWay ((st.session rng).run st.mech env calls).1 →
    (contactsOf ((st.session rng).run st.mech env calls).2.log).Sublist order

end Spec

end Rsasl

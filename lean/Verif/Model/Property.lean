/-
Properties (`src/property.rs`, `src/mechanisms/*/properties.rs`), providers and contexts
(`src/context.rs`).
-/
import Verif.Model.Bytes

namespace Rsasl

/-- `OAuthBearerError`, src/mechanisms/oauthbearer/properties.rs:31-72. -/
structure OAuthBearerError where
  status : Str
  scope : Option Str
  openidConfig : Option Str
deriving DecidableEq

/-- `ScramStoredPassword`, src/mechanisms/scram/properties.rs:29-34. `iterations` is a `u32`. -/
structure StoredPassword where
  iterations : UInt32
  salt : Bytes
  storedKey : Bytes
  serverKey : Bytes
deriving DecidableEq

/-- `ScramCachedPassword`, src/mechanisms/scram/properties.rs:63-66. -/
structure CachedPassword where
  clientKey : Bytes
  serverKey : Bytes
deriving DecidableEq

/-- `SecurityLayer`, src/mechanisms/gssapi/properties.rs:40-48: a bit set over `u8` with
`NO_SECURITY_LAYER = 1`, `INTEGRITY = 2`, `CONFIDENTIALITY = 4`. -/
structure SecurityLayer where
  bits : UInt8
deriving DecidableEq

/-- The types implementing `Property` (src/property.rs:33-140 and the `properties.rs` of the
mechanisms). `custom n` stands for properties defined outside of the crate.
Properties without a `Property` impl are left out: they can't be used in a request. -/
inductive Property where
  | authId | authzId | openID20AuthenticateInBrowser | saml20AuthenticateInBrowser
  | realm | hostname | service | password | oauthBearerToken | oauthBearerKV
  | channelBindings | channelBindingName | overrideCBType
  | anonymousToken
  | iterations | salt | algorithmName | scramStoredPassword | scramCachedPassword | saltedPassword
  | xoauth2Error | xoauth2Validate
  | oauthBearerValidate | oauthBearerErrored
  | gssService | gssSecurityLayer
  | custom (n : Nat)
deriving DecidableEq

/-- `Property::Value`. Custom properties carry opaque bytes (simplification: any countable
type would do, the library never looks inside). -/
@[reducible] def Property.Value : Property → Type
  | .authId | .authzId | .openID20AuthenticateInBrowser | .saml20AuthenticateInBrowser
  | .realm | .hostname | .service => Str
  | .password => Bytes
  | .oauthBearerToken => Str
  | .oauthBearerKV => List (Str × Str)
  | .channelBindings => Bytes
  | .channelBindingName | .overrideCBType => Str
  | .anonymousToken => Str
  | .iterations => UInt32
  | .salt => Bytes
  | .algorithmName => Str
  | .scramStoredPassword => StoredPassword
  | .scramCachedPassword => CachedPassword
  | .saltedPassword => Bytes
  | .xoauth2Error => Str
  | .xoauth2Validate => Except Str Unit
  | .oauthBearerValidate => Except OAuthBearerError Unit
  | .oauthBearerErrored => OAuthBearerError
  | .gssService => Str
  | .gssSecurityLayer => SecurityLayer
  | .custom _ => Bytes

/-- A property together with a value. -/
structure PV where
  prop : Property
  val : prop.Value

/-- Providers, src/context.rs:9-50 and 186-205. `EmptyProvider`, `ThisProvider::<P>::with(v)`,
`And`, and the hand-written provider structs of the mechanisms, which all are a chain of
`req.provide_ref::<P>(v)?` calls ending in `done()` (`chain`). -/
inductive Provider where
  | empty
  | this (pv : PV)
  | and (l r : Provider)
  | chain (pvs : List PV)

/-- `ControlFlow`, the `DemandReply` of src/context.rs:70. -/
inductive Flow where
  | continue | break
deriving DecidableEq

/-- A type-erased demand for property `p`: the slot it writes to (src/context.rs:85-118).
`Demand::provide` (97-104) compares type tags: on a match it stores the value and breaks,
else it continues with the slot untouched. -/
def demandProvide (p : Property) (slot : Option p.Value) (pv : PV) : Flow × Option p.Value :=
  if h : pv.prop = p then (.break, some (h ▸ pv.val)) else (.continue, slot)

/-- A chain of `provide_ref(..)?` calls. -/
def chainProvide (p : Property) : List PV → Option p.Value → Flow × Option p.Value
  | [], slot => (.continue, slot)
  | pv :: pvs, slot =>
    match demandProvide p slot pv with
    | (.break, slot) => (.break, slot)
    | (.continue, slot) => chainProvide p pvs slot

/-- `Provider::provide` of each provider; `And` (src/context.rs:40-44) asks the left side first
and stops if it breaks. -/
def Provider.provide (p : Property) : Provider → Option p.Value → Flow × Option p.Value
  | .empty, slot => (.continue, slot)
  | .this pv, slot => demandProvide p slot pv
  | .and l r, slot =>
    match l.provide p slot with
    | (.break, slot) => (.break, slot)
    | (.continue, slot) => r.provide p slot
  | .chain pvs, slot => chainProvide p pvs slot

/-- `Context::get_ref`, src/context.rs:168-172. -/
def Provider.getRef (ctx : Provider) (p : Property) : Option p.Value :=
  (ctx.provide p none).2

/-- `Context::get_mut`, src/context.rs:179-183: `provide_mut` of every provider in the crate is
the default (src/context.rs:11-13), which only says `done()`; `And` forwards (46-49). -/
def Provider.provideMut (p : Property) : Provider → Option p.Value → Flow × Option p.Value
  | .and l r, slot =>
    match l.provideMut p slot with
    | (.break, slot) => (.break, slot)
    | (.continue, slot) => r.provideMut p slot
  | _, slot => (.continue, slot)

def Provider.getMut (ctx : Provider) (p : Property) : Option p.Value :=
  (ctx.provideMut p none).2

end Rsasl

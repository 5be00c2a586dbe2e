/-
How much a client sends, measured by what its application supplies and by what it was sent.
-/
import Verif.Spec.Sizes
import Verif.Spec.ScramSteps

namespace Rsasl.Spec

/-- Text of `n` bytes in the header of a SCRAM exchange: it is sent as it is, and again in base64. -/
def inHeader (n : Nat) : Nat := n + base64Size n

/-- What an answer of the application adds to what a SCRAM client sends. Names are escaped; a channel binding comes with the name
of its type. -/
def scramAnswer : Event → Nat
  | .answered .authzId v => inHeader 2 + inHeader (Str.bytes (writtenName v)).length
  | .answered .authId v => (Str.bytes (writtenName v)).length
  | .answered .overrideCBType v => inHeader (Str.bytes v).length
  | .answered .channelBindings v => inHeader 12 + base64Size v.length
  | _ => 0

/-- What an answer of the application adds to what a client sends: the text and the labels around it. -/
def clientAnswer : Auth → Event → Nat
  | .plain, .answered .authzId v => (Str.bytes v).length
  | .plain, .answered .authId v => (Str.bytes v).length + 1
  | .plain, .answered .password v => v.length
  | .login, .answered .authId v => (Str.bytes v).length
  | .login, .answered .password v => v.length
  | .external, .answered .authzId v => (Str.bytes v).length
  | .anonymous, .answered .anonymousToken v => (Str.bytes v).length
  | .xoauth2, .answered .authId v => 5 + (Str.bytes v).length + 13
  | .xoauth2, .answered .oauthBearerToken v => (Str.bytes v).length + 2
  | .oauthbearer, .answered .authzId v => 2 + (Str.bytes v).length
  | .oauthbearer, .answered .oauthBearerKV l =>
    (l.map fun kv => 2 + (Str.bytes kv.1).length + (Str.bytes kv.2).length).sum
  | .oauthbearer, .answered .oauthBearerToken v => 13 + (Str.bytes v).length + 2
  | .scramClient _ _, e => scramAnswer e
  | .scramClientPlus _, e => scramAnswer e
  | _, _ => 0

/-- The same for everything that happened. -/
def clientAnswers (a : Auth) (log : List Event) : Nat := (log.map (clientAnswer a)).sum

/-- What a client may send on account of one call. Only SCRAM sends back something of what it was sent. -/
def forCall : Auth → Option Bytes → Nat
  | .plain, _ => 1
  | .oauthbearer, _ => 3
  | .scramClient _ _, input => (input.getD []).length
  | .scramClientPlus _, input => (input.getD []).length
  | _, _ => 0

/-- The same for all calls. -/
def forCalls (a : Auth) (calls : List Call) : Nat := (calls.map fun c => forCall a c.input).sum

/-- What a client may send once: the letters and commas around the names in a SCRAM header, the labels of the first message and
its nonce of 24 bytes, and a proof. If the session was given channel bindings, of at most `m` bytes, then these as well. -/
def clientAllowance (deps : Deps) (m : Nat) : Auth → Nat
  | .scramClient h _ => 3 * inHeader 1 + 29 + base64Size (deps.digest h).outLen
  | .scramClientPlus h =>
    inHeader 2 + 2 * inHeader 1 + (inHeader 12 + base64Size m) + 29 + base64Size (deps.digest h).outLen
  | _ => 0

end Rsasl.Spec

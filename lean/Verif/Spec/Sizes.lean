/-
How much a server sends, measured by what it was sent and by what its application has told it to say.
-/
import Verif.Model.Link

namespace Rsasl.Spec

/-- The bytes of base64 text for `n` bytes. -/
def base64Size (n : Nat) : Nat := (n + 2) / 3 * 4

/-- What an answer of the application adds to a message. A salt and an iteration count take the place of those made up for
users who are not known: 44 bytes of salt and 5 digits. -/
def answerSize (json : OAuthBearer.Json) : Event → Nat
  | .answered .scramStoredPassword p =>
    base64Size p.salt.length + (Str.bytes (Nat.toDigits 10 p.iterations.toNat)).length - 49
  | .answered .xoauth2Validate (.error text) => (Str.bytes text).length
  | .answered .oauthBearerValidate (.error e) => (json.ser e).flatten.length
  | _ => 0

/-- The same for everything that happened. -/
def answersSize (json : OAuthBearer.Json) (log : List Event) : Nat := (log.map (answerSize json)).sum

/-- What a server may send in the course of a session beyond that. LOGIN has its two prompts. SCRAM writes at most 73 bytes more
than it got in its first message (a nonce of 24 bytes, salt, iteration count and their labels), and then a signature or
one of its errors. -/
def allowance (deps : Deps) : Auth → Nat
  | .login => 19
  | .scramServer h _ => 73 + max (2 + base64Size (deps.digest h).outLen) 29
  | .scramServerPlus h => 73 + max (2 + base64Size (deps.digest h).outLen) 29
  | _ => 0

/-- A prompt that could not be written is written again when the call is made again. -/
def again : Auth → Outcome State → Nat
  | .login, .err (.io _) => 10
  | _, _ => 0

/-- All that was sent to a session. -/
def totalIn (calls : List Call) : Nat := (calls.map fun c => (c.input.getD []).length).sum

/-- All that a session wrote. -/
def totalOut (replies : List (Reply State)) : Nat := (replies.map fun r => r.out.length).sum

/-- All that was written in vain. -/
def inVain (a : Auth) (replies : List (Reply State)) : Nat := (replies.map fun r => again a r.res).sum

end Rsasl.Spec

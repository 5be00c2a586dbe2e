/-
What a SCRAM exchange looks like from outside: calls, replies and callback events.
-/
import Verif.Spec.Scram
import Verif.Model.Mech.ScramServer
import Verif.Spec.Session
import Verif.Spec.Io

namespace Rsasl.Spec

open Scram

/-- How the first message begins in each channel binding mode (RFC 5802 section 7, `gs2-header`). -/
def Gs2Flag : CbSupport → Bytes → Prop
  | .supported, gs2 => b!"p=" <+: gs2
  | .serverNoSupport, gs2 => b!"y," <+: gs2
  | .clientNoSupport, gs2 => b!"n," <+: gs2

/-- A nonce: 24 characters chosen by the first 24 numbers drawn from the random number generator. -/
def drawnNonce (rng : Nat → Nat) : Bytes := (List.range 24).map fun i => nonceChar (rng i)

/-- The call `c` made the client send its first message; `asked` is what happened with the
callback, `rng` what the random number generator was to deliver. `cb` is the client's channel binding
data (empty without channel binding). -/
structure ClientFirstSent (rng : Nat → Nat) (plus : CbSupport) (c : Call) (r : Reply State) (asked : List Event)
    (gs2 cb : Bytes) (name user : Str) (nonce : Bytes) : Prop where
  running : r.res = .ok .running
  flag : Gs2Flag plus gs2
  unbound : plus ≠ .supported → cb = []
  named : .answered .authId name ∈ asked
  escaped : Escapes name user
  fresh : nonce = drawnNonce rng
  length : nonce.length = 24
  printable : ∀ b ∈ nonce, Printable b
  sent : r.out <+: gs2 ++ clientFirstBare user nonce
  whole : Cooperative c.sched → r.out = gs2 ++ clientFirstBare user nonce

/-- The server's first message and what it says: its nonce strictly extends the client's, the salt
is base64 and the iteration count a positive number below 2^32. -/
structure ServerParams (nonce input snonce salt64 it64 salt : Bytes) (it : UInt32) : Prop where
  message : input = serverFirst (nonce ++ snonce) salt64 it64
  extends_ : snonce ≠ []
  commas : 44 ∉ nonce ++ snonce ∧ 44 ∉ salt64 ∧ 44 ∉ it64
  salt : salt64 = Base64.encode salt
  count : ∃ text, it64 = Str.bytes text ∧ Decimal text it.toNat
  positive : it ≠ 0

/-- The call `c` made the client send its final message; `auth` is the auth message of the
exchange so far, `ck` and `sk` the keys of the client. -/
structure ClientFinalSent (d : Digest) (c : Call) (r : Reply State) (asked : List Event)
    (bound : Bytes) (user : Str) (nonce snonce sf salt : Bytes) (it : UInt32)
    (ck sk auth : Bytes) : Prop where
  running : r.res = .ok .running
  auth_eq : auth = authMessage (clientFirstBare user nonce) sf
    (clientFinalBare (Base64.encode bound) (nonce ++ snonce))
  keys : KeysFrom d salt it asked ck sk
  lengths : ck.length = d.outLen ∧ sk.length = d.outLen
  sent : r.out <+: clientFinalBare (Base64.encode bound) (nonce ++ snonce) ++ b!",p=" ++
    Base64.encode (clientProof d ck auth)
  whole : Cooperative c.sched → r.out = clientFinalBare (Base64.encode bound) (nonce ++ snonce) ++
    b!",p=" ++ Base64.encode (clientProof d ck auth)

/-- The server's signature, RFC 5802 section 3, as a `server-final-message`. -/
def serverFinal (d : Digest) (sk auth : Bytes) : Bytes := b!"v=" ++ Base64.encode (d.hmac sk auth)

/-- Did this event ask for, or use, one of the user's secrets? -/
def Secret : Event → Prop
  | .asked p _ => p = .scramCachedPassword ∨ p = .saltedPassword ∨ p = .password
  | .answered p _ => p = .scramCachedPassword ∨ p = .saltedPassword ∨ p = .password
  | _ => False

/-- Did this event hand something to the callback? -/
def Handed : Event → Prop
  | .notified .. => True
  | .delivered .. => True
  | _ => False

/-! ## The server's side -/

/-- RFC 5802 section 7, `gs2-cbind-flag`. -/
def flagBytes : CbFlag → Bytes
  | .supportedNotUsed => b!"y"
  | .notSupported => b!"n"
  | .used name => b!"p=" ++ name

/-- RFC 5802 section 7, the optional `authzid` of the gs2 header; the attribute name is a parameter
(it should be "a="). -/
def authzidBytes (key : Bytes) : Option Str → Bytes
  | none => []
  | some a => key ++ Str.bytes a

/-- RFC 5802 section 7, `gs2-header`. -/
def gs2Header (flag : CbFlag) (authzid : Option Str) : Bytes :=
  flagBytes flag ++ b!"," ++ authzidBytes (b!"a=") authzid ++ b!","

/-- What follows the first comma. -/
def afterComma (b : Bytes) : Bytes := (b.dropWhile (fun x => x ≠ 44)).drop 1

/-- What comes before the last comma. -/
def beforeLastComma (b : Bytes) : Bytes := ((b.reverse.dropWhile (fun x => x ≠ 44)).drop 1).reverse

/-- What follows the last comma. -/
def lastAttribute (b : Bytes) : Bytes := (b.reverse.takeWhile (fun x => x ≠ 44)).reverse

/-- RFC 5802 section 3, the auth message as it is defined by the messages of the exchange: the
client-first message without its gs2 header (up to the second comma), the server-first message, and
the client-final message without its proof (the last attribute). -/
def exactAuth (clientFirst serverFirst clientFinal : Bytes) : Bytes :=
  authMessage (afterComma (afterComma clientFirst)) serverFirst (beforeLastComma clientFinal)

/-- What a SCRAM server offers with its other requests and to validate. -/
def scramOffer (authid : Str) (authzid : Option Str) : (p : Property) → Option p.Value
  | .authId => some authid
  | .authzId => authzid
  | _ => none

/-- Extension attributes, each after a comma. -/
def extensions (exts : List Bytes) : Bytes := exts.flatMap (fun e => b!"," ++ e)

/-- A client-first message as the server reads it: its fields, with whatever attributes follow. -/
structure ClientFirstRead (b : Bytes) (flag : CbFlag) (key : Bytes) (authzid : Option Str)
    (user : Str) (cnonce : Bytes) (exts : List Bytes) : Prop where
  message : b = flagBytes flag ++ b!"," ++ authzidBytes key authzid ++ b!"," ++
    clientFirstBare user cnonce ++ extensions exts
  key_length : key.length = 2
  commas : 44 ∉ flagBytes flag ∧ 44 ∉ authzidBytes key authzid ∧ 44 ∉ Str.bytes user ∧
    44 ∉ cnonce ∧ ∀ e ∈ exts, 44 ∉ e

/-- `data` is the server's own channel binding data for what the client's flag says: none at all,
or for the named type what the protocol's or the user's callback (see `log`) supplied. -/
def OwnBinding (env : Env) (log : List Event) : CbFlag → Bytes → Prop
  | .used name, data => env.chanbind (asciiStr name) = some data ∨
      (env.chanbind (asciiStr name) = none ∧ .answered .channelBindings data ∈ log)
  | _, data => data = []

/-- The call `c` made the server send its first message; `rng` is what the random number generator
was to deliver. -/
structure ServerFirstSent (rng : Nat → Nat) (c : Call) (r : Reply State)
    (cnonce snonce salt64 it64 : Bytes) : Prop where
  running : r.res = .ok .running
  fresh : snonce = drawnNonce rng
  length : snonce.length = 24
  printable : ∀ b ∈ snonce, Printable b
  sent : r.out <+: serverFirst (cnonce ++ snonce) salt64 it64
  whole : Cooperative c.sched → r.out = serverFirst (cnonce ++ snonce) salt64 it64

/-- `it64` is a stored iteration count in decimal. -/
def storedCount (stored : StoredPassword) : Bytes := Str.bytes (decimal stored.iterations)

/-- The client has proven that it knows the key: it repeated the nonce, its channel binding data is
the gs2 header with the server's own data, and its proof is right for `auth`. `proof` is what the
last attribute decodes to, extended by zeros to the hash's length. -/
structure ProofGiven (d : Digest) (stored : StoredPassword) (bound nonce auth b : Bytes)
    (exts : List Bytes) (given proof : Bytes) : Prop where
  message : b = clientFinalBare (Base64.encode bound) nonce ++ extensions exts ++ b!",p=" ++
    Base64.encode given
  exts_ok : ∀ e ∈ exts, 44 ∉ e
  fits : given.length ≤ d.outLen
  padded : proof = given ++ List.replicate (d.outLen - given.length) 0
  proven : d.hash (List.zipWith (· ^^^ ·) proof (d.hmac stored.storedKey auth)) = stored.storedKey

end Rsasl.Spec

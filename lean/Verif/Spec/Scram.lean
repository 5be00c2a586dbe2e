/-
SCRAM according to RFC 5802, as far as the properties need it.
-/
import Verif.Model.Mech.ScramTools
import Verif.Model.World

namespace Rsasl.Spec

/-- RFC 5802 section 5.1: `text` is the name `name` with ',' written as "=2C" and '=' as "=3D".
NUL can not be written. -/
inductive Escapes : Str → Str → Prop where
  | nil : Escapes [] []
  | comma {name text : Str} (h : Escapes name text) :
      Escapes (',' :: name) ('=' :: '2' :: 'C' :: text)
  | equals {name text : Str} (h : Escapes name text) :
      Escapes ('=' :: name) ('=' :: '3' :: 'D' :: text)
  | other {name text : Str} (c : Char) (h1 : c ≠ ',') (h2 : c ≠ '=') (h3 : c ≠ '\x00')
      (h : Escapes name text) : Escapes (c :: name) (c :: text)

/-- RFC 5802 section 7, `saslname` (possibly empty): safe characters, "=2C" and "=3D". -/
inductive SaslName : Str → Prop where
  | nil : SaslName []
  | comma {text : Str} (h : SaslName text) : SaslName ('=' :: '2' :: 'C' :: text)
  | equals {text : Str} (h : SaslName text) : SaslName ('=' :: '3' :: 'D' :: text)
  | safe {text : Str} (c : Char) (h1 : c ≠ ',') (h2 : c ≠ '=') (h3 : c ≠ '\x00')
      (h : SaslName text) : SaslName (c :: text)

/-- RFC 5802 section 7, `printable`: visible ASCII without the comma. -/
def Printable (b : UInt8) : Prop := 0x21 ≤ b.toNat ∧ b.toNat ≤ 0x7e ∧ b ≠ 44

/-- RFC 5802 section 7, `client-first-message-bare` without extensions. -/
def clientFirstBare (user : Str) (nonce : Bytes) : Bytes :=
  b!"n=" ++ Str.bytes user ++ b!",r=" ++ nonce

/-- RFC 5802 section 7, `server-first-message` without extensions. -/
def serverFirst (nonce salt iterations : Bytes) : Bytes :=
  b!"r=" ++ nonce ++ b!",s=" ++ salt ++ b!",i=" ++ iterations

/-- RFC 5802 section 7, `client-final-message-without-proof` without extensions. -/
def clientFinalBare (cb64 nonce : Bytes) : Bytes := b!"c=" ++ cb64 ++ b!",r=" ++ nonce

/-- RFC 5802 section 3: `AuthMessage := client-first-message-bare + "," + server-first-message +
"," + client-final-message-without-proof`. -/
def authMessage (clientFirstBare serverFirst clientFinalBare : Bytes) : Bytes :=
  clientFirstBare ++ b!"," ++ serverFirst ++ b!"," ++ clientFinalBare

/-- The decimal digits of `n`, possibly after a plus sign and with leading zeros. -/
def Decimal (text : Str) (n : Nat) : Prop :=
  ∃ digits : Str, (text = digits ∨ text = '+' :: digits) ∧ digits ≠ [] ∧
    (∀ c ∈ digits, '0' ≤ c ∧ c ≤ '9') ∧
    n = digits.foldl (fun m c => 10 * m + (c.toNat - '0'.toNat)) 0

section

open Scram

/-- RFC 5802 section 3: `ClientKey := HMAC(SaltedPassword, "Client Key")`. -/
def clientKey (d : Digest) (salted : Bytes) : Bytes := d.hmac salted (b!"Client Key")

/-- RFC 5802 section 3: `ServerKey := HMAC(SaltedPassword, "Server Key")`. -/
def serverKey (d : Digest) (salted : Bytes) : Bytes := d.hmac salted (b!"Server Key")

/-- RFC 5802 section 3: `ClientProof := ClientKey XOR HMAC(H(ClientKey), AuthMessage)`. -/
def clientProof (d : Digest) (ck auth : Bytes) : Bytes :=
  List.zipWith (· ^^^ ·) ck (d.hmac (d.hash ck) auth)

/-- The keys `ck` and `sk` are what the user's callback answered in `log`: cached keys, a salted
password, or a password to be salted with `salt` and `iterations`. -/
def KeysFrom (d : Digest) (salt : Bytes) (iterations : UInt32) (log : List Event)
    (ck sk : Bytes) : Prop :=
  (∃ c : CachedPassword, .answered .scramCachedPassword c ∈ log ∧
    ck = c.clientKey ∧ sk = c.serverKey) ∨
  (∃ salted : Bytes, .answered .saltedPassword salted ∈ log ∧
    ck = clientKey d salted ∧ sk = serverKey d salted) ∨
  (∃ password : Bytes, .answered .password password ∈ log ∧
    ck = clientKey d (d.pbkdf2 password salt iterations) ∧
    sk = serverKey d (d.pbkdf2 password salt iterations))

end

end Rsasl.Spec

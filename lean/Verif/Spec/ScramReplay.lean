/-
What the two sides of a SCRAM exchange take the exchange to be, and what it means that a digest has
a collision.
-/
import Verif.Spec.ScramSession
import Verif.Spec.ScramSteps

namespace Rsasl.Spec

open Scram

/-- `nonce` is the nonce attribute of a client-final message. -/
def FinalNonce (b nonce : Bytes) : Prop :=
  44 ∉ nonce ∧ ∃ cb rest : Bytes, 44 ∉ cb ∧ b = b!"c=" ++ cb ++ b!",r=" ++ nonce ++ b!"," ++ rest

/-- `nonce` is the nonce attribute of a server-first message. -/
def FirstNonce (b nonce : Bytes) : Prop := 44 ∉ nonce ∧ b!"r=" ++ nonce ++ b!"," <+: b

/-- Two different inputs with the same result. -/
structure Collision (f : Bytes → Bytes) (x y : Bytes) : Prop where
  differ : x ≠ y
  same : f x = f y

/-- What one side takes an exchange to be: the user name as it is written in messages, the two parts
of the nonce, the salt, the iteration count as it is written, and what the channel binding
attribute covers. -/
structure View where
  user : Str
  cnonce : Bytes
  snonce : Bytes
  salt : Bytes
  count : Bytes
  bound : Bytes
deriving DecidableEq

/-- RFC 5802 section 3, the auth message of such an exchange. -/
def View.auth (v : View) : Bytes :=
  authMessage (clientFirstBare v.user v.cnonce)
    (serverFirst (v.cnonce ++ v.snonce) (Base64.encode v.salt) v.count)
    (clientFinalBare (Base64.encode v.bound) (v.cnonce ++ v.snonce))

/-- A client has sent its two messages, while its log grew from `before` to `log`; `v` is the
exchange in its eyes, with the header and channel binding data it opened with, `ck` and `sk` are the
keys it was given in there. -/
def ClientTook (d : Digest) (env : Env) (rng : Nat → Nat) (plus : CbSupport) (before log : List Event)
    (c0 c1 : Call) (r0 r1 : Reply State) (v : View) (it : UInt32) (ck sk : Bytes) : Prop :=
  ∃ es0 es1 gs2 cb name b, log = before ++ es0 ++ es1 ∧
    (Cooperative c0.sched → ∃ o, opening env.chanbind (fun l ctx => env.callback l env.sd ctx) before
      plus = (.ok o, es0) ∧ v.bound = o.header ++ o.data) ∧
    v.bound = gs2 ++ cb ∧
    ClientFirstSent rng plus c0 r0 es0 gs2 cb name v.user v.cnonce ∧
    c1.input = some b ∧
    ServerParams v.cnonce b v.snonce (Base64.encode v.salt) v.count v.salt it ∧
    ClientFinalSent d c1 r1 es1 v.bound v.user v.cnonce v.snonce b v.salt it ck sk v.auth

/-- A server has accepted the proof `given`, while its log grew from `before` to `log`; `v` is the
exchange in its eyes, with its own channel binding data, `stored` what it was told in there is stored
for the user. -/
def ServerTook (d : Digest) (env : Env) (rng : Nat → Nat) (before log : List Event) (c0 c1 : Call)
    (r0 r1 : Reply State) (v : View) (stored : StoredPassword) (given : Bytes) : Prop :=
  ∃ b0 flag key authzid exts0 data b1 exts1 proof,
    (∃ es, log = before ++ es ∧ .answered .scramStoredPassword stored ∈ es ∧
      OwnBinding env es flag data) ∧
    v.bound = gs2Header flag authzid ++ data ∧
    c0.input = some b0 ∧ ClientFirstRead b0 flag key authzid v.user v.cnonce exts0 ∧
    v.salt = stored.salt ∧ v.count = storedCount stored ∧
    ServerFirstSent rng c0 r0 v.cnonce v.snonce (Base64.encode v.salt) v.count ∧
    c1.input = some b1 ∧
    ProofGiven d stored v.bound (v.cnonce ++ v.snonce) v.auth b1 exts1 given proof ∧
    r1.out <+: serverFinal d stored.serverKey v.auth ∧
    (Cooperative c1.sched → r1.out = serverFinal d stored.serverKey v.auth)

end Rsasl.Spec

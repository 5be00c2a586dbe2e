/-
Which random numbers a session draws.
-/
import Verif.Spec.Reads
import Verif.Spec.Session
import Verif.Spec.Scram

namespace Rsasl

/-- The bytes a call has written. -/
def Answer.out : Answer → Bytes
  | .state r => r.out
  | .count r => r.out
  | .value _ => []

namespace Spec

/-- All of the calls `ops` together draw `k` random numbers and depend on no others. -/
def Consumes (m : Mech) (env : Env) (ses : Session m.S) (ops : List Op) (k : Nat) : Prop :=
  ∀ rng : Nat → Nat, (∀ i < k, rng i = ses.rng i) →
    Session.performAll m env { ses with rng := rng } ops =
      ((ses.performAll m env ops).1,
        { (ses.performAll m env ops).2 with rng := fun i => rng (i + k) })

/-- How many numbers a client's session may draw in its life: 24 for SCRAM's nonce. -/
def clientDraws (a : Auth) : List Nat := if a.isScram then [0, 24] else [0]

/-- How many numbers a server's session may draw in its life: 24 for SCRAM's nonce, and 32 for the
salt of a user it doesn't know. -/
def serverDraws (a : Auth) : List Nat := if a.isScram then [0, 24, 56] else [0]

/-- A session of one of the crate's mechanisms that may draw as many numbers as `l` says. -/
def MayDraw (deps : Deps) (st : Started) (l : List Nat) : Prop :=
  ∃ a : Auth, a.startClient deps = some st ∧ l = clientDraws a ∨
    a.startServer deps = some st ∧ l = serverDraws a

end Spec

end Rsasl

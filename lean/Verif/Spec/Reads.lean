/-
What a user of a session can do with it, and which validation value it then holds.
-/
import Verif.Spec.Validate

namespace Rsasl

/-- The first value set under the session's `Validation` type in the validate calls among the
events `es`, which follow `h`. -/
def Spec.firstSet (env : Env) : List Event → List Event → Option VVal
  | _, [] => none
  | h, .validated ctx :: es =>
    (Spec.firstValue env.vtag (env.validate h env.sd ctx)).or
      (Spec.firstSet env (h ++ [.validated ctx]) es)
  | h, e :: es => Spec.firstSet env (h ++ [e]) es

/-- A call of a session's method. -/
inductive Op where
  | step (c : Call)
  | step64 (c : Call)
  | encode (input : Bytes) (sched : List WResp)
  | decode (input : Bytes) (sched : List WResp)
  | validation

/-- What such a call gives back. -/
inductive Answer where
  | state (r : Reply State)
  | count (r : Reply Nat)
  | value (v : Option VVal)

/-- Make a call. -/
def Session.perform (m : Mech) (env : Env) (s : Session m.S) : Op → Answer × Session m.S
  | .step c => (.state (s.step m env c).1, (s.step m env c).2)
  | .step64 c => (.state (s.step64 m env c).1, (s.step64 m env c).2)
  | .encode i sched => (.count (s.encode m i sched).1, (s.encode m i sched).2)
  | .decode i sched => (.count (s.decode m i sched).1, (s.decode m i sched).2)
  | .validation => (.value s.validation.1, s.validation.2)

/-- Make a sequence of calls: all answers and the session afterwards. -/
def Session.performAll (m : Mech) (env : Env) : Session m.S → List Op → List Answer × Session m.S
  | s, [] => ([], s)
  | s, op :: ops =>
    let (a, s) := s.perform m env op
    let (as, s) := Session.performAll m env s ops
    (a :: as, s)

/-- The session after a sequence of calls. -/
abbrev Session.afterAll (m : Mech) (env : Env) (s : Session m.S) (ops : List Op) : Session m.S :=
  (Session.performAll m env s ops).2

end Rsasl

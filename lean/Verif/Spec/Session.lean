/-
Vocabulary for properties of whole sessions.
-/
import Verif.Model.Link
import Verif.Spec.Callback
import Verif.Spec.Errs
import Verif.Spec.Supplies

namespace Rsasl

namespace Spec

/-- Every call returned `Running`. -/
def AllRunning (rs : List (Reply State)) : Prop := ∀ r ∈ rs, r.res = .ok .running

/-- The last call returned `Finished`, all before it `Running`. -/
def Completed (rs : List (Reply State)) : Prop :=
  ∃ rs' r k, rs = rs' ++ [r] ∧ AllRunning rs' ∧ r.res = .ok (.finished k)

/-- How many calls returned `Running`. -/
def runningCount : List (Reply State) → Nat
  | [] => 0
  | r :: rs => (match r.res with
    | .ok .running => 1
    | _ => 0) + runningCount rs

/-- A session of one of the crate's mechanisms on the server's side. -/
def BuiltinServer (deps : Deps) (st : Started) : Prop :=
  ∃ a : Auth, a.startServer deps = some st

/-- A session of one of the crate's mechanisms on the client's side. -/
def BuiltinClient (deps : Deps) (st : Started) : Prop :=
  ∃ a : Auth, a.startClient deps = some st

/-- The user's callback does not itself invent the error `InputDataRequired`. -/
def NoInventedIDR (env : Env) : Prop := env.Errs (fun e => e ≠ .inputDataRequired)

/-- The mechanisms of the crate: those of `Registry::default`, the `-PLUS` variants and GSSAPI. -/
def crateMechs : List Mechanism :=
  builtinMechs ++ [SCRAMPLUS .sha512, SCRAMPLUS .sha256, SCRAMPLUS .sha1, GSSAPI]

end Spec

/-- Is this a SCRAM implementation? -/
def Auth.isScram : Auth → Bool
  | .scramClient .. | .scramClientPlus .. | .scramServer .. | .scramServerPlus .. => true
  | _ => false

end Rsasl

/-
Who decides how a step ends.
-/
import Verif.Spec.Validate

namespace Rsasl.Spec

variable {S : Type}

/-- The step had nothing validated and left the session's value alone. -/
structure NoVerdict (s : Session S) (r : Reply State × Session S) : Prop where
  log : ∃ es, r.2.log = s.log ++ es ∧ ∀ ctx, .validated ctx ∉ es
  slot : r.2.slot = s.slot

/-- The step called `validate` exactly once, as the last thing it did, and returned what the callback
said: its error, or that the step succeeded. -/
def HasVerdict (env : Env) (s : Session S) (r : Reply State × Session S) : Prop :=
  ∃ es ctx st, (∀ c, .validated c ∉ es) ∧
    EndsValidated env { s with log := s.log ++ es } ctx st r.1.out r

/-- The callback refuses everyone, with an error of its choice. -/
def RefusesAll (env : Env) : Prop :=
  ∀ h ctx free, ∃ e, returned env.vtag free (env.validate h env.sd ctx) = .error e

end Rsasl.Spec

/-
Errors that are about the user's callback, and the contact each of them is about.
-/
import Verif.Spec.Order
import Verif.Spec.StepErrors

namespace Rsasl

namespace Spec

/-- The error is about what was last said to the callback: that it did not answer a request or take
what it was told, had no channel binding data, or did not validate. Other errors are about other
things. -/
def Blames : SessionError → List Contact → Prop
  | .callbackError (.noCallback p), cs => cs.getLast? = some (.asks p) ∨ cs.getLast? = some (.tells p)
  | .missingChannelBindingData _, cs => cs.getLast? = some (.asks .channelBindings)
  | .validationError _, cs => cs.getLast? = some .shows
  | _, _ => True

/-- Not an error of the three. -/
def Blameless (e : SessionError) : Prop :=
  (∀ p, e ≠ .callbackError (.noCallback p)) ∧ (∀ n, e ≠ .missingChannelBindingData n) ∧
  ∀ v, e ≠ .validationError v

end Spec

end Rsasl

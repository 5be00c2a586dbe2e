/-
What a request comes to, told by the callback's program alone, where the mechanism takes the answer as it is
or objects to it.
-/
import Verif.Spec.Requests

namespace Rsasl.Spec

variable (p : Property) (objection : p.Value → Option SessionError)

/-- What an optional request for `p` gives the mechanism: an answer, no answer, or an error. The mechanism
has an objection to some answers, which the callback is told and may hide. -/
def settled (prog : CbProg) : Except SessionError (Option p.Value) :=
  match beginning p 0 prog with
  | .returns _ r =>
    match complaint r with
    | none => .ok none
    | some e => .error e
  | .answers _ v k =>
    match objection v with
    | none =>
      let t := sequel p (k (.error (.callbackError .earlyReturn)))
      match complaint t.result with
      | none => .ok (if t.answers = 0 then some v else none)
      | some e => .error e
    | some e =>
      match complaint (sequel p (k (.error e))).result with
      | none => .ok none
      | some e => .error e

/-- What a required one gives. -/
def settledNeed (prog : CbProg) : Except SessionError p.Value :=
  match settled p objection prog with
  | .ok (some v) => .ok v
  | .ok none => .error (.callbackError (.noCallback p))
  | .error e => .error e

/-- What happened meanwhile. -/
def settledLog (ctx : Provider) (prog : CbProg) : List Event :=
  match beginning p 0 prog with
  | .returns n _ => .asked p ctx :: List.replicate n (.evaluated p)
  | .answers n v k =>
    .asked p ctx :: List.replicate n (.evaluated p) ++ .answered p v ::
      List.replicate (sequel p (k (.error ((objection v).getD (.callbackError .earlyReturn))))).evaluated
        (.evaluated p)

end Rsasl.Spec

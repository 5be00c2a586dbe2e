/-
What a validate callback sets and returns, and what it means that a step ended in a validate
call.
-/
import Verif.Model.Session
import Verif.Spec.Callback

namespace Rsasl

/-- The first value of the session's `Validation` type that a validate callback sets, if the slot
was free when it was called. -/
def Spec.firstValue (vtag : Nat) : ValProg → Option VVal
  | .ret _ => none
  | .finalize t v k => if t = vtag then some v else firstValue vtag k
  | .with t f k =>
    if t = vtag then
      match f with
      | .ok v => some v
      | .error e => firstValue vtag (k (.error e))
    else firstValue vtag (k (.ok ()))
  | .is t k => firstValue vtag (k (decide (t = vtag)))

/-- What the callback finally returns; `free` says whether the slot is still free, in which case
`with` evaluates its closure. -/
def Spec.returned (vtag : Nat) : Bool → ValProg → Except ValidationError Unit
  | _, .ret r => r
  | free, .finalize t _ k => returned vtag (free && t != vtag) k
  | free, .with t f k =>
    if free && t == vtag then
      match f with
      | .ok _ => returned vtag false (k (.ok ()))
      | .error e => returned vtag true (k (.error e))
    else returned vtag free (k (.ok ()))
  | free, .is t k => returned vtag free (k (decide (t = vtag)))

/-- Only `vEvaluated` entries. -/
def VQuiet (es : List Event) : Prop := ∀ e ∈ es, ∃ t, e = .vEvaluated t

/-- The answer of the user's validate callback to the session `s` when offered `ctx`. -/
def Spec.verdict {S : Type} (env : Env) (s : Session S) (ctx : Provider) :
    Except ValidationError Unit :=
  Spec.returned env.vtag s.slot.isNone (env.validate s.log env.sd ctx)

/-- A step (or the rest of one, with the session being at `s`) wrote `out`, called validate exactly
once, with `ctx`, did nothing else observable, and then returned `st`, or the error the callback
returned. -/
structure EndsValidated {S : Type} (env : Env) (s : Session S) (ctx : Provider) (st : State)
    (out : Bytes) (r : Reply State × Session S) : Prop where
  log : ∃ es, VQuiet es ∧ r.2.log = s.log ++ .validated ctx :: es
  res : r.1.res = match Spec.verdict env s ctx with
    | .ok () => .ok st
    | .error e => .err (.validationError e)
  slot : r.2.slot = match s.slot with
    | some v => some v
    | none => Spec.firstValue env.vtag (env.validate s.log env.sd ctx)
  out : r.1.out = out

/-- The context offers exactly the given values. -/
def Provider.Exactly (ctx : Provider) (f : (p : Property) → Option p.Value) : Prop :=
  ∀ p, ctx.getRef p = f p

end Rsasl

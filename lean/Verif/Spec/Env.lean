/-
Environments whose callback answers every request for a property with a fixed value, or never.
-/
import Verif.Spec.Callback
import Verif.Spec.Validate

namespace Rsasl

/-- Whenever it is asked for `p`, the callback answers `v`. -/
def Env.Gives (env : Env) (p : Property) (v : p.Value) : Prop :=
  ∀ log ctx, Answers p v (env.callback log env.sd ctx)

/-- Whenever it is asked for `p`, the callback has nothing to say. -/
def Env.Lacks (env : Env) (p : Property) : Prop :=
  ∀ log ctx, Declines p (env.callback log env.sd ctx)

/-- `Gives` or `Lacks`. -/
def Env.Offers (env : Env) (p : Property) : Option p.Value → Prop
  | some v => env.Gives p v
  | none => env.Lacks p

/-- Whenever it is asked for `p` in a context offering exactly `offer`, the callback answers `v`. -/
def Env.GivesAt (env : Env) (offer : (p : Property) → Option p.Value) (p : Property)
    (v : p.Value) : Prop :=
  ∀ log ctx, Provider.Exactly ctx offer → Answers p v (env.callback log env.sd ctx)

/-- Whenever it is asked for `p` in a context offering exactly `offer`, the callback has nothing to
say. -/
def Env.LacksAt (env : Env) (offer : (p : Property) → Option p.Value) (p : Property) : Prop :=
  ∀ log ctx, Provider.Exactly ctx offer → Declines p (env.callback log env.sd ctx)

theorem Env.Gives.at {env : Env} {p : Property} {v : p.Value} (h : env.Gives p v)
    (offer : (p : Property) → Option p.Value) : env.GivesAt offer p v := fun l c _ => h l c

theorem Env.Lacks.at {env : Env} {p : Property} (h : env.Lacks p)
    (offer : (p : Property) → Option p.Value) : env.LacksAt offer p := fun l c _ => h l c

/-- The callback satisfies, in this order, the given properties and nothing else. The typical
callback of an application. -/
def answerAll : List PV → CbProg
  | [] => .ret (.ok ())
  | pv :: rest => .satisfy pv.prop pv.val fun
    | .error e => .ret (.error e)
    | .ok () => answerAll rest

theorem answers_answerAll {p : Property} {v : p.Value} (pvs : List PV)
    (pre post : List PV) (h : pvs = pre ++ ⟨p, v⟩ :: post) (hpre : ∀ pv ∈ pre, pv.prop ≠ p) :
    Answers p v (answerAll pvs) := by
  subst h
  induction pre with
  | nil => exact .satisfy _ (fun _ => rfl)
  | cons pv pre ih =>
    exact .skip _ _ _ (hpre pv (by simp)) (ih (fun q hq => hpre q (by simp [hq])))

theorem declines_answerAll {p : Property} (pvs : List PV) (h : ∀ pv ∈ pvs, pv.prop ≠ p) :
    Declines p (answerAll pvs) := by
  induction pvs with
  | nil => exact .ok
  | cons pv pvs ih =>
    exact .skip _ _ _ (h pv (by simp)) (ih (fun q hq => h q (by simp [hq])))

end Rsasl

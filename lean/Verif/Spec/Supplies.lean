/-
Which values a user callback may supply.
-/
import Verif.Model.Callback
import Verif.Spec.Validate

namespace Rsasl

/-- Whatever the callback is told, the values it offers for `p` are in `V`. -/
def CbProg.Supplies (p : Property) (V : p.Value → Prop) : CbProg → Prop
  | .ret _ => True
  | .satisfy q v k => (∀ h : q = p, V (h ▸ v)) ∧ ∀ r, (k r).Supplies p V
  | .satisfyWith q f k => (∀ (h : q = p) v, f = .ok v → V (h ▸ v)) ∧ ∀ r, (k r).Supplies p V
  | .getAction _ k => ∀ v, (k v).Supplies p V
  | .is _ k => ∀ b, (k b).Supplies p V

/-- The user's callback only ever offers values in `V` for `p`. -/
def Env.Supplies (env : Env) (p : Property) (V : p.Value → Prop) : Prop :=
  ∀ log ctx, (env.callback log env.sd ctx).Supplies p V

/-- The same in contexts offering exactly `offer`. -/
def Env.SuppliesAt (env : Env) (offer : (p : Property) → Option p.Value) (p : Property)
    (V : p.Value → Prop) : Prop :=
  ∀ log ctx, Provider.Exactly ctx offer → (env.callback log env.sd ctx).Supplies p V

theorem Env.Supplies.at {env : Env} {p : Property} {V : p.Value → Prop} (h : env.Supplies p V)
    (offer : (p : Property) → Option p.Value) : env.SuppliesAt offer p V := fun l c _ => h l c

theorem CbProg.supplies_true (p : Property) (prog : CbProg) : prog.Supplies p (fun _ => True) := by
  induction prog with
  | ret r => trivial
  | satisfy p v k ih => exact ⟨fun _ => trivial, ih⟩
  | satisfyWith p f k ih => exact ⟨fun _ _ _ => trivial, ih⟩
  | getAction p k ih => exact ih
  | is p k ih => exact ih

theorem Env.supplies_true (env : Env) (p : Property) : env.Supplies p (fun _ => True) :=
  fun _ _ => CbProg.supplies_true _ _

end Rsasl

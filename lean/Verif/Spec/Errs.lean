/-
Which errors a user callback may come up with.
-/
import Verif.Model.Callback

namespace Rsasl

/-- The callback returns only errors in `E`, as long as it is given only errors in `E` by the
requests it satisfies. -/
def CbProg.Errs (E : SessionError → Prop) : CbProg → Prop
  | .ret r => ∀ e, r = .error e → E e
  | .satisfy _ _ k => ∀ r, (∀ e, r = .error e → E e) → (k r).Errs E
  | .satisfyWith _ f k =>
    (∀ e, f = .error e → E e) ∧ ∀ r, (∀ e, r = .error e → E e) → (k r).Errs E
  | .getAction _ k => ∀ v, (k v).Errs E
  | .is _ k => ∀ b, (k b).Errs E

/-- The user's callback never returns an error outside of `E` of its own accord. -/
def Env.Errs (env : Env) (E : SessionError → Prop) : Prop :=
  ∀ log ctx, (env.callback log env.sd ctx).Errs E

theorem CbProg.errs_true (prog : CbProg) : prog.Errs (fun _ => True) := by
  induction prog with
  | ret r => exact fun _ _ => trivial
  | satisfy p v k ih => exact fun r _ => ih r
  | satisfyWith p f k ih => exact ⟨fun _ _ => trivial, fun r _ => ih r⟩
  | getAction p k ih => exact ih
  | is p k ih => exact ih

theorem Env.errs_true (env : Env) : env.Errs (fun _ => True) := fun _ _ => CbProg.errs_true _

end Rsasl

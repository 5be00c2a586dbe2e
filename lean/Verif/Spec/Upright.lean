/-
Callbacks that hand on what `satisfy` returns, and what the log looks like when they are asked.
-/
import Verif.Spec.Callback

namespace Rsasl

/-- Once the callback has tried to answer a request for `p` and got an error (which is also how it is
told that the request is answered), it returns that error: every use of `satisfy` is followed by `?`,
as the documentation of `satisfy` asks for (src/callback.rs:362-377). Until then it may do anything. -/
def CbProg.Upright (p : Property) : CbProg → Prop
  | .ret _ => True
  | .satisfy q _ k =>
    (q = p → ∀ e, k (.error e) = .ret (.error e)) ∧ (q ≠ p → (k (.ok ())).Upright p)
  | .satisfyWith q _ k =>
    (q = p → ∀ e, k (.error e) = .ret (.error e)) ∧ (q ≠ p → (k (.ok ())).Upright p)
  | .getAction _ k => (k none).Upright p
  | .is q k => (k (decide (q = p))).Upright p

/-- The user's callback is upright, whatever it is asked for and whatever happened before. -/
def Env.Upright (env : Env) : Prop := ∀ log ctx p, (env.callback log env.sd ctx).Upright p

/-- The events of one request: the callback is asked, evaluates closures of its own perhaps, and gives
an answer or none. -/
inductive Spec.Asked (p : Property) (ctx : Provider) : Option p.Value → List Event → Prop where
  | unanswered (es) (h : Quiet es) : Asked p ctx none (.asked p ctx :: es)
  | answered (v es) (h : Quiet es) : Asked p ctx (some v) (.asked p ctx :: es ++ [.answered p v])

end Rsasl

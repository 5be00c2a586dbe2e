/-
Writers and callbacks under which a message is written whole or the step fails.
-/
import Verif.Model.Session
import Verif.Spec.Io

namespace Rsasl

/-- An error caused by the writer: `SessionError::Io`, or what `serde_json` makes of it. -/
def FromWriter (e : SessionError) : Prop :=
  (∃ i, e = .io i) ∨ e = .mechanismError .oauthSerde

/-- The callback returns at once when answering a request gives it an error in `E`
(`request.satisfy(..)?`). -/
def CbProg.HandsOn (E : SessionError → Prop) : CbProg → Prop
  | .ret _ => True
  | .satisfy _ _ k => (∀ e, E e → k (.error e) = .ret (.error e)) ∧ ∀ r, (k r).HandsOn E
  | .satisfyWith _ _ k => (∀ e, E e → k (.error e) = .ret (.error e)) ∧ ∀ r, (k r).HandsOn E
  | .getAction _ k => ∀ r, (k r).HandsOn E
  | .is _ k => ∀ r, (k r).HandsOn E

/-- In every situation. -/
def Env.HandsOn (E : SessionError → Prop) (env : Env) : Prop :=
  ∀ log sd ctx, (env.callback log sd ctx).HandsOn E

end Rsasl

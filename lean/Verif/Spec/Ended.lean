/-
Sessions that are used after their end.
-/
import Verif.Model.Link

namespace Rsasl.Spec

/-- `Ok(State::Finished(_))`. -/
def IsFinished : Outcome State → Prop
  | .ok (.finished _) => True
  | _ => False

/-- The session is over: src/session.rs:102-106 asks for a fresh one after `Finished` or an error. -/
def IsEnd : Outcome State → Prop
  | .ok .running => False
  | _ => True

/-- The end is not an error of the writer. -/
def NotIo : Outcome State → Prop
  | .err (.io _) => False
  | _ => True

/-- Calls of `step` on a session in which some call got a result in `p` do nothing: none returns `Ok`,
nothing is written, the callback is not contacted and what validation left does not change. -/
def DeadAfter (p : Outcome State → Prop) (st : Started) : Prop :=
  ∀ (env : Env) (rng : Nat → Nat) (before after : List Call),
    (∃ r ∈ ((st.session rng).run st.mech env before).1, p r.res) →
    let ses := ((st.session rng).run st.mech env before).2
    (∀ r ∈ (ses.run st.mech env after).1, (∀ s, r.res ≠ .ok s) ∧ r.out = []) ∧
    (ses.run st.mech env after).2.log = ses.log ∧ (ses.run st.mech env after).2.slot = ses.slot

end Rsasl.Spec

/-
Calls of `step` without input.
-/
import Verif.Spec.Reads
import Verif.Model.Link

namespace Rsasl.Spec

/-- Some call among these got an `Ok` from a step. -/
def Stepped (as : List Answer) : Prop := ∃ s out, .state ⟨.ok s, out⟩ ∈ as

/-- The contract of src/mechanism.rs:38-46, most important part: a call without input, unless it is
the call that makes the side that goes first begin, does not return `Ok(Running)`. -/
def NotRunning (st : Started) (first : Bool) : Prop :=
  ∀ (env : Env) (rng : Nat → Nat) (ops : List Op) (sched : List WResp),
    (first = true → Stepped ((st.session rng).performAll st.mech env ops).1) →
    (((st.session rng).afterAll st.mech env ops).step st.mech env ⟨none, sched⟩).1.res ≠ .ok .running

/-- The contract in full: such a call returns an error, while the exchange is going on. -/
def RefusesNothing (st : Started) (first : Bool) : Prop :=
  ∀ (env : Env) (rng : Nat → Nat) (calls : List Call) (sched : List WResp),
    (∀ r ∈ ((st.session rng).run st.mech env calls).1, r.res = .ok .running) →
    (first = true → calls ≠ []) →
    ∃ e, ((((st.session rng).run st.mech env calls).2).step st.mech env ⟨none, sched⟩).1.res = .err e

end Rsasl.Spec

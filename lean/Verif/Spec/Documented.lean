/-
What the client of the documentation is expected to do.
-/
import Verif.Model.Documented
import Verif.Spec.Session

namespace Rsasl.Spec

open Documented

/-- The first `n` calls the loop can make: the first with `data`, every further one with what the
other side has sent. -/
def loopCalls (p : Protocol) : Option Bytes → Nat → Nat → List Call
  | _, _, 0 => []
  | data, i, n + 1 => ⟨data, p.sched i⟩ :: loopCalls p (p.more i) (i + 1) n

/-- All replies but the last are `Running`, the last one is `res`. -/
def EndsWith (rs : List (Reply State)) (res : Outcome State) : Prop :=
  ∃ rs' r, rs = rs' ++ [r] ∧ AllRunning rs' ∧ r.res = res

/-- How the loop ended is how its last call ended. -/
def LoopEnds (fuel : Nat) (rs : List (Reply State)) : Ended → Prop
  | .done => Completed rs
  | .stepErrored e => EndsWith rs (.err e)
  | .panicked => EndsWith rs .panic
  | .unfinished => AllRunning rs ∧ rs.length = fuel
  | .noMechanism => False

end Rsasl.Spec

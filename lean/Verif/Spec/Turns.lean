/-
Two sessions driven by the documented loop: what a step has to say is handed to the other side, and a
side that has finished is not called again.
-/
import Verif.Spec.Talk

namespace Rsasl.Spec

/-- How a conversation ends. -/
inductive Ending where
  /-- there were not enough turns -/
  | unfinished
  /-- a step of this side failed -/
  | failed (who : Side)
  /-- both sides have finished, and all messages have arrived -/
  | both
  /-- this side waits for a message, but the other side has finished without sending one -/
  | waiting (who : Side)
  /-- this side has a message, but the other side has finished already -/
  | stray (who : Side)
deriving DecidableEq

/-- The opposite side. -/
def other : Side → Side
  | .client => .server
  | .server => .client

/-- It is the turn of `a`, which is on side `who` and gets `input`; `done` tells that `b` has finished.
`State::has_sent_message` (src/session.rs:439-498) tells if there is a message to hand on, and
`State::is_running` if the side wants to be called again, as in the loop of src/lib.rs:160-171. One
turn per writer. -/
def takeTurns (who : Side) : List (List WResp) → Option Bytes → Party → Party → Bool → Ending
  | [], _, _, _, _ => .unfinished
  | w :: ws, input, a, b, done =>
    let r := a.step ⟨input, w⟩
    match r.1.res with
    | .ok .running =>
      if done then .stray who else takeTurns (other who) ws (some r.1.out) b r.2 false
    | .ok (.finished .yes) =>
      if done then .stray who else takeTurns (other who) ws (some r.1.out) b r.2 true
    | .ok (.finished .no) => if done then .both else .waiting (other who)
    | _ => .failed who

/-- Client and server, just started, talk to each other; `first` speaks first. -/
def conversation (first : Side) (client server : Started) (cenv senv : Env) (crng srng : Nat → Nat)
    (ws : List (List WResp)) : Ending :=
  match first with
  | .client => takeTurns .client ws none (start client cenv crng) (start server senv srng) false
  | .server => takeTurns .server ws none (start server senv srng) (start client cenv crng) false

end Rsasl.Spec

/-
Whether a step leaves a message to be sent, and what its state says about it.
-/
import Verif.Model.Link

namespace Rsasl.Spec

/-- The states after which the caller has to send something, src/session.rs:439-460, 493-498. -/
def tellsToSend : List State := [.running, .finished .yes]

/-- The mechanism waits for an answer to what it wrote, which is not empty. -/
def asksOn (coop : Prop) (s : State) (d : Bytes) : Prop := s = .running ∧ (coop → d ≠ [])

/-- The mechanism is done and wrote nothing. -/
def endsMute (s : State) (d : Bytes) : Prop := s = .finished .no ∧ d = []

/-- The state and message of a step of a client. If not `coop`, the writer may have stopped taking
data without an error. -/
def clientMessage (coop : Prop) (a : Auth) (s : State) (d : Bytes) : Prop :=
  match a with
  | .plain => s = .finished .yes ∧ d ≠ []
  | .login => s = .running ∨ s = .finished .yes
  | .external | .anonymous => s = .finished .yes
  | .xoauth2 | .oauthbearer => asksOn coop s d ∨ endsMute s d ∨ s = .finished .yes ∧ d = []
  | .gssapi => s = .running ∨ s = .finished .yes
  | .scramClient _ _ | .scramClientPlus _ => asksOn coop s d ∨ endsMute s d
  | _ => False

/-- The state and message of a step of a server. -/
def serverMessage (coop : Prop) (a : Auth) (s : State) (d : Bytes) : Prop :=
  match a with
  | .plain | .external | .anonymous => endsMute s d
  | .login => s = .running ∧ d ≠ [] ∨ endsMute s d
  | .xoauth2 | .oauthbearer | .gssapi => s = .running ∨ endsMute s d
  | .scramServer _ _ | .scramServerPlus _ =>
    asksOn coop s d ∨ s = .finished .yes ∧ (coop → d ≠ [])
  | _ => False

end Rsasl.Spec

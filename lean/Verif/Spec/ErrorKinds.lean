/-
What the kind of a mechanism error is documented to tell about the message (src/error.rs:10-24).
-/
import Verif.Model.Mech.ScramServer
import Verif.Spec.ScramWrong
import Verif.Spec.ScramAnswers
import Verif.Spec.StepErrors

namespace Rsasl.Spec

open Scram (CState SState)

/-- The callback comes up with no mechanism errors of its own; it may return those that a request
gives it. -/
def Plainspoken (env : Env) : Prop :=
  ∀ E : SessionError → Prop, (∀ e, e.isMechanismError = false → E e) → env.ErrsIn E

/-- `input` is a message the RFC allows to come next, for a client in this state. A client that has
not begun waits for no message. -/
def ClientGrammar : CState → Bytes → Prop
  | .initial _, _ => False
  | .clientFirst .., input => ∃ nonce salt count, ServerFirstMsg nonce salt count input
  | .serverFirst .., input => (∃ v, ServerFinalMsg v input) ∨
      ∃ (v : Str) (exts : List Bytes), Value v ∧ (∀ e ∈ exts, AttrVal e) ∧
        input = b!"e=" ++ Str.bytes v ++ tail exts

/-- The same for a server. -/
def ServerGrammar : SState → Bytes → Prop
  | .waitingClientFirst _, input => ∃ flag authzid user nonce, ClientFirstMsg flag authzid user nonce input
  | .waitingClientFinal _, input => ∃ cb nonce proof, ClientFinalMsg cb nonce proof input
  | .finished, _ => False

/-- What the documentation says of the kinds: `Parse` is a syntactical error, with `Protocol` the
message is syntactically valid, and `Outcome` is for an exchange that did complete and failed, which
only the other side's last message can say. -/
def KindTells (grammar : Prop) (said : Prop) (x : MechErr) : Prop :=
  match x.kind with
  | some .parse => ¬ grammar
  | some .protocol => grammar
  | some .outcome => said
  | none => True

/-- The message has the attributes that a client in this state looks for, whatever their values. -/
def ClientShape : CState → Bytes → Prop
  | .initial _, _ => False
  | .clientFirst .., input => ∃ nonce salt64 count, (44 ∉ nonce ∧ 44 ∉ salt64 ∧ 44 ∉ count) ∧
      input = serverFirst nonce salt64 count
  | .serverFirst .., input => ∃ v, input = b!"v=" ++ v ∨ input = b!"e=" ++ v

/-- The same for a server. -/
def ServerShape : SState → Bytes → Prop
  | .waitingClientFirst _, input => ∃ flag authzid start user nonce exts,
      Gs2Start flag authzid start ∧ 44 ∉ Str.bytes user ∧ (∀ b ∈ nonce, Printable b) ∧
      (∀ e ∈ exts, 44 ∉ e) ∧
      input = start ++ b!"n=" ++ Str.bytes user ++ b!",r=" ++ nonce ++ tail exts
  | .waitingClientFinal _, input => ∃ cb64 nonce proof64 exts,
      (44 ∉ cb64 ∧ 44 ∉ nonce ∧ 44 ∉ proof64) ∧ (∀ e ∈ exts, Skipped e) ∧
      input = clientFinalBare cb64 nonce ++ tail exts ++ b!",p=" ++ proof64
  | .finished, _ => False

end Rsasl.Spec

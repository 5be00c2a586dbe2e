/-
What it means for a mechanism to be usable with an offer.
-/
import Verif.Model.Registry

namespace Rsasl.Spec

/-- The mechanisms a registry can hold in practice: those of the crate, and external ones with
the plain name-matching selector. -/
def Known (m : Mechanism) : Prop :=
  m.select = .matches ∨ (∃ h, m = SCRAM h) ∨ ∃ h, m = SCRAMPLUS h

/-- When the registered mechanism `m` takes part in the selection: its name was offered; a
`-PLUS` mechanism also needs channel binding to be enabled; and a SCRAM mechanism, with channel
binding enabled, also takes part if only its `-PLUS` variant was offered. -/
def Usable (cb : Bool) (offered : List Bytes) (m : Mechanism) : Prop :=
  match m.select with
  | .matches => m.name ∈ offered
  | .scram h => m.name ∈ offered ∨ (cb = true ∧ h.plusName ∈ offered)
  | .scramPlus _ => cb = true ∧ m.name ∈ offered

instance (cb : Bool) (offered : List Bytes) (m : Mechanism) : Decidable (Usable cb offered m) := by
  unfold Usable
  cases m.select <;> exact inferInstance

/-- The implementation a selected mechanism is started with. A SCRAM client is told that the
server does not do channel binding (`false`) exactly if channel binding is enabled here and the
`-PLUS` variant was not offered. Starting a mechanism without a client side panics. -/
def authFor (cb : Bool) (offered : List Bytes) (m : Mechanism) : Start Auth :=
  match m.select with
  | .scram h => .ok (.scramClient h (!cb || decide (h.plusName ∈ offered)))
  | _ =>
    match m.client with
    | some (.ok a) => .ok a
    | some (.error e) => .err e
    | none => .panic

end Rsasl.Spec

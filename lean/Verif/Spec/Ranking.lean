/-
Preferences that rank mechanisms.
-/
import Verif.Model.Registry

namespace Rsasl.Spec

/-- The preference goes by the rank `f`: what is held so far (`none` at the beginning) is kept
exactly if it has a higher rank than the mechanism looked at. -/
def RankedBy (f : Option Mechanism → Nat) (prefer : Prefer) : Prop :=
  ∀ held m, prefer held m = .gt ↔ f (some m) < f held

/-- The rank of the default preference: the priority, src/registry.rs:52-67. -/
def byPriority : Option Mechanism → Nat
  | none => 0
  | some m => m.priority

/-- The client takes the two offers differently with the same mechanism `m`: it is a SCRAM
mechanism, channel binding is enabled here, and its `-PLUS` variant is in only one of them. -/
def FlagChanges (cb : Bool) (offered offered' : List Bytes) (m : Mechanism) : Prop :=
  ∃ x : Hash, m = SCRAM x ∧ cb = true ∧
    ¬ (x.plusName ∈ offered ↔ x.plusName ∈ offered')

/-- Some registered mechanism could look at the name `n`. -/
def Concerns (mechs : List Mechanism) (n : Bytes) : Prop :=
  ∃ m ∈ mechs, n = m.name ∨ ∃ x : Hash, m = SCRAM x ∧ n = x.plusName

end Rsasl.Spec

/-
When a GSSAPI client and a GSSAPI server come to an agreement, told by what the callbacks do.
-/
import Verif.Spec.GssSteps
import Verif.Spec.SimpleMeets

namespace Rsasl.Spec

open Gssapi

variable (lib : Lib)

/-- An exchange with a token each way: the server answers, the client has nothing more to say, and then they agree
about a layer. -/
def gssExchange (cenv senv : Env) (c : Session (CState lib)) (s : Session (SState lib)) (w : Fin 6 → List WResp) :
    Option (Session (CState lib) × Session (SState lib)) :=
  (passed (c.step (client lib) cenv ⟨none, w 0⟩)).bind fun (m₁, c) =>
  (passed (s.step (server lib) senv ⟨some m₁, w 1⟩)).bind fun (m₂, s) =>
  (passed (c.step (client lib) cenv ⟨some m₂, w 2⟩)).bind fun (m₃, c) =>
  (passed (s.step (server lib) senv ⟨some m₃, w 3⟩)).bind fun (m₄, s) =>
  (passed (c.step (client lib) cenv ⟨some m₄, w 4⟩)).bind fun (m₅, c) =>
  (passed (s.step (server lib) senv ⟨some m₅, w 5⟩)).map fun (_, s) => (c, s)

/-- An exchange with a single token, to which the server answers with its offer. -/
def gssShortExchange (cenv senv : Env) (c : Session (CState lib)) (s : Session (SState lib)) (w : Fin 4 → List WResp) :
    Option (Session (CState lib) × Session (SState lib)) :=
  (passed (c.step (client lib) cenv ⟨none, w 0⟩)).bind fun (m₁, c) =>
  (passed (s.step (server lib) senv ⟨some m₁, w 1⟩)).bind fun (m₂, s) =>
  (passed (c.step (client lib) cenv ⟨some m₂, w 2⟩)).bind fun (m₃, c) =>
  (passed (s.step (server lib) senv ⟨some m₃, w 3⟩)).map fun (_, s) => (c, s)

/-- Contexts that get complete with a token each way, with these flags, and are connected then. -/
def TokenEachWay (R : lib.Ctx → lib.Ctx → Prop) (flC flS : Flags) (c₀ : lib.Ctx) : Prop :=
  ∃ d₀ t₁ c₁ t₂ d t₃ c, lib.newServer = .ok d₀ ∧
    lib.clientStep c₀ none = (.ok t₁, c₁) ∧ lib.isComplete c₁ = false ∧
    lib.serverStep d₀ (t₁.getD []) = (.ok (some t₂), d) ∧ lib.isComplete d = true ∧ lib.flags d = .ok flS ∧
    lib.clientStep c₁ (some t₂) = (.ok t₃, c) ∧ lib.isComplete c = true ∧ lib.flags c = .ok flC ∧ R c d

/-- Contexts that get complete with a single token. -/
def TokenOneWay (R : lib.Ctx → lib.Ctx → Prop) (flC flS : Flags) (c₀ : lib.Ctx) : Prop :=
  ∃ d₀ t₁ d c, lib.newServer = .ok d₀ ∧
    lib.clientStep c₀ none = (.ok t₁, c) ∧ lib.isComplete c = true ∧ lib.flags c = .ok flC ∧
    lib.serverStep d₀ (t₁.getD []) = (.ok none, d) ∧ lib.isComplete d = true ∧ lib.flags d = .ok flS ∧ R c d

/-- The client's callback has a service and a host, for which there are credentials. Neither callback makes trouble when
it is asked for acceptable layers, and there is a layer that both accept and the server's context can do. (There are
three layers.) -/
def GssAgree (flC flS : Flags) (cenv senv : Env) (c : Session (CState lib)) (s : Session (SState lib)) : Prop :=
  let asks l := cenv.callback l cenv.sd .empty
  let l₁ := settledLog .gssService fine .empty (asks c.log)
  let l₂ := l₁ ++ settledLog .hostname fine .empty (asks (c.log ++ l₁))
  ∃ service host context ours theirs offer,
    settledNeed .gssService fine (asks c.log) = .ok service ∧
    settledNeed .hostname fine (asks (c.log ++ l₁)) = .ok host ∧
    lib.newClient (Str.bytes (service ++ c!"@" ++ host)) = .ok context ∧
    settled .gssSecurityLayer (objection (.ok flC)) (asks (c.log ++ l₂)) = .ok ours ∧
    settled .gssSecurityLayer fine (senv.callback s.log senv.sd .empty) = .ok theirs ∧
    Leaves flS (orAll theirs).bits offer ∧ offer.toNat < 8 ∧
    ∃ layer, Allows (orAll ours).bits layer ∧ Allows offer layer

end Rsasl.Spec

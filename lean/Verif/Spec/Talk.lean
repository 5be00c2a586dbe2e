/-
Two sessions connected to each other, started as users start them.
-/
import Verif.Model.Link
import Verif.Spec.Validate
import Verif.Spec.Io

namespace Rsasl.Spec

/-- A session with its mechanism and environment. -/
structure Party where
  mech : Mech
  env : Env
  ses : Session mech.S

/-- A session that has just been started. -/
def start (s : Started) (env : Env) (rng : Nat → Nat) : Party := ⟨s.mech, env, s.session rng⟩

/-- One step of a party. -/
def Party.step (p : Party) (c : Call) : Reply State × Party :=
  let r := p.ses.step p.mech p.env c
  (r.1, ⟨p.mech, p.env, r.2⟩)

/-- Two parties talk: the first gets `input`, and what one writes is the other's next input. One turn
per writer. The result is all replies and both parties, in the same order. -/
def talk : List (List WResp) → Option Bytes → Party → Party → List (Reply State) × Party × Party
  | [], _, a, b => ([], a, b)
  | w :: ws, input, a, b =>
    let r := a.step ⟨input, w⟩
    let rest := talk ws (some r.1.out) b r.2
    (r.1 :: rest.1, rest.2.2, rest.2.1)

/-- Offered exactly this, the validate callback sets the value `v` and is content. -/
def Accepts (env : Env) (offer : (p : Property) → Option p.Value) (v : VVal) : Prop :=
  ∀ log ctx, Provider.Exactly ctx offer →
    returned env.vtag true (env.validate log env.sd ctx) = .ok () ∧
    firstValue env.vtag (env.validate log env.sd ctx) = some v

/-- The mechanisms that come with the crate. -/
def shipped : List Mechanism :=
  [PLAIN, LOGIN, EXTERNAL, ANONYMOUS, XOAUTH2, OAUTHBEARER, GSSAPI, SCRAM .sha1, SCRAM .sha256,
    SCRAM .sha512, SCRAMPLUS .sha1, SCRAMPLUS .sha256, SCRAMPLUS .sha512]

/-- Client and server, started for a mechanism in which `first` speaks first, talk for `n` turns over
writers that take everything; the replies are `running` until the last two, which are `finished`, and
the server's application has the value `v`. -/
def Completes (n : Nat) (first : Side) (client server : Started) (cenv senv : Env) (v : VVal) : Prop :=
  ∀ (crng srng : Nat → Nat) (ws : List (List WResp)), ws.length = n + 2 →
    (∀ w ∈ ws, Cooperative w) →
    let r := match first with
      | .client => talk ws none (start client cenv crng) (start server senv srng)
      | .server =>
        let r := talk ws none (start server senv srng) (start client cenv crng)
        (r.1, r.2.2, r.2.1)
    r.1.map (·.res) =
      List.replicate n (.ok .running) ++ [.ok (.finished .yes), .ok (.finished .no)] ∧
    r.2.2.ses.slot = some v

end Rsasl.Spec

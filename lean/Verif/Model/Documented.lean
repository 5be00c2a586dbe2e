/-
The client shown in the documentation of the crate (`src/lib.rs`, "Protocol Implementations").
-/
import Verif.Model.Link

namespace Rsasl.Documented

/-- How `sasl_authenticate` ends. -/
inductive Ended where
  /-- it returns -/
  | done
  /-- `start_suggested(..).expect("no shared mechanisms")` panics -/
  | noMechanism
  /-- `step(..).expect("step errored!")` panics -/
  | stepErrored (e : SessionError)
  /-- a call of the crate panics -/
  | panicked
  /-- the loop has not ended within the given number of iterations -/
  | unfinished
deriving DecidableEq

/-- What the functions of the protocol bring: the writer, and the other side. -/
structure Protocol where
  /-- how the writer behaves in the `i`-th call of `step` -/
  sched : Nat → List WResp
  /-- `get_initial_auth_data` -/
  initial : Bytes
  /-- the `i`-th call of `get_more_auth_data` -/
  more : Nat → Option Bytes

/-- The loop of src/lib.rs:160-171, from its `i`-th iteration on, for at most `fuel` iterations: how it
ends, and what the calls of `step` gave. -/
def loop (m : Mech) (env : Env) (p : Protocol) : Nat → Nat → Option Bytes → Session m.S →
    Ended × List (Reply State)
  | 0, _, _, _ => (.unfinished, [])
  | fuel + 1, i, data, s =>
    let r := s.step m env ⟨data, p.sched i⟩
    match r.1.res with
    | .ok state =>
      if state.isRunning then
        let rest := loop m env p fuel (i + 1) (p.more i) r.2
        (rest.1, r.1 :: rest.2)
      else (.done, [r.1])
    | .err e => (.stepErrored e, [r.1])
    | .panic => (.panicked, [r.1])

/-- The first `data`, src/lib.rs:146-157. -/
def firstData (env : Env) (p : Protocol) : Option Bytes :=
  if env.areWeFirst then none else some p.initial

/-- `sasl_authenticate`, src/lib.rs:135-175. The callback of the configuration is the one in `env`,
which depends on the mechanism that is selected only by the session data. -/
def authenticate (deps : Deps) (config : Config) (env : Mechanism → Env) (rng : Nat → Nat)
    (offered : List Bytes) (p : Protocol) (fuel : Nat) : Ended × List (Reply State) :=
  match config.clientStart offered with
  | .err _ => (.noMechanism, [])
  | .panic => (.panicked, [])
  | .ok (a, m) =>
    match a.startClient deps with
    | none => (.panicked, [])
    | some client =>
      loop client.mech (env m) p fuel 0 (firstData (env m) p) (client.session rng)

end Rsasl.Documented

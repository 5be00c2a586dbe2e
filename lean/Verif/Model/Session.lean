/-
Sessions (`src/session.rs`) over an arbitrary mechanism (`src/mechanism.rs`).
-/
import Verif.Model.Callback
import Verif.Model.Base64

namespace Rsasl

/-- `trait Authentication`, src/mechanism.rs:24-114, with the mechanism's own state type.
`encode`, `decode` and `hasLayer` default as in src/mechanism.rs:84-113. -/
structure Mech where
  S : Type
  step : Env → Option Bytes → M S State
  encode : Bytes → M S Nat := fun _ => M.fail .noSecurityLayer
  decode : Bytes → M S Nat := fun _ => M.fail .noSecurityLayer
  hasLayer : S → Bool := fun _ => false

/-- `Session`, src/session.rs:40-45: mechanism state and validation slot. `rng` (the random
stream this session will draw from) and `log` (what was observable so far) belong to the model.
The fixed parts (configuration, channel binding callback, side, mechanism description) are in
`Env`. -/
structure Session (S : Type) where
  st : S
  slot : Option VVal := none
  rng : Nat → Nat
  log : List Event := []

/-- One call to `step`: its input and the behaviour of the writer passed in. -/
structure Call where
  input : Option Bytes
  sched : List WResp := []

/-- What a call gives back: the result and the bytes the writer accepted. -/
structure Reply (α : Type) where
  res : Outcome α
  out : Bytes

/-- Run a mechanism method on a session with a fresh writer. -/
def Session.exec {S α : Type} (s : Session S) (m : M S α) (sched : List WResp) :
    Reply α × Session S :=
  let (o, st, w) := m s.st { wr := ⟨[], sched⟩, rng := s.rng, slot := s.slot, log := s.log }
  (⟨o, w.wr.out⟩, { st := st, slot := w.slot, rng := w.rng, log := w.log })

/-- `Session::step`, src/session.rs:121-144. (The `if let` at 135-140 passes the same input on
either way.) -/
def Session.step (m : Mech) (env : Env) (s : Session m.S) (c : Call) :
    Reply State × Session m.S :=
  s.exec (m.step env c.input) c.sched

/-- `Session::step64`, src/session.rs:228-245. The mechanism writes into a base64
`EncoderWriter`; `c.sched` is how much that takes per call. Simplification: the outer writer
accepts everything, so the encoder ends up writing the encoding of what it took, at the latest
when it is dropped (also after an error). -/
def Session.step64 (m : Mech) (env : Env) (s : Session m.S) (c : Call) :
    Reply State × Session m.S :=
  match c.input with
  | some text =>
    match Base64.decode text with
    | none => (⟨.err .base64, []⟩, s)
    | some bytes =>
      let (r, s) := s.step m env { c with input := some bytes }
      (⟨r.res, Base64.encode r.out⟩, s)
  | none =>
    let (r, s) := s.step m env c
    (⟨r.res, Base64.encode r.out⟩, s)

/-- `Session::validation`, src/session.rs:159-161. -/
def Session.validation {S : Type} (s : Session S) : Option VVal × Session S :=
  (s.slot, { s with slot := none })

/-- `Session::has_security_layer`, src/session.rs:164-166. -/
def Session.hasSecurityLayer (m : Mech) (s : Session m.S) : Bool := m.hasLayer s.st

/-- `Session::encode`, src/session.rs:183-189. -/
def Session.encode (m : Mech) (s : Session m.S) (input : Bytes) (sched : List WResp) :
    Reply Nat × Session m.S :=
  s.exec (m.encode input) sched

/-- `Session::decode`, src/session.rs:206-212. -/
def Session.decode (m : Mech) (s : Session m.S) (input : Bytes) (sched : List WResp) :
    Reply Nat × Session m.S :=
  s.exec (m.decode input) sched

/-- `Session::are_we_first`, src/session.rs:77-79. -/
def Env.areWeFirst (env : Env) : Bool := env.sd.side == env.sd.mech.first

/-- A sequence of `step` calls on one session. -/
def Session.run (m : Mech) (env : Env) : Session m.S → List Call →
    List (Reply State) × Session m.S
  | s, [] => ([], s)
  | s, c :: cs =>
    let (r, s) := s.step m env c
    let (rs, s) := Session.run m env s cs
    (r :: rs, s)

end Rsasl

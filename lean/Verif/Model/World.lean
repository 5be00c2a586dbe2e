/-
The world a mechanism step acts on, and the small monad its code is written in.
-/
import Verif.Model.Io

namespace Rsasl

/-- Values stored by a `Validation` type (src/validate.rs:107-112), opaque to the library. -/
abbrev VVal := Bytes

/-- Observable events, oldest first in the log. -/
inductive Event where
  /-- the user callback was called with a satisfiable request for `p` -/
  | asked (p : Property) (ctx : Provider)
  /-- the user callback was called with an actionable request for `p` -/
  | notified (p : Property) (ctx : Provider)
  /-- the mechanism's closure consumed the answer `v` -/
  | answered (p : Property) (v : p.Value)
  /-- a `satisfy_with` closure of the user callback was evaluated -/
  | evaluated (p : Property)
  /-- `get_action` handed the value out -/
  | delivered (p : Property) (v : p.Value)
  /-- the user's `validate` callback was called -/
  | validated (ctx : Provider)
  /-- a `Validate::with` closure was evaluated -/
  | vEvaluated (tag : Nat)

/-- Everything outside of the mechanism's own state. -/
structure World where
  /-- the `writer` argument of `step` -/
  wr : Writer
  /-- `rand::thread_rng()`: the draws still to come -/
  rng : Nat → Nat
  /-- `Sasl.validation`, src/sasl.rs -/
  slot : Option VVal
  log : List Event

/-- Bytes accepted by the writer. -/
abbrev World.out (w : World) : Bytes := w.wr.out

/-- A computation with mechanism state `S`, as called through `&mut self`. State and world
changes stay in force when the call fails. -/
def M (S α : Type) := S → World → Outcome α × S × World

namespace M

variable {S α β : Type}

def pure (a : α) : M S α := fun s w => (.ok a, s, w)

def bind (m : M S α) (f : α → M S β) : M S β := fun s w =>
  match m s w with
  | (.ok a, s, w) => f a s w
  | (.err e, s, w) => (.err e, s, w)
  | (.panic, s, w) => (.panic, s, w)

instance : Monad (M S) where
  pure := M.pure
  bind := M.bind

/-- `return Err(e)` -/
def fail (e : SessionError) : M S α := fun s w => (.err e, s, w)

def panic : M S α := fun s w => (.panic, s, w)

def get : M S S := fun s w => (.ok s, s, w)

def set (s : S) : M S Unit := fun _ w => (.ok (), s, w)

def modify (f : S → S) : M S Unit := fun s w => (.ok (), f s, w)

/-- append an event to the log -/
def note (e : Event) : M S Unit := fun s w => (.ok (), s, { w with log := w.log ++ [e] })

/-- the log so far -/
def history : M S (List Event) := fun s w => (.ok w.log, s, w)

/-- catch an error (not a panic) -/
def attempt (m : M S α) : M S (Except SessionError α) := fun s w =>
  match m s w with
  | (.ok a, s, w) => (.ok (.ok a), s, w)
  | (.err e, s, w) => (.ok (.error e), s, w)
  | (.panic, s, w) => (.panic, s, w)

/-- `opt.ok_or(e)?` -/
def okOr (e : SessionError) : Option α → M S α
  | some a => M.pure a
  | none => M.fail e

/-- `res?` for a result of this crate's error type -/
def lift : Except SessionError α → M S α
  | .ok a => M.pure a
  | .error e => M.fail e

/-- `outcome?`, for helper functions that can also panic -/
def liftOutcome : Outcome α → M S α
  | .ok a => M.pure a
  | .err e => M.fail e
  | .panic => M.panic

/-- `writer.write_all(buf)?` -/
def writeAll (buf : Bytes) : M S Unit := fun s w =>
  match w.wr.writeAll buf with
  | (.ok (), wr) => (.ok (), s, { w with wr := wr })
  | (.error e, wr) => (.err (.io e), s, { w with wr := wr })

/-- `VectoredWriter::new(bufs).write_all_vectored(writer)?`; the returned count is ignored by
all callers in the crate. A loop without end is counted as a panic (never happens). -/
def writeVectored (bufs : List Bytes) : M S Unit := fun s w =>
  match (VectoredWriter.new bufs).writeAllVectored w.wr with
  | (.ok _, _, wr) => (.ok (), s, { w with wr := wr })
  | (.err e, _, wr) => (.err (.io e), s, { w with wr := wr })
  | (.panic, _, wr) => (.panic, s, { w with wr := wr })
  | (.diverge, _, wr) => (.panic, s, { w with wr := wr })

/-- draw `n` random numbers -/
def draw (n : Nat) : M S (List Nat) := fun s w =>
  (.ok ((List.range n).map w.rng), s, { w with rng := fun i => w.rng (i + n) })

/-- Run code with additional local variables `T` that its closures capture by `&mut`. -/
def withLocal {T : Type} (t : T) (m : M (S × T) α) : M S α := fun s w =>
  match m (s, t) w with
  | (o, (s, _), w) => (o, s, w)

end M

/-- `Side`, src/session.rs:14-17 -/
inductive Side where
  | client | server
deriving DecidableEq

/-- `MessageSent`, src/session.rs:493-498 -/
inductive MessageSent where
  | yes | no
deriving DecidableEq

/-- `State`, src/session.rs:439-460 -/
inductive State where
  | running
  | finished (m : MessageSent)
deriving DecidableEq

/-- src/session.rs:464-466 -/
def State.isRunning : State → Bool
  | .running => true
  | .finished _ => false

/-- src/session.rs:470-472 -/
def State.isFinished (s : State) : Bool := !s.isRunning

/-- src/session.rs:476-478 -/
def State.hasSentMessage : State → Bool
  | .running => true
  | .finished .yes => true
  | .finished .no => false

end Rsasl

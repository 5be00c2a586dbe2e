/-
The two example clients (`examples/client_simple.rs`, `examples/mechanism_selection.rs`).
-/
import Verif.Model.Builder
import Verif.Model.Link

namespace Rsasl.Example

/-- The bytes `BufRead::read_line` takes from the input (up to the first line feed, and with it) and
the bytes it leaves. -/
def takeLine : Bytes → Bytes × Bytes
  | [] => ([], [])
  | b :: rest => if b = 10 then ([b], rest) else ((b :: (takeLine rest).1), (takeLine rest).2)

/-- How `client_simple` ends: with `error: …` after a failed `read_line`, with the two last lines of
its output, or with a panic. -/
inductive Ended where
  | inputError
  | printed (buffer : Bytes) (asString : Option Str)
  | panicked
deriving DecidableEq

/-- The configuration with which `with_credentials` starts a session: the callback of
src/config.rs:130-168 and the mechanism selected. Clients do not validate. -/
def credentialEnv (m : Mechanism) (authid password : Str) : Env where
  callback _ _ _ := credentialCallback none authid password
  validate _ _ _ := .ret (.ok ())
  chanbind _ := none
  vtag := 0
  sd := ⟨m.desc, .client⟩

/-- examples/client_simple.rs:29-58: the session and what is printed of it. The writer is a `Cursor`,
which takes everything. -/
def authenticate (deps : Deps) (on : Build) (rng : Nat → Nat) (username password : Str) : Ended :=
  match on.withCredentials none with
  | .error _ => .panicked
  | .ok config =>
    match config.clientStart [b!"PLAIN"] with
    | .ok (a, m) =>
      match a.startClient deps with
      | none => .panicked
      | some client =>
        let r := (client.session rng).step client.mech (credentialEnv m username password) ⟨none, []⟩
        match r.1.res with
        | .ok (.finished .yes) => .printed r.1.out (fromUtf8 r.1.out)
        | _ => .panicked
    | _ => .panicked

/-- `main` of examples/client_simple.rs:11-59. The input has no errors of its own: `read_line` fails
exactly when the line is not UTF-8. -/
def clientSimple (deps : Deps) (on : Build) (rng : Nat → Nat) (stdin : Bytes) : Ended :=
  match fromUtf8 (takeLine stdin).1 with
  | none => .inputError
  | some username =>
    match fromUtf8 (takeLine (takeLine stdin).2).1 with
    | none => .inputError
    | some password => authenticate deps on rng username password

/-- `main` of examples/mechanism_selection.rs:3-18: what it prints; `none` if it panics. -/
def mechanismSelection (on : Build) : Option Bytes :=
  match on.withCredentials none with
  | .error _ => none
  | .ok config =>
    match config.clientStart
        [b!"LOGIN", b!"PLAIN", b!"GSSAPI", b!"SCRAM-SHA-1", b!"SCRAM-SHA-256"] with
    | .ok (_, m) => if m.name = b!"SCRAM-SHA-256" then some m.name else none
    | _ => none

end Rsasl.Example

/-
The tests of the interop crate against a running server (`interop/src/tests`), and the callback of its
client. Cargo does not build the tests: `src/tests` is no module of a target.
-/
import Verif.Model.Interop
import Verif.Model.ExampleClients

namespace Rsasl.Interop

/-- How `test_client` ends: it gives the last line of the server, or panics (in an `expect`, `unwrap`
or `assert!`). -/
inductive TestEnd where
  | outcome (line : Str)
  | panicked
deriving DecidableEq

/-- Everything written to the server, and the end. -/
structure TestRun where
  sent : Bytes
  res : TestEnd
deriving DecidableEq

/-- The loop of `test_client` and what follows it, interop/src/tests/common/mod.rs:55-79. The lines are
those the server will still send (and then disconnects). `sent` is what was written before. Writes to
the server succeed; what is printed is left out. The outer writer of `step64` is a `Vec`, so the
simplification of `Session.step64` applies (`C73_whole`). -/
def testLoop (m : Mech) (env : Env) : List Line → Session m.S → State → Bytes → TestRun
  | some line :: lines, ses, state, sent =>
    if state.isRunning then
      let (r, ses) := ses.step64 m env ⟨some (Str.bytes line), []⟩
      match r.res with
      | .ok state =>
        let buf := if state.hasSentMessage then r.out ++ b!"\n" else b!"-\n"
        match fromUtf8 buf with
        | some _ => testLoop m env lines ses state (sent ++ buf)
        | none => ⟨sent, .panicked⟩
      | _ => ⟨sent, .panicked⟩
    else ⟨sent, .outcome line⟩
  | _, _, _, sent => ⟨sent, .panicked⟩

/-- `test_client`, interop/src/tests/common/mod.rs:7-79, connected to a server. The configuration gives
the mechanisms and, for the one selected, the callbacks. -/
def testClient (deps : Deps) (cfg : Config) (env : Mechanism → Env) (rng : Nat → Nat)
    (mechanism : Bytes) : List Line → TestRun
  | some mechsLine :: lines =>
    if (words mechsLine).any (fun w => Str.bytes w = mechanism) then
      match cfg.clientStart [mechanism] with
      | .ok (a, m) =>
        match a.startClient deps with
        | some st =>
          if (env m).areWeFirst then
            let (r, ses) := (st.session rng).step64 st.mech (env m) ⟨none, []⟩
            match r.res with
            | .ok state =>
              if state.hasSentMessage then
                match fromUtf8 r.out with
                | some _ =>
                  testLoop st.mech (env m) lines ses state (mechanism ++ b!" " ++ r.out ++ b!"\n")
                | none => ⟨mechanism, .panicked⟩
              else testLoop st.mech (env m) lines ses state (mechanism ++ b!"\n")
            | _ => ⟨mechanism, .panicked⟩
          else testLoop st.mech (env m) lines (st.session rng) .running (mechanism ++ b!"\n")
        | none => ⟨[], .panicked⟩
      | _ => ⟨[], .panicked⟩
    else ⟨[], .panicked⟩
  | _ => ⟨[], .panicked⟩

/-- A test with credentials, such as `plain_client` (interop/src/tests/plain.rs:7-13), `login_client`
(login.rs:7-13) and `scram_client` (scram.rs:7-13), up to its `assert!`. -/
def credentialTest (deps : Deps) (rng : Nat → Nat) (mechanism : Bytes) (authid password : Str) :
    List Line → TestRun :=
  testClient deps (Config.withCredentials none) (fun m => Example.credentialEnv m authid password) rng
    mechanism

/-- The `assert!` of the tests, interop/src/tests/plain.rs:12, login.rs:12 and scram.rs:12. -/
def TestRun.passes (r : TestRun) : Bool :=
  match r.res with
  | .outcome line => (c!"OK").isPrefixOf line
  | .panicked => false

/-- The environment variables of the client's callback; `none` if one is not set (or not Unicode). -/
structure ClientVars where
  authid : Option Str := none
  password : Option Str := none
  authzid : Option Str := none
  cbname : Option Str := none
  cbdata : Option Str := none
  service : Option Str := none
  host : Option Str := none

/-- `EnvCallback::callback` of the client, interop/src/bin/client.rs:20-73. The two `unwrap`s in the
branch of the cached password are left out here: the model of callbacks has no panics. They fail if the
context lacks the salt or the iteration count (`C97_unwraps`). -/
def clientCallback (vars : ClientVars) : CbProg :=
  .is .authId fun
  | true => vars.authid.elim noVar (answer .authId)
  | false => .is .password fun
    | true => vars.password.elim noVar fun s => answer .password (Str.bytes s)
    | false => .is .authzId fun
      | true => vars.authzid.elim noVar (answer .authzId)
      | false => .is .overrideCBType fun
        | true => vars.cbname.elim noVar (answer .overrideCBType)
        | false => .is .channelBindings fun
          | true => vars.cbdata.elim noVar fun s => answer .channelBindings (Str.bytes s)
          | false => .is .scramCachedPassword fun
            | true => .getAction .scramCachedPassword fun _ => .ret (.ok ())
            | false => .is .gssService fun
              | true => vars.service.elim noVar (answer .gssService)
              | false => .is .hostname fun
                | true => vars.host.elim noVar (answer .hostname)
                | false => .ret (.ok ())

end Rsasl.Interop

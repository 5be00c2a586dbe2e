/-
LOGIN, EXTERNAL and ANONYMOUS (`src/mechanisms/{login,external,anonymous}`).
-/
import Verif.Model.Session

namespace Rsasl

namespace Login

/-- `LoginState` of the client, src/mechanisms/login/client.rs:9-13. -/
inductive CState where
  | authid | password | done
deriving DecidableEq

/-- `Login::step` of the client, src/mechanisms/login/client.rs:26-51. -/
def clientStep (env : Env) (_input : Option Bytes) : M CState State := do
  match ← M.get with
  | .authid => do
    needWith env .authId .empty (fun authid => M.writeAll (Str.bytes authid))
    M.set .password
    pure .running
  | .password => do
    needWith env .password .empty (fun password => M.writeAll password)
    M.set .done
    pure (.finished .yes)
  | .done => M.fail .mechanismDone

/-- `LoginState` of the server, src/mechanisms/login/server.rs:29-34. -/
inductive SState where
  | new | waitingForUsername | waitingForPassword (user : Str) | done
deriving DecidableEq

/-- src/mechanisms/login/server.rs:51 -/
def userPrompt : Bytes := b!"User Name\x00"

/-- src/mechanisms/login/server.rs:62 -/
def passwordPrompt : Bytes := b!"Password\x00"

/-- `LoginProvider`, src/mechanisms/login/server.rs:72-82. -/
def provider (authid : Str) (password : Bytes) : Provider :=
  .chain [⟨.authId, authid⟩, ⟨.password, password⟩]

/-- `Login::step` of the server, src/mechanisms/login/server.rs:43-96. -/
def serverStep (env : Env) (input : Option Bytes) : M SState State := do
  match ← M.get with
  | .new => do
    M.writeAll userPrompt
    M.set .waitingForUsername
    pure .running
  | .waitingForUsername =>
    match input with
    | some input => do
      let username ← M.okOr (.mechanismError .loginUtf8) (fromUtf8 input)
      M.writeAll passwordPrompt
      M.set (.waitingForPassword username)
      pure .running
    | none => M.fail .inputDataRequired
  | .waitingForPassword username =>
    match input with
    | some input => do
      validate env (provider username input)
      M.set .done
      pure (.finished .no)
    | none => M.fail .inputDataRequired
  | .done => M.fail .mechanismDone

/-- LOGIN, client side; starts as in src/mechanisms/login/client.rs:19-23. -/
def client : Mech := { S := CState, step := clientStep }

/-- LOGIN, server side; starts as in src/mechanisms/login/server.rs:36-40. -/
def server : Mech := { S := SState, step := serverStep }

end Login

namespace External

/-- src/mechanisms/external/client.rs:12-24 -/
def clientStep (env : Env) (_input : Option Bytes) : M Unit State := do
  let _ ← maybeNeedWith env .authzId .empty (fun authzid => M.writeAll (Str.bytes authzid))
  pure (.finished .yes)

/-- `input.unwrap_or(&[])` -/
def orEmpty : Option Bytes → Bytes
  | some b => b
  | none => []

/-- src/mechanisms/external/server.rs:23-33 -/
def serverStep (env : Env) (input : Option Bytes) : M Unit State := do
  let authzid ← M.okOr (.mechanismError .externalUtf8) (fromUtf8 (orEmpty input))
  validate env (.this ⟨.authzId, authzid⟩)
  pure (.finished .no)

def client : Mech := { S := Unit, step := clientStep }

def server : Mech := { S := Unit, step := serverStep }

end External

namespace Anonymous

/-- src/mechanisms/anonymous/client.rs:11-22 -/
def clientStep (env : Env) (_input : Option Bytes) : M Unit State := do
  let _ ← maybeNeedWith env .anonymousToken .empty (fun token => M.writeAll (Str.bytes token))
  pure (.finished .yes)

/-- src/mechanisms/anonymous/server.rs:22-34 -/
def serverStep (env : Env) (input : Option Bytes) : M Unit State := do
  let token ← M.okOr (.mechanismError .anonymousUtf8) (fromUtf8 (External.orEmpty input))
  validate env (.this ⟨.anonymousToken, token⟩)
  pure (.finished .no)

def client : Mech := { S := Unit, step := clientStep }

def server : Mech := { S := Unit, step := serverStep }

end Anonymous

end Rsasl

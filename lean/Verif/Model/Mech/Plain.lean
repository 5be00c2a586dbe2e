/-
PLAIN (`src/mechanisms/plain`).
-/
import Verif.Model.Session

namespace Rsasl.Plain

/-- `PlainError::X.into()` -/
def plainErr (e : PlainError) : SessionError := .mechanismError (.plain e)

/-- The AuthzId closure of src/mechanisms/plain/client.rs:20-28. -/
def clientAuthzid (authzid : Str) : M Unit Unit := do
  if authzid.contains '\x00' then M.fail (plainErr .containsNull)
  else M.writeAll authzid.bytes

/-- The AuthId closure, src/mechanisms/plain/client.rs:32-43. -/
def clientAuthid (authid : Str) : M Unit Unit := do
  if authid.isEmpty then M.fail (plainErr .empty)
  else if authid.contains '\x00' then M.fail (plainErr .containsNull)
  else M.writeAll authid.bytes

/-- The Password closure, src/mechanisms/plain/client.rs:47-58. -/
def clientPassword (password : Bytes) : M Unit Unit := do
  if password.isEmpty then M.fail (plainErr .empty)
  else if password.contains 0 then M.fail (plainErr .containsNull)
  else M.writeAll password

/-- `Plain::step` of the client, src/mechanisms/plain/client.rs:14-61. -/
def clientStep (env : Env) (_input : Option Bytes) : M Unit State := do
  let _ ← maybeNeedWith env .authzId .empty clientAuthzid
  M.writeAll [0]
  needWith env .authId .empty clientAuthid
  M.writeAll [0]
  needWith env .password .empty clientPassword
  pure (.finished .yes)

/-- `PlainProvider`, src/mechanisms/plain/server.rs:11-23. -/
def provider (authcid authzid : Str) (password : Bytes) : Provider :=
  .chain [⟨.authId, authcid⟩, ⟨.password, password⟩, ⟨.authzId, authzid⟩]

/-- `Plain::step` of the server, src/mechanisms/plain/server.rs:28-88. `prep` is
`stringprep::saslprep` (`none` on error). The three `split.next()` and the check for a fourth
part are written as one match on the list of parts. -/
def serverStep (prep : Str → Option Str) (env : Env) (input : Option Bytes) : M Unit State := do
  let input ← M.okOr .inputDataRequired input
  if input.length < 4 then M.fail (plainErr .badFormat)
  else
    match splitOn 0 input with
    | [authzid, authcid, password] => do
      let authzid ← M.okOr (plainErr .badAuthzid) (fromUtf8 authzid)
      let authcid ← M.okOr (plainErr .badAuthcid) (fromUtf8 authcid)
      let authcid ← M.okOr (plainErr .saslprep) (prep authcid)
      if authcid.isEmpty then M.fail (plainErr .empty)
      else
        match fromUtf8 password with
        | some password => do
          let password ← M.okOr (plainErr .saslprep) (prep password)
          if password.isEmpty then M.fail (plainErr .empty)
          else do
            validate env (provider authcid authzid (Str.bytes password))
            pure (.finished .no)
        | none =>
          if password.isEmpty then M.fail (plainErr .empty)
          else do
            validate env (provider authcid authzid password)
            pure (.finished .no)
    | _ => M.fail (plainErr .badFormat)

/-- PLAIN, client side. -/
def client : Mech := { S := Unit, step := clientStep }

/-- PLAIN, server side. -/
def server (prep : Str → Option Str) : Mech := { S := Unit, step := serverStep prep }

end Rsasl.Plain

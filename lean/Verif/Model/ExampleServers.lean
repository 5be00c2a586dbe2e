/-
The callbacks of the two example servers (`examples/server_plain.rs`, `examples/server_scram.rs`).
-/
import Verif.Model.Link

namespace Rsasl.Example

/-- `Result<String, AuthError>`, the value of `TestValidation`, examples/server_plain.rs:56-66 and
examples/server_scram.rs:57-67. -/
inductive Verdict where
  | ok (user : Str)
  | authzBad
  | passwdBad
  | noSuchUser
deriving DecidableEq

/-- Validation values are byte strings in the model: one for each verdict. -/
def Verdict.value : Verdict → VVal
  | .ok user => 0 :: Str.bytes user
  | .authzBad => [1]
  | .passwdBad => [2]
  | .noSuchUser => [3]

/-- The number of the type `TestValidation`. -/
def testValidation : Nat := 7

/-- `OurCallback::test_validate`, examples/server_plain.rs:20-52; `none` where one of the `expect`s
panics. -/
def plainVerdict (ctx : Provider) : Option Verdict := do
  let authid ← ctx.getRef .authId
  let password ← ctx.getRef .password
  if ¬ (ctx.getRef .authzId = none ∨ ctx.getRef .authzId = some authid) then
    pure .authzBad
  else if authid = c!"username" ∧ password = b!"secret" then
    pure (.ok authid)
  else if authid = c!"username" then
    pure .passwdBad
  else
    pure .noSuchUser

/-- What `validate` does with the verdict: `validate.with::<TestValidation, _>(…)?` and `Ok(())`. A
panic of the closure is an error here: it does not occur (`C63_plain`). -/
def report : Option Verdict → ValProg
  | some v => .with testValidation (.ok v.value) fun
    | .error e => .ret (.error e)
    | .ok () => .ret (.ok ())
  | none => .ret (.error .missingRequiredProperty)

/-- `OurCallback`, examples/server_plain.rs:70-91; `callback` is the default, src/callback.rs:78-87.
The protocol asks for `TestValidation`. -/
def plainServer : Env where
  callback _ _ _ := .ret (.ok ())
  validate _ sd ctx := if sd.mech.name = b!"PLAIN" then report (plainVerdict ctx) else .ret (.ok ())
  chanbind _ := none
  vtag := testValidation
  sd := ⟨PLAIN.desc, .server⟩

/-- `OurCallback::test_validate`, examples/server_scram.rs:29-54. -/
def scramVerdict (ctx : Provider) : Option Verdict := do
  let authid ← ctx.getRef .authId
  if ¬ (ctx.getRef .authzId = none ∨ ctx.getRef .authzId = some authid) then
    pure .authzBad
  else if authid = c!"username" then
    pure (.ok authid)
  else
    pure .noSuchUser

/-- `OurCallback`, examples/server_scram.rs:69-107, with the keys and the salt it holds, serving the
mechanism `SCRAM-SHA-256`. -/
def scramServer (storedKey serverKey salt : Bytes) : Env where
  callback _ _ ctx :=
    if ctx.getRef .authId = some (c!"username") then
      .satisfy .scramStoredPassword ⟨4096, salt, storedKey, serverKey⟩ fun
        | .error e => .ret (.error e)
        | .ok () => .ret (.ok ())
    else .ret (.ok ())
  validate _ sd ctx :=
    if (b!"SCRAM-").isPrefixOf sd.mech.name then report (scramVerdict ctx) else .ret (.ok ())
  chanbind _ := none
  vtag := testValidation
  sd := ⟨(SCRAM .sha256).desc, .server⟩

end Rsasl.Example

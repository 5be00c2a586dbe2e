/-
The utilities for tests (`src/test`, feature `testutils`): sessions without the selection of a
mechanism, and the mechanism X-RSASLTEST.
-/
import Verif.Model.Builder
import Verif.Model.Link

namespace Rsasl.TestUtils

/-- `RsaslState`, src/test/mechanism.rs:92-98. -/
inductive RsaslState where
  | new | first | second | third | fourth
deriving DecidableEq

/-- `RSaslTest`, src/test/mechanism.rs:72-111: `step` is a `todo!()`. -/
def rsaslTest : Mech := { S := RsaslState, step := fun _ _ => M.panic }

/-- What `RSaslTest::client` and `RSaslTest::server` make, src/test/mechanism.rs:76-88. -/
def rsaslTestNew : Started := ⟨rsaslTest, .new⟩

/-- The `Box<dyn Authentication>` of `RSaslTest`: the one implementation here that `Auth` has no name
for. -/
def rsaslTestAuth : Auth := .custom 0

/-- src/test/mechanism.rs:113-121 -/
def RSASLTEST_CF : Mechanism :=
  { name := b!"X-RSASLTEST-CF", priority := 0, client := some (.ok rsaslTestAuth),
    server := some (fun _ => .ok rsaslTestAuth), first := .client, select := .matches }

/-- src/test/mechanism.rs:129-138 -/
def RSASLTEST_SF : Mechanism :=
  { name := b!"X-RSASLTEST-SF", priority := 0, client := some (.ok rsaslTestAuth),
    server := some (fun _ => .ok rsaslTestAuth), first := .client, select := .matches }

/-- `client_config` and `server_config` (the same), src/test/config.rs:36-48. `none` is the panic of
`expect`. -/
def config (enableCb : Bool) (prefer : Prefer) : Option Config :=
  ((Config.builder.withRegistry [RSASLTEST_CF, RSASLTEST_SF]).withCallback enableCb prefer).toOption

/-- `client_session`, src/test/mod.rs:18-29: the implementation and the mechanism the session is made
with; there are no channel bindings and no validation value, and the configuration only gives the
callback. -/
def clientSession (_config : Config) (mechanism : Mechanism) : Start (Auth × Mechanism) :=
  match mechanism.client with
  | some (.ok mech) => .ok (mech, mechanism)
  | some (.error _) => .panic
  | none => .panic

/-- `server_session`, src/test/mod.rs:31-42. -/
def serverSession (config : Config) (mechanism : Mechanism) : Start (Auth × Mechanism) :=
  match mechanism.server with
  | some f =>
    match f (config.mechs.map (·.name)) with
    | .ok mech => .ok (mech, mechanism)
    | .error _ => .panic
  | none => .panic

end Rsasl.TestUtils

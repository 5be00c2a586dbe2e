/-
What the documentation says about the cargo features: the mechanisms each of them makes available.
-/
import Verif.Model.Builder
import Verif.Spec.Preference
import Verif.Spec.Talk

namespace Rsasl.Spec

/-- The mechanisms of a feature, Cargo.toml:52-70 and src/mechanisms/mod.rs:28-215. -/
def featureNames : Feature → List Bytes
  | .scramSha1 => [b!"SCRAM-SHA-1", b!"SCRAM-SHA-1-PLUS"]
  | .scramSha2 =>
    [b!"SCRAM-SHA-256", b!"SCRAM-SHA-256-PLUS", b!"SCRAM-SHA-512", b!"SCRAM-SHA-512-PLUS"]
  | .anonymous => [b!"ANONYMOUS"]
  | .external => [b!"EXTERNAL"]
  | .plain => [b!"PLAIN"]
  | .login => [b!"LOGIN"]
  | .xoauth2 => [b!"XOAUTH2"]
  | .oauthbearer => [b!"OAUTHBEARER"]
  | .gssapi => [b!"GSSAPI"]

/-- The feature that a mechanism needs is on. -/
def Enabled (on : Build) (name : Bytes) : Prop := ∃ f, on f = true ∧ name ∈ featureNames f

/-- The mechanisms that bind to a channel. -/
def plusNames : List Bytes := [b!"SCRAM-SHA-1-PLUS", b!"SCRAM-SHA-256-PLUS", b!"SCRAM-SHA-512-PLUS"]

/-- src/mechanisms/mod.rs:9-20: only the mechanisms of the features that are on are compiled in and
available, and all of them are. -/
def FeaturesDecide (on : Build) (mechs : List Mechanism) : Prop :=
  ∀ m, m ∈ mechs ↔ m ∈ shipped ∧ Enabled on m.name

end Rsasl.Spec

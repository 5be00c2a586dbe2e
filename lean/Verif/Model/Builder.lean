/-
The configuration builder (`src/builder.rs`) and the registries as the cargo features of a build
make them (`src/registry.rs`, the `mechinfo.rs` files of the mechanisms).
-/
import Verif.Model.Registry

namespace Rsasl

/-- The cargo features that compile in mechanisms, Cargo.toml:51-70. -/
inductive Feature where
  | scramSha1 | scramSha2 | anonymous | external | plain | login | xoauth2 | oauthbearer | gssapi
deriving DecidableEq

/-- A build: the features that are on. -/
abbrev Build := Feature → Bool

/-- An array of mechanisms whose elements have a `#[cfg(feature = ..)]` before them. -/
def Build.array (on : Build) (l : List (Feature × Mechanism)) : List Mechanism :=
  (l.filter fun x => on x.1).map (·.2)

/-- `CRED_AUTHZID`, src/registry.rs:156-165. -/
def credAuthzid : List (Feature × Mechanism) :=
  [(.scramSha2, SCRAM .sha512), (.scramSha2, SCRAM .sha256), (.scramSha1, SCRAM .sha1),
   (.plain, PLAIN)]

/-- `CRED`, src/registry.rs:167-178. -/
def cred : List (Feature × Mechanism) :=
  [(.scramSha2, SCRAM .sha512), (.scramSha2, SCRAM .sha256), (.scramSha1, SCRAM .sha1),
   (.plain, PLAIN), (.login, LOGIN)]

/-- `Registry::credentials`, src/registry.rs:155-183. -/
def Build.credentials (on : Build) (authzid : Bool) : List Mechanism :=
  on.array (if authzid then credAuthzid else cred)

/-- `BUILTIN`, src/registry.rs:197-216. -/
def builtin : List (Feature × Mechanism) :=
  [(.scramSha2, SCRAM .sha512), (.scramSha2, SCRAM .sha256), (.scramSha1, SCRAM .sha1),
   (.plain, PLAIN), (.login, LOGIN), (.anonymous, ANONYMOUS), (.external, EXTERNAL),
   (.xoauth2, XOAUTH2), (.oauthbearer, OAUTHBEARER)]

/-- `Registry::default` without the feature `registry_static`, src/registry.rs:193-219. -/
def Build.default (on : Build) : List Mechanism := on.array builtin

/-- The statics with `linkme::distributed_slice(crate::registry::MECHANISMS)` before them: the
`mechinfo.rs` of plain 12-19, login 7-11, anonymous 27-31, external 7-11, xoauth2 6-13,
oauthbearer 6-13, gssapi 6-13, scram 18-23, 122-126, 227-231. -/
def distributed : List (Feature × Mechanism) :=
  [(.plain, PLAIN), (.login, LOGIN), (.anonymous, ANONYMOUS), (.external, EXTERNAL),
   (.xoauth2, XOAUTH2), (.oauthbearer, OAUTHBEARER), (.gssapi, GSSAPI), (.scramSha1, SCRAM .sha1),
   (.scramSha2, SCRAM .sha256), (.scramSha2, SCRAM .sha512)]

/-- `Registry::default` with the feature `registry_static`, src/registry.rs:186-191 and 269-281: the
linker puts the statics of the crate and those of other crates (`others`) in one slice, in an order
of its own. -/
def Build.Linked (on : Build) (others slice : List Mechanism) : Prop :=
  slice.Perm (on.array distributed ++ others)

/-- `ConfigBuilder<WantMechanisms>`, src/builder.rs:88-99. -/
inductive WantMechanisms where
  | new

/-- `ConfigBuilder<WantCallback>`, src/builder.rs:133-137. -/
structure WantCallback where
  mechanisms : List Mechanism

/-- `SASLConfig::builder`, src/config.rs:113-115. -/
def Config.builder : WantMechanisms := .new

/-- `with_defaults`, src/builder.rs:101-109; `default` is what `Registry::default()` gives. -/
def WantMechanisms.withDefaults (default : List Mechanism) (_ : WantMechanisms) : WantCallback :=
  { mechanisms := default }

/-- `with_registry`, src/builder.rs:111-117. -/
def WantMechanisms.withRegistry (mechanisms : List Mechanism) (_ : WantMechanisms) : WantCallback :=
  { mechanisms := mechanisms }

/-- `with_default_mechanisms`, src/builder.rs:119-126. -/
def WantMechanisms.withDefaultMechanisms (default : List Mechanism) (b : WantMechanisms) :
    WantCallback :=
  b.withRegistry default

/-- `with_credentials_mechanisms`, src/builder.rs:128-130. -/
def WantMechanisms.withCredentialsMechanisms (on : Build) (authzid : Bool) (b : WantMechanisms) :
    WantCallback :=
  b.withRegistry (on.credentials authzid)

/-- `with_callback`, src/builder.rs:139-145, with `SASLConfig::new` and `Inner::new` of
src/config.rs:102-109 and 190-199. Of the callback, what a configuration uses of it. -/
def WantCallback.withCallback (enableCb : Bool) (prefer : Prefer) (b : WantCallback) :
    Except SASLError Config :=
  .ok { mechs := b.mechanisms, enableCb := enableCb, prefer := prefer }

/-- `SASLConfig::with_credentials` in a build, src/config.rs:130-168. -/
def Build.withCredentials (on : Build) (authzid : Option Str) : Except SASLError Config :=
  (Config.builder.withCredentialsMechanisms on authzid.isSome).withCallback false defaultPrefer

end Rsasl

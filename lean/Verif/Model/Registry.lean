/-
Mechanism registry, selection and session start (`src/registry.rs`, `src/config.rs`,
`src/sasl.rs` and the `mechinfo.rs` files of the mechanisms).
-/
import Verif.Model.Callback

namespace Rsasl

/-- `SASLError`, src/error.rs:138-145. -/
inductive SASLError where
  | noSharedMechanism
  /-- `#[non_exhaustive]`: start functions of external mechanisms may return others -/
  | other (n : Nat)
deriving DecidableEq

/-- The hash of a SCRAM mechanism. -/
inductive Hash where
  | sha1 | sha256 | sha512
deriving DecidableEq

/-- `Box<dyn Authentication>` as made by the start functions: which implementation, with which
constructor arguments. `scramClient h b` is `ScramXClient::new(b)`, `scramServer h b` is
`ScramXServer::new(b)`. `custom n` stands for implementations outside of the crate. -/
inductive Auth where
  | plain | login | external | anonymous | xoauth2 | oauthbearer | gssapi
  | scramClient (h : Hash) (cbClientNoSupport : Bool)
  | scramClientPlus (h : Hash)
  | scramServer (h : Hash) (canCb : Bool)
  | scramServerPlus (h : Hash)
  | custom (n : Nat)
deriving DecidableEq

/-- Which function is in `Mechanism::select`: that of all the plain mechanisms
(`|_| Some(Matches::<Select>::name())`), of a SCRAM mechanism, or of its `-PLUS` variant.
Simplification: external mechanisms use one of the three (in practice the first). -/
inductive SelectKind where
  | matches
  | scram (h : Hash)
  | scramPlus (h : Hash)
deriving DecidableEq

/-- `Mechanism`, src/registry.rs:52-67. A start function is represented by its result. The
server start function gets the configuration; it only looks at the names in its mechanism
list. -/
structure Mechanism where
  name : Bytes
  priority : Nat
  client : Option (Except SASLError Auth)
  server : Option (List Bytes → Except SASLError Auth)
  first : Side
  select : SelectKind

/-- The part of a `Mechanism` visible to callbacks. -/
def Mechanism.desc (m : Mechanism) : MechDesc := ⟨m.name, m.priority, m.first⟩

/-- src/mechanisms/plain/mechinfo.rs:19-27 -/
def PLAIN : Mechanism :=
  { name := b!"PLAIN", priority := 300, client := some (.ok .plain),
    server := some (fun _ => .ok .plain), first := .client, select := .matches }

/-- src/mechanisms/login/mechinfo.rs:11-20 -/
def LOGIN : Mechanism :=
  { name := b!"LOGIN", priority := 200, client := some (.ok .login),
    server := some (fun _ => .ok .login), first := .server, select := .matches }

/-- src/mechanisms/external/mechinfo.rs:11-20 -/
def EXTERNAL : Mechanism :=
  { name := b!"EXTERNAL", priority := 100, client := some (.ok .external),
    server := some (fun _ => .ok .external), first := .client, select := .matches }

/-- src/mechanisms/anonymous/mechinfo.rs:31-39 -/
def ANONYMOUS : Mechanism :=
  { name := b!"ANONYMOUS", priority := 100, client := some (.ok .anonymous),
    server := some (fun _ => .ok .anonymous), first := .client, select := .matches }

/-- src/mechanisms/xoauth2/mechinfo.rs:13-22 -/
def XOAUTH2 : Mechanism :=
  { name := b!"XOAUTH2", priority := 300, client := some (.ok .xoauth2),
    server := some (fun _ => .ok .xoauth2), first := .client, select := .matches }

/-- src/mechanisms/oauthbearer/mechinfo.rs:13-22 -/
def OAUTHBEARER : Mechanism :=
  { name := b!"OAUTHBEARER", priority := 300, client := some (.ok .oauthbearer),
    server := some (fun _ => .ok .oauthbearer), first := .client, select := .matches }

/-- src/mechanisms/gssapi/mechinfo.rs:13-22 -/
def GSSAPI : Mechanism :=
  { name := b!"GSSAPI", priority := 300, client := some (.ok .gssapi),
    server := some (fun _ => .ok .gssapi), first := .client, select := .matches }

/-- Names of the SCRAM mechanisms, src/mechanisms/scram/mechinfo.rs:24, 127, 232. -/
def Hash.scramName : Hash → Bytes
  | .sha1 => b!"SCRAM-SHA-1"
  | .sha256 => b!"SCRAM-SHA-256"
  | .sha512 => b!"SCRAM-SHA-512"

/-- Names of the `-PLUS` mechanisms, src/mechanisms/scram/mechinfo.rs:90, 195, 300. -/
def Hash.plusName : Hash → Bytes
  | .sha1 => b!"SCRAM-SHA-1-PLUS"
  | .sha256 => b!"SCRAM-SHA-256-PLUS"
  | .sha512 => b!"SCRAM-SHA-512-PLUS"

/-- src/mechanisms/scram/mechinfo.rs:25, 128, 233 -/
def Hash.scramPriority : Hash → Nat
  | .sha1 => 400
  | .sha256 => 600
  | .sha512 => 600

/-- src/mechanisms/scram/mechinfo.rs:91, 196, 301 -/
def Hash.plusPriority : Hash → Nat
  | .sha1 => 500
  | .sha256 => 700
  | .sha512 => 700

/-- `SCRAM_SHA1`, `SCRAM_SHA256`, `SCRAM_SHA512`, src/mechanisms/scram/mechinfo.rs:23-42,
126-147, 231-252. -/
def SCRAM (h : Hash) : Mechanism :=
  { name := h.scramName, priority := h.scramPriority,
    client := some (.ok (.scramClient h true)),
    server := some (fun mechList => .ok (.scramServer h (mechList.any (· == h.plusName)))),
    first := .client, select := .scram h }

/-- `SCRAM_SHA*_PLUS`, src/mechanisms/scram/mechinfo.rs:89-103, 194-208, 299-313. -/
def SCRAMPLUS (h : Hash) : Mechanism :=
  { name := h.plusName, priority := h.plusPriority,
    client := some (.ok (.scramClientPlus h)),
    server := some (fun _ => .ok (.scramServerPlus h)),
    first := .client, select := .scramPlus h }

/-- `ScramSelector1/256/512`, src/mechanisms/scram/mechinfo.rs:52-59, 157-164, 262-269. -/
inductive SelState where
  | no | bare | plus
deriving DecidableEq

/-- `Box<dyn Selector>`: `Matches<T>` with `T::mech() = m` (src/registry.rs:334-340) or a SCRAM
selector. -/
inductive Selector where
  | matches (m : Mechanism)
  | scram (h : Hash) (s : SelState)

/-- `Selector::select`: src/registry.rs:342-349 and src/mechanisms/scram/mechinfo.rs:61-71,
166-176, 271-281. Returns the updated selector too. -/
def Selector.select (name : Bytes) : Selector → Option Mechanism × Selector
  | .matches m => (if name = m.name then some m else none, .matches m)
  | .scram h s =>
    if name = (SCRAM h).name then
      (none, .scram h (match s with | .no => .bare | x => x))
    else if name = (SCRAMPLUS h).name then (none, .scram h .plus)
    else (none, .scram h s)

/-- `Selector::done`: src/registry.rs:350-352, src/mechanisms/scram/mechinfo.rs:73-78. -/
def Selector.done : Selector → Option Mechanism
  | .matches _ => none
  | .scram _ .no => none
  | .scram h _ => some (SCRAM h)

/-- Result of starting: `Ok`, `Err(SASLError)` or a panic. -/
inductive Start (α : Type) where
  | ok (a : α)
  | err (e : SASLError)
  | panic
deriving DecidableEq

/-- `opt.unwrap()` of a start function's result. -/
def unwrapStart : Option (Except SASLError Auth) → Start Auth
  | none => .panic
  | some (.ok a) => .ok a
  | some (.error e) => .err e

/-- `Selector::finalize`: src/registry.rs:353-356, src/mechanisms/scram/mechinfo.rs:80-86. -/
def Selector.finalize : Selector → Start Auth
  | .matches m => unwrapStart m.client
  | .scram h .bare => .ok (.scramClient h false)
  | .scram h .plus => .ok (.scramClient h true)
  | .scram _ .no => .panic

/-- `Selection`, src/registry.rs:302-305. -/
inductive Selection where
  | nothing (s : Selector)
  | done (m : Mechanism)

/-- `Selection::select`, src/registry.rs:307-313. -/
def Selection.select (name : Bytes) : Selection → Selection
  | .nothing sel =>
    match sel.select name with
    | (some m, _) => .done m
    | (none, sel) => .nothing sel
  | .done m => .done m

/-- `Selection::done`, src/registry.rs:315-320. -/
def Selection.doneMech : Selection → Option Mechanism
  | .nothing sel => sel.done
  | .done m => some m

/-- `Selection::finalize`, src/registry.rs:322-327. -/
def Selection.finalize : Selection → Start Auth
  | .nothing sel => sel.finalize
  | .done m => unwrapStart m.client

/-- `Mechanism::select`, src/registry.rs:109-111, with the `select` closures of the mechinfo
files (src/mechanisms/scram/mechinfo.rs:34-40, 95-101 and the like). -/
def Mechanism.selection (m : Mechanism) (cb : Bool) : Option Selection :=
  match m.select with
  | .matches => some (.nothing (.matches m))
  | .scram h => some (if cb then .nothing (.scram h .no) else .nothing (.matches (SCRAM h)))
  | .scramPlus h => if cb then some (.nothing (.matches (SCRAMPLUS h))) else none

/-- `SessionCallback::prefer` as a function. -/
abbrev Prefer := Option Mechanism → Mechanism → Ordering

/-- The default `prefer`, src/callback.rs:111-113. -/
def defaultPrefer : Prefer
  | none, _ => .lt
  | some old, b => compare old.priority b.priority

/-- The loop of src/registry.rs:244-248. -/
def offerAll (offered : List Bytes) (sels : List Selection) : List Selection :=
  offered.foldl (fun sels o => sels.map (Selection.select o)) sels

/-- The closure of the fold, src/registry.rs:253-264. -/
def foldStep (prefer : Prefer) (acc : Option (Selection × Mechanism))
    (sm : Selection × Mechanism) : Option (Selection × Mechanism) :=
  match prefer (acc.map (·.2)) sm.2 with
  | .gt => acc
  | .eq => some sm
  | .lt => some sm

/-- The `filter_map` of src/registry.rs:252. -/
def candidates (sels : List Selection) : List (Selection × Mechanism) :=
  sels.filterMap (fun s => s.doneMech.map (fun m => (s, m)))

/-- `Registry::select`, src/registry.rs:230-267. -/
def registrySelect (mechs : List Mechanism) (cb : Bool) (offered : List Bytes)
    (prefer : Prefer) : Start (Auth × Mechanism) :=
  let selectors := mechs.filterMap (fun m => m.selection cb)
  let selectors := offerAll offered selectors
  match (candidates selectors).foldl (foldStep prefer) none with
  | none => .err .noSharedMechanism
  | some (s, m) =>
    match s.finalize with
    | .ok a => .ok (a, m)
    | .err e => .err e
    | .panic => .panic

/-- `SASLConfig`: mechanisms, `enable_channel_binding()` and `prefer` of the user callback
(src/config.rs:171-176, src/callback.rs:89-113). -/
structure Config where
  mechs : List Mechanism
  enableCb : Bool
  prefer : Prefer

/-- `Sasl::client_start_suggested`, src/sasl.rs:175-181, with `select_mechanism` and `select` of
src/config.rs:59-65 and 211-220 (`self.cb` is always `false`, src/config.rs:195). -/
def Config.clientStart (c : Config) (offered : List Bytes) : Start (Auth × Mechanism) :=
  registrySelect c.mechs (c.enableCb || false) offered c.prefer

/-- `Sasl::get_available`, src/sasl.rs:195-197. -/
def Config.getAvailable (c : Config) : List Mechanism :=
  c.mechs.filter (fun m => m.server.isSome)

/-- `Sasl::server_start_suggested`, src/sasl.rs:183-193. -/
def Config.serverStart (c : Config) (selected : Bytes) : Start (Auth × Mechanism) :=
  match c.getAvailable.find? (fun m => m.name == selected) with
  | none => .err .noSharedMechanism
  | some mech =>
    match mech.server with
    | none => .err .noSharedMechanism
    | some f =>
      match f (c.mechs.map (·.name)) with
      | .ok a => .ok (a, mech)
      | .error e => .err e

/-- `Registry::credentials`, src/registry.rs:155-183. -/
def credentialMechs (authzid : Bool) : List Mechanism :=
  if authzid then [SCRAM .sha512, SCRAM .sha256, SCRAM .sha1, PLAIN]
  else [SCRAM .sha512, SCRAM .sha256, SCRAM .sha1, PLAIN, LOGIN]

/-- `Registry::default`, src/registry.rs:195-218. -/
def builtinMechs : List Mechanism :=
  [SCRAM .sha512, SCRAM .sha256, SCRAM .sha1, PLAIN, LOGIN, ANONYMOUS, EXTERNAL, XOAUTH2,
   OAUTHBEARER]

/-- `CredentialsProvider::callback`, src/config.rs:140-155. `?` returns the error at once. -/
def credentialCallback (authzid : Option Str) (authid password : Str) : CbProg :=
  .satisfy .authId authid fun
    | .error e => .ret (.error e)
    | .ok () => .satisfy .password (Str.bytes password) fun
      | .error e => .ret (.error e)
      | .ok () =>
        match authzid with
        | none => .ret (.ok ())
        | some a => .satisfy .authzId a fun
          | .error e => .ret (.error e)
          | .ok () => .ret (.ok ())

/-- `SASLConfig::with_credentials`, src/config.rs:130-168; `enable_channel_binding` and `prefer`
are the trait defaults. -/
def Config.withCredentials (authzid : Option Str) : Config :=
  { mechs := credentialMechs authzid.isSome, enableCb := false, prefer := defaultPrefer }

end Rsasl

/-
C94: every error in the tables of C67 occurs.
-/
import Verif.Props.ScramPolicy
import Verif.Props.StepErrors
import Verif.Spec.Examples

namespace Rsasl

open Spec

namespace Spec

/-- The callback has no errors of its own: it returns those it is given, and `NoValue`. -/
def OnlyPassesOn (env : Env) : Prop := ∀ E, env.ErrsIn E

/-- Some session of a client, with a callback that has no errors of its own, ends a step with `e`. -/
def ClientEndsWith (a : Auth) (e : SessionError) : Prop :=
  ∃ deps st env rng ops c, a.startClient deps = some st ∧ OnlyPassesOn env ∧
    (((st.session rng).afterAll st.mech env ops).step st.mech env c).1.res = .err e

/-- The same for servers. -/
def ServerEndsWith (a : Auth) (e : SessionError) : Prop :=
  ∃ deps st env rng ops c, a.startServer deps = some st ∧ OnlyPassesOn env ∧
    (((st.session rng).afterAll st.mech env ops).step st.mech env c).1.res = .err e

/-- Some session, of a client or a server, ends an `encode` or a `decode` with `e`. -/
def LayerEndsWith (a : Auth) (e : SessionError) : Prop :=
  ∃ deps st env rng ops input sched, (a.startClient deps = some st ∨ a.startServer deps = some st) ∧
    ((((st.session rng).afterAll st.mech env ops).encode st.mech input sched).1.res = .err e ∨
      (((st.session rng).afterAll st.mech env ops).decode st.mech input sched).1.res = .err e)

end Spec

theorem answerAll_errs {E : SessionError → Prop} (pvs : List PV) : (answerAll pvs).Errs E := by
  induction pvs with
  | nil => exact nofun
  | cons pv pvs ih =>
    intro r hr
    cases r with
    | error e => exact fun e' he => by cases he; exact hr _ rfl
    | ok u => exact ih

theorem example_passesOn (pvs : List PV) : OnlyPassesOn (exampleEnv pvs) :=
  fun _ _ _ => answerAll_errs pvs

/-- Answers these properties, and says `NoValue` to everything else. -/
def answerOr : List PV → CbProg
  | [] => .ret (.error (.callbackError .noValue))
  | pv :: rest => .satisfy pv.prop pv.val fun
    | .error e => .ret (.error e)
    | .ok () => answerOr rest

/-- The callback that says `NoValue`. -/
def noValueEnv (pvs : List PV) : Env :=
  { exampleEnv [] with callback := fun _ _ _ => answerOr pvs }

theorem noValue_passesOn (pvs : List PV) : OnlyPassesOn (noValueEnv pvs) := by
  intro E log ctx
  show (answerOr pvs).Errs _
  induction pvs with
  | nil => exact fun e he => by cases he; exact .inr (.inr rfl)
  | cons pv pvs ih =>
    intro r hr
    cases r with
    | error e => exact fun e' he => by cases he; exact hr _ rfl
    | ok u => exact ih

/-- A JSON library that reads everything as an error. -/
def readingDeps : Deps :=
  { toyDeps with json := ⟨fun _ => [b!"{}"], fun _ => some ⟨c!"e", none, none⟩⟩ }

/-- A step of a fresh client with the example callback. -/
theorem client_now {a : Auth} {e : SessionError} {deps : Deps} {st : Started} (pvs : List PV)
    (c : Call) (h : a.startClient deps = some st)
    (he : ((st.session fun _ => 0).step st.mech (exampleEnv pvs) c).1.res = .err e) :
    ClientEndsWith a e :=
  ⟨deps, st, _, _, [], c, h, example_passesOn pvs, he⟩

/-- A step of a client after other steps, all with the example callback. -/
theorem client_then {a : Auth} {e : SessionError} {deps : Deps} {st : Started} (pvs : List PV)
    (inputs : List (Option Bytes)) (c : Call) (h : a.startClient deps = some st)
    (he : (((st.session fun _ => 0).afterAll st.mech (exampleEnv pvs)
      (inputs.map fun i => .step ⟨i, []⟩)).step st.mech (exampleEnv pvs) c).1.res = .err e) :
    ClientEndsWith a e :=
  ⟨deps, st, _, _, _, c, h, example_passesOn pvs, he⟩

/-- The example callback, with this verdict about everyone. -/
def judging (pvs : List PV) (v : Except ValidationError Unit) : Env :=
  { exampleEnv pvs with validate := fun _ _ _ => .ret v }

theorem judging_passesOn (pvs : List PV) (v : Except ValidationError Unit) :
    OnlyPassesOn (judging pvs v) :=
  fun _ _ _ => answerAll_errs pvs

/-- A step of a server after other steps. -/
theorem server_then {a : Auth} {e : SessionError} {deps : Deps} {st : Started} (pvs : List PV)
    (v : Except ValidationError Unit) (inputs : List (Option Bytes)) (c : Call)
    (h : a.startServer deps = some st)
    (he : (((st.session fun _ => 0).afterAll st.mech (judging pvs v)
      (inputs.map fun i => .step ⟨i, []⟩)).step st.mech (judging pvs v) c).1.res = .err e) :
    ServerEndsWith a e :=
  ⟨deps, st, _, _, _, c, h, judging_passesOn pvs v, he⟩

/-- Name an error from its place in a table. -/
macro "name_error" h:ident : tactic => `(tactic|
  ((try unfold isWriteAll at $h:ident); (try unfold isIo at $h:ident); (try unfold isRefused at $h:ident);
   (try unfold isMech at $h:ident); (try unfold isMissing at $h:ident);
   split at $h:ident <;> try contradiction))

/-! ## Clients -/

theorem Plain.client_occurs {e : SessionError} (h : clientErrors none .plain e) :
    ClientEndsWith .plain e := by
  rcases h with h | h | h
  · name_error h
    next e =>
    refine client_now (deps := toyDeps) [] ⟨none, [.fail e]⟩ rfl ?_
    cases e with
    | interrupted => exact absurd rfl h
    | writeZero => rfl
    | other n => rfl
  · name_error h
    simp only [List.mem_cons, List.not_mem_nil, or_false] at h
    rcases h with rfl | rfl
    · exact client_now (deps := toyDeps) [] ⟨none, []⟩ rfl (by decide +kernel)
    · exact client_now (deps := toyDeps) [⟨.authId, c!"u"⟩] ⟨none, []⟩ rfl (by decide +kernel)
  · name_error h
    rcases h with rfl | rfl
    · exact client_now (deps := toyDeps) [⟨.authId, ['\x00']⟩] ⟨none, []⟩ rfl (by decide +kernel)
    · exact client_now (deps := toyDeps) [⟨.authId, []⟩] ⟨none, []⟩ rfl (by decide +kernel)

theorem Login.client_occurs {e : SessionError} (h : clientErrors none .login e) :
    ClientEndsWith .login e := by
  rcases h with h | h | rfl
  · name_error h
    next e =>
    refine client_now (deps := toyDeps) [⟨.authId, c!"u"⟩] ⟨none, [.fail e]⟩ rfl ?_
    cases e with
    | interrupted => exact absurd rfl h
    | writeZero => rfl
    | other n => rfl
  · name_error h
    simp only [List.mem_cons, List.not_mem_nil, or_false] at h
    rcases h with rfl | rfl
    · exact client_now (deps := toyDeps) [] ⟨none, []⟩ rfl (by decide +kernel)
    · exact client_then (deps := toyDeps) [⟨.authId, c!"u"⟩] [none] ⟨none, []⟩ rfl (by decide +kernel)
  · exact client_then (deps := toyDeps) [⟨.authId, c!"u"⟩, ⟨.password, b!"p"⟩] [none, none] ⟨none, []⟩
      rfl (by decide +kernel)

theorem External.client_occurs {e : SessionError} (h : clientErrors none .external e) :
    ClientEndsWith .external e := by
  replace h : isWriteAll e := h
  name_error h
  next e =>
  refine client_now (deps := toyDeps) [⟨.authzId, c!"u"⟩] ⟨none, [.fail e]⟩ rfl ?_
  cases e with
  | interrupted => exact absurd rfl h
  | writeZero => rfl
  | other n => rfl

theorem Anonymous.client_occurs {e : SessionError} (h : clientErrors none .anonymous e) :
    ClientEndsWith .anonymous e := by
  replace h : isWriteAll e := h
  name_error h
  next e =>
  refine client_now (deps := toyDeps) [⟨.anonymousToken, c!"u"⟩] ⟨none, [.fail e]⟩ rfl ?_
  cases e with
  | interrupted => exact absurd rfl h
  | writeZero => rfl
  | other n => rfl

theorem XOAuth2.client_occurs {e : SessionError} (h : clientErrors none .xoauth2 e) :
    ClientEndsWith .xoauth2 e := by
  rcases h with h | h | rfl | h | rfl
  · name_error h
    next e =>
    exact client_now (deps := toyDeps) [⟨.authId, c!"u"⟩] ⟨none, [.fail e]⟩ rfl rfl
  · name_error h
    simp only [List.mem_cons, List.not_mem_nil, or_false] at h
    rcases h with rfl | rfl | rfl
    · exact client_now (deps := toyDeps) [] ⟨none, []⟩ rfl (by decide +kernel)
    · exact client_now (deps := toyDeps) [⟨.authId, c!"u"⟩] ⟨none, []⟩ rfl (by decide +kernel)
    · exact client_then (deps := toyDeps) [⟨.authId, c!"u"⟩, ⟨.oauthBearerToken, c!"t"⟩] [none]
        ⟨some (b!"x"), []⟩ rfl (by decide +kernel)
  · exact ⟨toyDeps, _, noValueEnv [⟨.authId, c!"u"⟩, ⟨.oauthBearerToken, c!"t"⟩], fun _ => 0,
      [.step ⟨none, []⟩], ⟨some (b!"x"), []⟩, rfl, noValue_passesOn _, by decide +kernel⟩
  · name_error h
    subst h
    exact client_then (deps := toyDeps) [⟨.authId, c!"u"⟩, ⟨.oauthBearerToken, c!"t"⟩] [none]
      ⟨some [0xff], []⟩ rfl (by decide +kernel)
  · exact client_then (deps := toyDeps) [⟨.authId, c!"u"⟩, ⟨.oauthBearerToken, c!"t"⟩] [none, none]
      ⟨none, []⟩ rfl (by decide +kernel)

theorem OAuthBearer.client_occurs {e : SessionError} (h : clientErrors none .oauthbearer e) :
    ClientEndsWith .oauthbearer e := by
  rcases h with h | h | rfl | h | rfl
  · name_error h
    next e =>
    exact client_now (deps := toyDeps) [⟨.oauthBearerToken, c!"u"⟩]
      ⟨none, [.accept 2, .accept 1, .fail e]⟩ rfl rfl
  · name_error h
    simp only [List.mem_cons, List.not_mem_nil, or_false] at h
    rcases h with rfl | rfl
    · exact client_now (deps := toyDeps) [] ⟨none, []⟩ rfl (by decide +kernel)
    · exact client_then (deps := readingDeps) [⟨.oauthBearerToken, c!"t"⟩] [none]
        ⟨some (b!"x"), []⟩ rfl (by decide +kernel)
  · exact ⟨readingDeps, _, noValueEnv [⟨.oauthBearerToken, c!"t"⟩], fun _ => 0,
      [.step ⟨none, []⟩], ⟨some (b!"x"), []⟩, rfl, noValue_passesOn _, by decide +kernel⟩
  · name_error h
    subst h
    exact client_then (deps := toyDeps) [⟨.oauthBearerToken, c!"t"⟩] [none]
      ⟨some [0xff], []⟩ rfl (by decide +kernel)
  · exact client_then (deps := toyDeps) [⟨.oauthBearerToken, c!"t"⟩] [none, none]
      ⟨none, []⟩ rfl (by decide +kernel)

/-- A GSS-API library with one thing going wrong. -/
def gssDeps (lib : Gssapi.Lib) : Deps := { toyDeps with gss := lib }

theorem Gssapi.client_occurs {e : SessionError} (h : clientErrors none .gssapi e) :
    ClientEndsWith .gssapi e := by
  rcases h with h | h | h | ⟨rfl, -⟩ | rfl
  · name_error h
    next e =>
    refine client_now (deps := gssDeps { toyGss with clientStep := fun _ _ => (.ok (some [1]), ()) })
      [⟨.gssService, c!"u"⟩, ⟨.hostname, c!"h"⟩] ⟨none, [.fail e]⟩ rfl ?_
    cases e with
    | interrupted => exact absurd rfl h
    | writeZero => rfl
    | other n => rfl
  · name_error h
    simp only [List.mem_cons, List.not_mem_nil, or_false] at h
    rcases h with rfl | rfl
    · exact client_now (deps := toyDeps) [] ⟨none, []⟩ rfl (by decide +kernel)
    · exact client_now (deps := toyDeps) [⟨.gssService, c!"u"⟩] ⟨none, []⟩ rfl (by decide +kernel)
  · name_error h
    unfold gssSort at h
    split at h <;> try contradiction
    · next n =>
      exact client_now (deps := gssDeps { toyGss with newClient := fun _ => .error n })
        [⟨.gssService, c!"u"⟩, ⟨.hostname, c!"h"⟩] ⟨none, []⟩ rfl rfl
    · exact client_then (deps := toyDeps) [⟨.gssService, c!"u"⟩, ⟨.hostname, c!"h"⟩] [none]
        ⟨some [], []⟩ rfl (by decide +kernel)
    · exact client_then (deps := toyDeps) [⟨.gssService, c!"u"⟩, ⟨.hostname, c!"h"⟩] [none]
        ⟨some [0, 0, 0, 0], []⟩ rfl (by decide +kernel)
  · exact client_then (deps := toyDeps) [⟨.gssService, c!"u"⟩, ⟨.hostname, c!"h"⟩] [none]
      ⟨none, []⟩ rfl (by decide +kernel)
  · exact client_then (deps := toyDeps) [⟨.gssService, c!"u"⟩, ⟨.hostname, c!"h"⟩] [none, none]
      ⟨none, []⟩ rfl (by decide +kernel)

namespace Scram

/-- What a SCRAM client starts from. -/
def Begins (init : CS) : Prop := init = clientNew true ∨ init = clientNew false ∨ init = clientNewPlus

/-- What a SCRAM client is given. -/
def clientPVs : List PV := [⟨.channelBindings, []⟩, ⟨.authId, c!"u"⟩, ⟨.password, b!"p"⟩]

/-- A server's answer to the nonce that a client makes when all draws are zero. -/
def answer (salt count : Bytes) : Bytes :=
  b!"r=!!!!!!!!!!!!!!!!!!!!!!!!x,s=" ++ salt ++ b!",i=" ++ count

/-- A session of the client with the toy digest ends a step with `e`. -/
def Ends (init : CS) (e : SessionError) : Prop :=
  ∃ (pvs : List PV) (inputs : List (Option Bytes)) (c : Call),
    (((Started.session ⟨client toyDigest, init⟩ fun _ => 0).afterAll (client toyDigest)
    (exampleEnv pvs) (inputs.map fun i => .step ⟨i, []⟩)).step (client toyDigest) (exampleEnv pvs)
      c).1.res = .err e

theorem Begins.io {init : CS} (h : Begins init) (e : IoErr) : Ends init (.io e) := by
  rcases h with rfl | rfl | rfl <;> exact ⟨clientPVs, [], ⟨none, [.fail e]⟩, rfl⟩

theorem Begins.missing {init : CS} (h : Begins init) :
    Ends init (.callbackError (.noCallback .authId)) ∧
    Ends init (.callbackError (.noCallback .password)) ∧ Ends init .inputDataRequired := by
  rcases h with rfl | rfl | rfl <;> exact
    ⟨⟨[⟨.channelBindings, []⟩], [], ⟨none, []⟩, by decide +kernel⟩,
      ⟨[⟨.channelBindings, []⟩, ⟨.authId, c!"u"⟩], [none], ⟨some (answer (b!"AAAA") (b!"1")), []⟩,
        by decide +kernel⟩,
      ⟨clientPVs, [none], ⟨none, []⟩, by decide +kernel⟩⟩

theorem Begins.parse {init : CS} (h : Begins init) :
    Ends init (perr .missingAttributes) ∧ Ends init (perr .unknownMandatoryExtensions) ∧
    Ends init (perr .badUtf8) := by
  rcases h with rfl | rfl | rfl <;> exact
    ⟨⟨clientPVs, [none], ⟨some [], []⟩, by decide +kernel⟩,
      ⟨clientPVs, [none], ⟨some (b!"m=x"), []⟩, by decide +kernel⟩,
      ⟨clientPVs, [none], ⟨some (answer (b!"AAAA") [0xff]), []⟩, by decide +kernel⟩⟩

theorem Begins.protocol {init : CS} (h : Begins init) (x : ProtocolError) : Ends init (protoErr x) := by
  cases x with
  | invalidNonce =>
    rcases h with rfl | rfl | rfl <;>
      exact ⟨clientPVs, [none], ⟨some (b!"r=x,s=AAAA,i=1"), []⟩, by decide +kernel⟩
  | iterationCountFormat =>
    rcases h with rfl | rfl | rfl <;>
      exact ⟨clientPVs, [none], ⟨some (answer (b!"AAAA") (b!"x")), []⟩, by decide +kernel⟩
  | iterationCountZero =>
    rcases h with rfl | rfl | rfl <;>
      exact ⟨clientPVs, [none], ⟨some (answer (b!"AAAA") (b!"0")), []⟩, by decide +kernel⟩
  | base64Decode =>
    rcases h with rfl | rfl | rfl <;>
      exact ⟨clientPVs, [none], ⟨some (answer (b!"!") (b!"1")), []⟩, by decide +kernel⟩

theorem Begins.saslName {init : CS} (h : Begins init) :
    Ends init (.mechanismError (.saslName .empty)) ∧
    Ends init (.mechanismError (.saslName (.invalidChar 0))) := by
  rcases h with rfl | rfl | rfl <;> exact
    ⟨⟨[⟨.channelBindings, []⟩, ⟨.authId, []⟩], [], ⟨none, []⟩, by decide +kernel⟩,
      ⟨[⟨.channelBindings, []⟩, ⟨.authId, ['\x00']⟩], [], ⟨none, []⟩, by decide +kernel⟩⟩

theorem Begins.server {init : CS} (h : Begins init) (x : ServerErrorValue) :
    Ends init (.mechanismError (.scramServer x)) := by
  rcases h with rfl | rfl | rfl <;>
    refine ⟨clientPVs, [none, some (answer (b!"AAAA") (b!"1"))], ⟨some (b!"e=" ++ x.bytes), []⟩, ?_⟩ <;>
    cases x <;> decide +kernel

theorem Begins.mutual {init : CS} (h : Begins init) : Ends init .mutualAuthenticationFailed := by
  rcases h with rfl | rfl | rfl <;>
    exact ⟨clientPVs, [none, some (answer (b!"AAAA") (b!"1"))], ⟨some (b!"v="), []⟩, by decide +kernel⟩

/-- The client waits for the last message of the server. -/
def waitsForEnd : CS → Bool
  | some (.serverFirst ..) => true
  | _ => false

theorem Begins.attribute {init : CS} (h : Begins init) (x : UInt8) :
    Ends init (perr (.invalidAttribute x)) := by
  refine ⟨clientPVs, [none, some (answer (b!"AAAA") (b!"1"))], ⟨some [x, 120], []⟩, ?_⟩
  have hs : waitsForEnd ((Started.session ⟨client toyDigest, init⟩ fun _ => 0).afterAll (client toyDigest)
      (exampleEnv clientPVs) ([none, some (answer (b!"AAAA") (b!"1"))].map fun i => .step ⟨i, []⟩)).st =
      true := by
    rcases h with rfl | rfl | rfl <;> decide +kernel
  rw [Session.step_res]
  generalize (Session.afterAll _ _ _ _).st = s at hs
  cases s with
  | none => cases hs
  | some s =>
    cases s with
    | initial => cases hs
    | clientFirst => cases hs
    | serverFirst v ck sk salt it =>
      rw [(C77_steps _ _ _ _ _ (fields_iff.2 rfl)).2.2.2.1 v ck sk salt it x ⟨120, [], rfl, by simp⟩]
      rfl

theorem Begins.all {init : CS} (h : Begins init) {e : SessionError} (he : scramClientErrors none e) :
    Ends init e := by
  rcases he with he | he | ⟨rfl, -⟩ | he | rfl
  · name_error he
    exact h.io _
  · name_error he
    simp only [List.mem_cons, List.mem_nil_iff, or_false] at he
    rcases he with rfl | rfl
    · exact h.missing.1
    · exact h.missing.2.1
  · exact h.missing.2.2
  · name_error he
    unfold scramClientSort at he
    split at he
    · rcases he with rfl | rfl | rfl | ⟨b, rfl⟩
      · exact h.parse.1
      · exact h.parse.2.1
      · exact h.parse.2.2
      · exact h.attribute b
    · exact h.protocol _
    · exact h.server _
    · rcases he with rfl | rfl
      · exact h.saslName.1
      · exact h.saslName.2
    · contradiction
  · exact h.mutual

theorem client_occurs {h : Hash} {b : Bool} {e : SessionError}
    (he : clientErrors none (.scramClient h b) e) : ClientEndsWith (.scramClient h b) e := by
  have hb : Begins (clientNew b) := by
    cases b
    · exact .inr (.inl rfl)
    · exact .inl rfl
  obtain ⟨pvs, inputs, c, hc⟩ := hb.all he
  exact client_then (deps := toyDeps) pvs inputs c rfl hc

theorem plus_occurs {h : Hash} {e : SessionError}
    (he : clientErrors none (.scramClientPlus h) e) : ClientEndsWith (.scramClientPlus h) e := by
  rcases he with he | ⟨name, rfl⟩
  · obtain ⟨pvs, inputs, c, hc⟩ := Begins.all (.inr (.inr rfl)) he
    exact client_then (deps := toyDeps) pvs inputs c rfl hc
  · exact client_now (deps := toyDeps) [⟨.overrideCBType, name⟩] ⟨none, []⟩ rfl rfl

end Scram

/-! ## Servers -/

theorem Plain.server_occurs {e : SessionError} (h : serverErrors none .plain e) :
    ServerEndsWith .plain e := by
  rcases h with ⟨rfl, -⟩ | h | h
  · exact server_then (deps := toyDeps) [] (.ok ()) [] ⟨none, []⟩ rfl (by decide +kernel)
  · name_error h
    exact server_then (deps := toyDeps) [] (.error _) [] ⟨some [0, 97, 0, 98], []⟩ rfl rfl
  · name_error h
    obtain ⟨x, rfl, hx⟩ := h
    cases x with
    | containsNull => exact absurd rfl hx
    | empty =>
      exact server_then (deps := toyDeps) [] (.ok ()) [] ⟨some [97, 0, 0, 98], []⟩ rfl (by decide +kernel)
    | badFormat =>
      exact server_then (deps := toyDeps) [] (.ok ()) [] ⟨some [], []⟩ rfl (by decide +kernel)
    | badAuthzid =>
      exact server_then (deps := toyDeps) [] (.ok ()) [] ⟨some [255, 0, 97, 0, 98], []⟩ rfl
        (by decide +kernel)
    | badAuthcid =>
      exact server_then (deps := toyDeps) [] (.ok ()) [] ⟨some [0, 255, 0, 98], []⟩ rfl
        (by decide +kernel)
    | saslprep =>
      exact server_then (deps := { toyDeps with prep := fun _ => none }) [] (.ok ()) []
        ⟨some [0, 97, 0, 98], []⟩ rfl (by decide +kernel)

theorem Login.server_occurs {e : SessionError} (h : serverErrors none .login e) :
    ServerEndsWith .login e := by
  rcases h with h | ⟨rfl, -⟩ | h | h | rfl
  · name_error h
    next e =>
    refine server_then (deps := toyDeps) [] (.ok ()) [] ⟨none, [.fail e]⟩ rfl ?_
    cases e with
    | interrupted => exact absurd rfl h
    | writeZero => rfl
    | other n => rfl
  · exact server_then (deps := toyDeps) [] (.ok ()) [none] ⟨none, []⟩ rfl (by decide +kernel)
  · name_error h
    exact server_then (deps := toyDeps) [] (.error _) [none, some (b!"a")] ⟨some (b!"b"), []⟩ rfl rfl
  · name_error h
    subst h
    exact server_then (deps := toyDeps) [] (.ok ()) [none] ⟨some [255], []⟩ rfl (by decide +kernel)
  · exact server_then (deps := toyDeps) [] (.ok ()) [none, some (b!"a"), some (b!"b")] ⟨none, []⟩ rfl
      (by decide +kernel)

theorem External.server_occurs {e : SessionError} (h : serverErrors none .external e) :
    ServerEndsWith .external e := by
  rcases h with h | h
  · name_error h
    exact server_then (deps := toyDeps) [] (.error _) [] ⟨none, []⟩ rfl rfl
  · name_error h
    subst h
    exact server_then (deps := toyDeps) [] (.ok ()) [] ⟨some [255], []⟩ rfl (by decide +kernel)

theorem Anonymous.server_occurs {e : SessionError} (h : serverErrors none .anonymous e) :
    ServerEndsWith .anonymous e := by
  rcases h with h | h
  · name_error h
    exact server_then (deps := toyDeps) [] (.error _) [] ⟨none, []⟩ rfl rfl
  · name_error h
    subst h
    exact server_then (deps := toyDeps) [] (.ok ()) [] ⟨some [255], []⟩ rfl (by decide +kernel)

/-- A message of an XOAUTH2 client. -/
def xoauth2Msg (user token : Bytes) : Bytes :=
  b!"user=" ++ user ++ [1] ++ b!"auth=Bearer " ++ token ++ [1, 1]

theorem XOAuth2.server_occurs {e : SessionError} (h : serverErrors none .xoauth2 e) :
    ServerEndsWith .xoauth2 e := by
  rcases h with h | ⟨rfl, -⟩ | h | h | h
  · name_error h
    next e =>
    refine server_then (deps := toyDeps) [⟨.xoauth2Validate, .error (c!"e")⟩] (.ok ()) []
      ⟨some (xoauth2Msg (b!"a") (b!"t")), [.fail e]⟩ rfl ?_
    cases e with
    | interrupted => exact absurd rfl h
    | writeZero => rfl
    | other n => rfl
  · exact server_then (deps := toyDeps) [] (.ok ()) [] ⟨none, []⟩ rfl (by decide +kernel)
  · name_error h
    exact server_then (deps := toyDeps) [⟨.xoauth2Validate, .ok ()⟩] (.error _) []
      ⟨some (xoauth2Msg (b!"a") (b!"t")), []⟩ rfl rfl
  · name_error h
    simp only [List.mem_cons, List.not_mem_nil, or_false] at h
    subst h
    exact server_then (deps := toyDeps) [] (.ok ()) [] ⟨some (xoauth2Msg (b!"a") (b!"t")), []⟩ rfl
      (by decide +kernel)
  · name_error h
    rcases h with rfl | rfl | rfl
    · exact server_then (deps := toyDeps) [] (.ok ()) [] ⟨some [], []⟩ rfl (by decide +kernel)
    · exact server_then (deps := toyDeps) [] (.ok ()) [] ⟨some (xoauth2Msg [255] (b!"t")), []⟩ rfl
        (by decide +kernel)
    · exact server_then (deps := toyDeps) [] (.ok ()) [] ⟨some (xoauth2Msg (b!"a") [255]), []⟩ rfl
        (by decide +kernel)

/-- A message of an OAUTHBEARER client. -/
def oauthMsg (header pair : Bytes) : Bytes := header ++ [1] ++ pair ++ [1, 1]

theorem OAuthBearer.server_occurs {e : SessionError} (h : serverErrors none .oauthbearer e) :
    ServerEndsWith .oauthbearer e := by
  rcases h with ⟨rfl, -⟩ | h | h | h
  · exact server_then (deps := toyDeps) [] (.ok ()) [] ⟨none, []⟩ rfl (by decide +kernel)
  · name_error h
    exact server_then (deps := toyDeps) [⟨.oauthBearerValidate, .ok ()⟩] (.error _) []
      ⟨some (oauthMsg (b!"n,,") (b!"auth=t")), []⟩ rfl rfl
  · name_error h
    simp only [List.mem_cons, List.not_mem_nil, or_false] at h
    subst h
    exact server_then (deps := toyDeps) [] (.ok ()) [] ⟨some (oauthMsg (b!"n,,") (b!"auth=t")), []⟩ rfl
      (by decide +kernel)
  · name_error h
    rcases h with rfl | ⟨x, rfl, hx⟩
    · exact server_then (deps := toyDeps) [⟨.oauthBearerValidate, .error ⟨c!"e", none, none⟩⟩] (.ok ()) []
        ⟨some (oauthMsg (b!"n,,") (b!"auth=t")), [.fail .writeZero]⟩ rfl (by decide +kernel)
    cases x with
    | missingPart => exact absurd rfl hx
    | missingEnd =>
      exact server_then (deps := toyDeps) [] (.ok ()) [] ⟨some [], []⟩ rfl (by decide +kernel)
    | missingToken =>
      exact server_then (deps := toyDeps) [] (.ok ()) [] ⟨some (oauthMsg (b!"n,,") (b!"a=t")), []⟩ rfl
        (by decide +kernel)
    | invalidGs2 =>
      exact server_then (deps := toyDeps) [] (.ok ()) [] ⟨some (oauthMsg (b!"n") (b!"auth=t")), []⟩ rfl
        (by decide +kernel)
    | channelBindings =>
      exact server_then (deps := toyDeps) [] (.ok ()) [] ⟨some (oauthMsg (b!"y,,") (b!"auth=t")), []⟩ rfl
        (by decide +kernel)
    | invalidKVPair =>
      exact server_then (deps := toyDeps) [] (.ok ()) [] ⟨some (oauthMsg (b!"n,,") (b!"t")), []⟩ rfl
        (by decide +kernel)
    | invalidUtf8 =>
      exact server_then (deps := toyDeps) [] (.ok ()) []
        ⟨some (oauthMsg (b!"n,,") (b!"auth=" ++ [255])), []⟩ rfl (by decide +kernel)

theorem Gssapi.server_occurs {e : SessionError} (h : serverErrors none .gssapi e) :
    ServerEndsWith .gssapi e := by
  rcases h with h | h | ⟨rfl, -⟩ | rfl
  · name_error h
    next e =>
    refine server_then (deps := toyDeps) [] (.ok ()) [] ⟨some (b!"t"), [.fail e]⟩ rfl ?_
    cases e with
    | interrupted => exact absurd rfl h
    | writeZero => rfl
    | other n => rfl
  · name_error h
    unfold gssSort at h
    split at h <;> try contradiction
    · next n =>
      exact server_then (deps := gssDeps { toyGss with newServer := .error n }) [] (.ok ()) []
        ⟨none, []⟩ rfl rfl
    · exact server_then (deps := toyDeps) [] (.ok ()) [some (b!"t")] ⟨some [], []⟩ rfl
        (by decide +kernel)
    · exact server_then (deps := gssDeps { toyGss with flags := fun _ => .ok ⟨false, false, false⟩ })
        [⟨.gssSecurityLayer, .integrity⟩] (.ok ()) [] ⟨some (b!"t"), []⟩ rfl (by decide +kernel)
  · exact server_then (deps := toyDeps) [] (.ok ()) [] ⟨none, []⟩ rfl (by decide +kernel)
  · exact server_then (deps := toyDeps) [] (.ok ()) [none] ⟨none, []⟩ rfl (by decide +kernel)

namespace Scram

/-- A session of the server with the toy digest ends a step with `e`. -/
def ServerEnds (b : Bool) (e : SessionError) : Prop :=
  ∃ (pvs : List PV) (v : Except ValidationError Unit) (inputs : List (Option Bytes)) (c : Call),
    (((Started.session ⟨server toyDigest, some (.waitingClientFirst b)⟩ fun _ => 0).afterAll
      (server toyDigest) (judging pvs v) (inputs.map fun i => .step ⟨i, []⟩)).step (server toyDigest)
      (judging pvs v) c).1.res = .err e

/-- What the server knows: one user. -/
def serverPVs : List PV := [⟨.scramStoredPassword, oneUser⟩]

theorem server_io (b : Bool) (e : IoErr) : ServerEnds b (.io e) := by
  cases b <;> exact ⟨[], .ok (), [], ⟨some (b!"n,,n=user,r=abc"), [.fail e]⟩, rfl⟩

theorem server_asks (b : Bool) : ServerEnds b .inputDataRequired := by
  cases b <;> exact ⟨[], .ok (), [], ⟨none, []⟩, by decide +kernel⟩

set_option maxRecDepth 20000 in
theorem server_refuses (b : Bool) (v : ValidationError) : ServerEnds b (.validationError v) := by
  cases b <;> exact ⟨serverPVs, .error v, [some (b!"n,,n=user,r=abc")], ⟨some rightFinal, []⟩, rfl⟩

theorem server_done (b : Bool) : ServerEnds b .mechanismDone := by
  cases b <;> exact ⟨serverPVs, .ok (), [some (b!"n,,n=user,r=abc"), some rightFinal], ⟨none, []⟩,
    by decide +kernel⟩

theorem server_protocol (b : Bool) : ServerEnds b (protoErr .base64Decode) := by
  cases b <;> exact ⟨serverPVs, .ok (), [some (b!"n,,n=user,r=abc")], ⟨some (b!"c=!,r=abc,p=AAAA"), []⟩,
    by decide +kernel⟩

theorem server_hash (b : Bool) : ServerEnds b (.mechanismError .scramPasswordHashInvalid) := by
  cases b <;> exact ⟨[⟨.scramStoredPassword, (⟨1, [], [], []⟩ : StoredPassword)⟩], .ok (), [],
    ⟨some (b!"n,,n=user,r=abc"), []⟩, by decide +kernel⟩

theorem server_notUsed : ServerEnds true (.mechanismError .scramChannelBindingsNotUsed) :=
  ⟨[], .ok (), [], ⟨some (b!"y,,n=user,r=abc"), []⟩, by decide +kernel⟩

/-- A wrong first message. -/
theorem server_wrong (b : Bool) {input : Bytes} {ps : List Bytes} {f : SParseError}
    (hp : Fields input ps) (h : ClientFirstWrong ps f) : ServerEnds b (perr f) := by
  refine ⟨[], .ok (), [], ⟨some input, []⟩, ?_⟩
  rw [Session.step_res]
  show (((server toyDigest).step _ (some input) (some (.waitingClientFirst b)) _).1 = _)
  rw [(C77_steps _ _ _ _ _ hp).1 b f h]
  rfl

theorem server_parse (b : Bool) (f : SParseError) (h : scramServerSort b (.scramParse f)) :
    ServerEnds b (perr f) := by
  cases f with
  | badCBFlag => cases b <;> exact ⟨[], .ok (), [], ⟨some (b!"x"), []⟩, by decide +kernel⟩
  | badCBName x =>
    exact server_wrong b (input := [112, 61, x]) (.one (by simpa [eq_comm] using h.2))
      (.cbName (good := []) (rest := []) nofun h.1)
  | badGS2Header => cases b <;> exact ⟨[], .ok (), [], ⟨some (b!"n"), []⟩, by decide +kernel⟩
  | invalidAttribute x =>
    have h : x ≠ 44 := h
    exact server_wrong b (input := b!"n" ++ b!"," ++ ([] ++ b!"," ++ [x, 120]))
      (.more (by decide) (.more (by decide) (.one (by simpa [eq_comm] using h))))
      (.notName (authzid := none) .notSupported rfl ⟨120, [], rfl, by simp⟩)
  | missingAttributes => cases b <;> exact ⟨[], .ok (), [], ⟨some (b!"n,"), []⟩, by decide +kernel⟩
  | unknownMandatoryExtensions =>
    cases b <;> exact ⟨[], .ok (), [], ⟨some (b!"n,,m=x"), []⟩, by decide +kernel⟩
  | badUtf8 => cases b <;> exact ⟨[], .ok (), [], ⟨some (b!"n,,n=" ++ [255]), []⟩, by decide +kernel⟩
  | badNonce => cases b <;> exact ⟨[], .ok (), [], ⟨some (b!"n,,n=u,r= "), []⟩, by decide +kernel⟩

theorem server_missing (b : Bool) {name : Str} (h : BindingName name) :
    ServerEnds b (.missingChannelBindingData name) := by
  obtain ⟨post, hp, -⟩ := C31_missing toyDigest (judging [] (.ok ()))
    (Started.session ⟨server toyDigest, some (.waitingClientFirst b)⟩ fun _ => 0) b rfl name none
    (c!"user") (b!"abc") ⟨⟨_, rfl, h⟩, nofun, by decide, abc_printable⟩ h
    ⟨rfl, Env.Lacks.at (fun _ _ => declines_answerAll _ (by simp)) _⟩ [] []
  rw [run_cons] at hp
  exact ⟨[], .ok (), [], _, congrArg Reply.res (List.cons.inj hp).1⟩

theorem server_all (b : Bool) {e : SessionError} (h : scramServerErrors none b e) : ServerEnds b e := by
  rcases h with h | ⟨rfl, -⟩ | h | h | ⟨name, rfl, h⟩ | rfl
  · name_error h
    exact server_io b _
  · exact server_asks b
  · name_error h
    exact server_refuses b _
  · name_error h
    next m =>
    cases m with
    | scramParse f => exact server_parse b f h
    | scramProtocol x =>
      have h : x = .base64Decode := h
      subst h
      exact server_protocol b
    | scramPasswordHashInvalid => exact server_hash b
    | scramChannelBindingsNotUsed =>
      have h : b = true := h
      subst h
      exact server_notUsed
    | _ => exact absurd h (by simp [scramServerSort])
  · exact server_missing b h
  · exact server_done b

theorem server_occurs {h : Hash} {b : Bool} {e : SessionError}
    (he : serverErrors none (.scramServer h b) e) : ServerEndsWith (.scramServer h b) e := by
  obtain ⟨pvs, v, inputs, c, hc⟩ := server_all b he
  exact server_then (deps := toyDeps) pvs v inputs c rfl hc

theorem serverPlus_occurs {h : Hash} {e : SessionError}
    (he : serverErrors none (.scramServerPlus h) e) : ServerEndsWith (.scramServerPlus h) e := by
  obtain ⟨pvs, v, inputs, c, hc⟩ := server_all true he
  exact server_then (deps := toyDeps) pvs v inputs c rfl hc

end Scram

/-! ## C94 -/

theorem clientErrors_none {input : Option Bytes} {a : Auth} {e : SessionError}
    (h : clientErrors input a e) : clientErrors none a e := by
  have hi : isInputless input e → isInputless none e := fun h => ⟨h.1, rfl⟩
  have hs : scramClientErrors input e → scramClientErrors none e :=
    Or.imp_right (Or.imp_right (Or.imp_left hi))
  cases a
  case gssapi => exact Or.imp_right (Or.imp_right (Or.imp_right (Or.imp_left hi))) h
  case scramClient => exact hs h
  case scramClientPlus => exact Or.imp_left hs h
  all_goals exact h

theorem serverErrors_none {input : Option Bytes} {a : Auth} {e : SessionError}
    (h : serverErrors input a e) : serverErrors none a e := by
  have hi : isInputless input e → isInputless none e := fun h => ⟨h.1, rfl⟩
  have hs : ∀ b, scramServerErrors input b e → scramServerErrors none b e := fun _ =>
    Or.imp_right (Or.imp_left hi)
  cases a
  case plain => exact Or.imp_left hi h
  case login => exact Or.imp_right (Or.imp_left hi) h
  case xoauth2 => exact Or.imp_right (Or.imp_left hi) h
  case oauthbearer => exact Or.imp_left hi h
  case gssapi => exact Or.imp_right (Or.imp_right (Or.imp_left hi)) h
  case scramServer => exact hs _ h
  case scramServerPlus => exact hs _ h
  all_goals exact h

/-- C94, clients: with a callback that has no errors of its own, the errors of the table are those
that steps end with, no more and no fewer. -/
theorem C94_client (a : Auth) (e : SessionError) :
    ClientEndsWith a e ↔ ∃ input, clientErrors input a e := by
  constructor
  · rintro ⟨deps, st, env, rng, ops, c, h, henv, he⟩
    exact ⟨c.input, C67_client deps a st h env rng ops c _ (fun _ h => h) (henv _) e he⟩
  · rintro ⟨input, h⟩
    have h := clientErrors_none h
    cases a with
    | plain => exact Plain.client_occurs h
    | login => exact Login.client_occurs h
    | external => exact External.client_occurs h
    | anonymous => exact Anonymous.client_occurs h
    | xoauth2 => exact XOAuth2.client_occurs h
    | oauthbearer => exact OAuthBearer.client_occurs h
    | gssapi => exact Gssapi.client_occurs h
    | scramClient => exact Scram.client_occurs h
    | scramClientPlus => exact Scram.plus_occurs h
    | _ => exact h.elim

/-- C94, servers. -/
theorem C94_server (a : Auth) (e : SessionError) :
    ServerEndsWith a e ↔ ∃ input, serverErrors input a e := by
  constructor
  · rintro ⟨deps, st, env, rng, ops, c, h, henv, he⟩
    exact ⟨c.input, C67_server deps a st h env rng ops c _ (fun _ h => h) (henv _) e he⟩
  · rintro ⟨input, h⟩
    have h := serverErrors_none h
    cases a with
    | plain => exact Plain.server_occurs h
    | login => exact Login.server_occurs h
    | external => exact External.server_occurs h
    | anonymous => exact Anonymous.server_occurs h
    | xoauth2 => exact XOAuth2.server_occurs h
    | oauthbearer => exact OAuthBearer.server_occurs h
    | gssapi => exact Gssapi.server_occurs h
    | scramServer => exact Scram.server_occurs h
    | scramServerPlus => exact Scram.serverPlus_occurs h
    | _ => exact h.elim

/-- The exchange of a GSSAPI client that ends with a layer in force, if the library does not mind. -/
def layerOps : List Op := [.step ⟨none, []⟩, .step ⟨some [7, 0, 0, 0], []⟩]

/-- C94, security layers: the same for `encode` and `decode`. -/
theorem C94_layer (a : Auth) (e : SessionError) :
    LayerEndsWith a e ↔ (∀ n, a ≠ .custom n) ∧ layerErrors a e := by
  constructor
  · rintro ⟨deps, st, env, rng, ops, input, sched, h, he⟩
    refine ⟨?_, C67_layer deps a st h _ input sched e he⟩
    rintro n rfl
    rcases h with h | h <;> cases h
  · rintro ⟨ha, rfl | ⟨rfl, h | h⟩⟩
    · cases a with
      | custom n => exact absurd rfl (ha n)
      | scramServer => exact ⟨toyDeps, _, exampleEnv [], id, [], [], [], .inr rfl, .inl rfl⟩
      | scramServerPlus => exact ⟨toyDeps, _, exampleEnv [], id, [], [], [], .inr rfl, .inl rfl⟩
      | _ => exact ⟨toyDeps, _, exampleEnv [], id, [], [], [], .inl rfl, .inl rfl⟩
    · name_error h
      next e =>
      refine ⟨toyDeps, _, exampleEnv [⟨.gssService, c!"u"⟩, ⟨.hostname, c!"h"⟩], id, layerOps,
        b!"x", [.fail e], .inl rfl, .inl ?_⟩
      cases e with
      | interrupted => exact absurd rfl h
      | writeZero => rfl
      | other n => rfl
    · name_error h
      obtain ⟨n, rfl⟩ := h
      exact ⟨gssDeps { toyGss with wrap := fun _ e b => (if e then .error n else .ok b, ()) }, _,
        exampleEnv [⟨.gssService, c!"u"⟩, ⟨.hostname, c!"h"⟩], id, layerOps, b!"x", [], .inl rfl,
        .inl rfl⟩

/-! ## Examples -/

/-- A SCRAM client can be told any of the errors of the RFC; a server never is. -/
example (h : Hash) (x : ServerErrorValue) :
    ClientEndsWith (.scramClient h false) (.mechanismError (.scramServer x)) ∧
    ¬ ServerEndsWith (.scramServer h false) (.mechanismError (.scramServer x)) :=
  ⟨(C94_client _ _).2 ⟨none, .inr (.inr (.inr (.inl trivial)))⟩,
    fun hs => by
      obtain ⟨i, hi⟩ := (C94_server _ _).1 hs
      simp [serverErrors, scramServerErrors, isIo, isInputless, isRefused, isMech, scramServerSort] at hi⟩

/-- Only a server that offers channel bindings complains about a client that could have used them. -/
example (h : Hash) (b : Bool) :
    ServerEndsWith (.scramServer h b) (.mechanismError .scramChannelBindingsNotUsed) ↔ b = true := by
  rw [C94_server]
  simp [serverErrors, scramServerErrors, isIo, isInputless, isRefused, isMech, scramServerSort]

/-- PLAIN: the client never complains about the form of a message, the server never about NULs. -/
example : ¬ ClientEndsWith .plain (.mechanismError (.plain .badFormat)) ∧
    ServerEndsWith .plain (.mechanismError (.plain .badFormat)) ∧
    ClientEndsWith .plain (.mechanismError (.plain .containsNull)) ∧
    ¬ ServerEndsWith .plain (.mechanismError (.plain .containsNull)) := by
  simp [C94_client, C94_server, clientErrors, serverErrors, isWriteAll, isMissing, isInputless,
    isRefused, isMech]

/-- The example callback is one without errors of its own. -/
example : OnlyPassesOn (exampleEnv [⟨.authId, c!"user"⟩]) := example_passesOn _

end Rsasl

/-
Properties of whole sessions: C15 validation, C35 panics, C36 missing input, C37 termination,
C38 security layers, C48 who goes first, C23 `step64`.
-/
import Verif.Proofs.Run
import Verif.Spec.Examples
import Verif.Props.Selection
import Verif.Props.Basics

namespace Rsasl

/-! ## C15 -/

/-- C15 for one mechanism. -/
def C15 (st : Started) : Prop :=
  ∀ (env : Env) (rng : Nat → Nat) (calls : List Call),
    let r := (st.session rng).run st.mech env calls
    (Spec.AllRunning r.1 → validations r.2.log = []) ∧
    (Spec.Completed r.1 → (validations r.2.log).length = 1)

/-- C15 for PLAIN, LOGIN, EXTERNAL and ANONYMOUS: when a server session finishes, validate was
called exactly once; and not at all before. Missing: the other mechanisms, see below. -/
theorem C15_partial (deps : Deps) (a : Auth)
    (ha : a = .plain ∨ a = .login ∨ a = .external ∨ a = .anonymous) (st : Started)
    (hst : a.startServer deps = some st) : C15 st := by
  have key : ∀ (m : Mech) (init : m.S) (rank : m.S → Nat) (needs : m.S → Prop) (pan : Prop),
      Tame m rank (fun _ => 0) (· = 1) needs pan → C15 ⟨m, init⟩ := by
    intro m init rank needs pan h env rng calls
    refine ⟨fun hr => ?_, fun hr => ?_⟩
    · exact List.eq_nil_of_length_eq_zero (h.run_running env calls _ hr)
    · obtain ⟨n, rfl, he⟩ := h.run_completed env calls _ hr
      exact he
  rcases ha with rfl | rfl | rfl | rfl <;> cases hst
  · exact key _ _ _ _ _ (Plain.server_tame deps.prep)
  · exact key _ _ _ _ _ Login.server_tame
  · exact key _ _ _ _ _ External.server_tame
  · exact key _ _ _ _ _ Anonymous.server_tame

/-- C15 for XOAUTH2 and OAUTHBEARER: validate was called exactly once when the session finishes.
Missing: it is also called (once) in a session that so far only returned `Running`. -/
theorem C15_oauth_partial (deps : Deps) (a : Auth) (ha : a = .xoauth2 ∨ a = .oauthbearer)
    (st : Started) (hst : a.startServer deps = some st) (env : Env) (rng : Nat → Nat)
    (calls : List Call) :
    let r := (st.session rng).run st.mech env calls
    (Spec.AllRunning r.1 → (validations r.2.log).length ≤ 1) ∧
    (Spec.Completed r.1 → (validations r.2.log).length = 1) := by
  have key : ∀ (m : Mech) (init : m.S) (rank count : m.S → Nat) (needs : m.S → Prop) (pan : Prop),
      Tame m rank count (· = 1) needs pan → count init = 0 → (∀ s, count s ≤ 1) →
      let r := ((⟨m, init⟩ : Started).session rng).run m env calls
      (Spec.AllRunning r.1 → (validations r.2.log).length ≤ 1) ∧
      (Spec.Completed r.1 → (validations r.2.log).length = 1) := by
    intro m init rank count needs pan h h0 h1
    refine ⟨fun hr => ?_, fun hr => ?_⟩
    · have he := h.run_running env calls _ hr
      have h2 := h1 ((((⟨m, init⟩ : Started).session rng).run m env calls).2.st)
      have h3 : count ((⟨m, init⟩ : Started).session rng).st = 0 := h0
      have h4 : (validations ((⟨m, init⟩ : Started).session rng).log).length = 0 := rfl
      omega
    · obtain ⟨n, rfl, he⟩ := h.run_completed env calls _ hr
      have h3 : count ((⟨m, init⟩ : Started).session rng).st = 0 := h0
      have h4 : (validations ((⟨m, init⟩ : Started).session rng).log).length = 0 := rfl
      omega
  have hc : ∀ s : OAuthSState, s.count ≤ 1 := fun s => by cases s <;> decide
  rcases ha with rfl | rfl <;> cases hst
  · exact key _ _ _ _ _ _ XOAuth2.server_tame rfl hc
  · exact key _ _ _ _ _ _ (OAuthBearer.server_tame deps.json) rfl hc

/-- C15 for SCRAM: no validate call while only `Running` was returned, and at most one up to
`Finished`. Missing: with `Finished` there is none if the server refused the client, see
`C15_false_scram` and C26. -/
theorem C15_scram_partial (deps : Deps) (a : Auth)
    (ha : (∃ h b, a = .scramServer h b) ∨ ∃ h, a = .scramServerPlus h)
    (st : Started) (hst : a.startServer deps = some st) (env : Env) (rng : Nat → Nat)
    (calls : List Call) :
    let r := (st.session rng).run st.mech env calls
    (Spec.AllRunning r.1 → validations r.2.log = []) ∧
    (Spec.Completed r.1 → (validations r.2.log).length ≤ 1) := by
  have key : ∀ (d : Scram.Digest) (init : Scram.SS),
      let r := ((⟨Scram.server d, init⟩ : Started).session rng).run (Scram.server d) env calls
      (Spec.AllRunning r.1 → validations r.2.log = []) ∧
      (Spec.Completed r.1 → (validations r.2.log).length ≤ 1) := by
    intro d init
    refine ⟨fun hr => ?_, fun hr => ?_⟩
    · exact List.eq_nil_of_length_eq_zero ((Scram.server_tame d).run_running env calls _ hr)
    · obtain ⟨n, hn, he⟩ := (Scram.server_tame d).run_completed env calls _ hr
      exact Nat.le_trans (Nat.le_of_eq he) (by simpa [Started.session, validations] using hn)
  rcases ha with ⟨h, b, rfl⟩ | ⟨h, rfl⟩ <;> cases hst
  · exact key _ _
  · exact key _ _

/-- For GSSAPI C15 is false: the server finishes without ever calling validate. -/
theorem C15_gssapi_never (lib : Gssapi.Lib) (env : Env) (calls : List Call)
    (ses : Session (Gssapi.server lib).S) :
    validations (ses.run (Gssapi.server lib) env calls).2.log = validations ses.log := by
  induction calls generalizing ses with
  | nil => rfl
  | cons c cs ih =>
    rw [run_cons]
    have := ((Gssapi.serverStep_post std_true env.errs_true c.input ses.st
      (validations ses.log)).exec c.sched).vals
    exact (ih _).trans this

/-- The messages of a SCRAM exchange with a user the server does not know. -/
def scramUnknownCalls : List Call :=
  [⟨some (b!"n,,n=user,r=abc"), []⟩, ⟨some (b!"c=biws,r=abc,p=AA=="), []⟩]

/-- C15 is false for SCRAM: refusing a client the server returns `Finished` without validate
having been called. -/
theorem C15_false_scram : ¬ ∀ deps st, Spec.BuiltinServer deps st → C15 st := by
  intro h
  have h := (h toyDeps ⟨Scram.server toyDigest, Scram.serverNew false⟩
    ⟨.scramServer .sha256 false, rfl⟩ (exampleEnv []) (fun _ => 0) scramUnknownCalls).2
    ⟨[⟨.ok .running, _⟩], ⟨.ok (.finished .yes), _⟩, .yes, rfl, by simp [Spec.AllRunning], rfl⟩
  exact absurd h (by decide)

/-- C15 is false for GSSAPI. -/
theorem C15_false_gssapi : ¬ C15 ⟨Gssapi.server toyGss, .initial⟩ := by
  intro h
  have h := (h (exampleEnv []) (fun _ => 0)
    [⟨some [], []⟩, ⟨some [1, 0, 0, 0], []⟩]).2
    ⟨[⟨.ok .running, _⟩], ⟨.ok (.finished .no), _⟩, .no, rfl, by simp [Spec.AllRunning], rfl⟩
  exact absurd h (by decide)

/-- C15 is false for XOAUTH2: told to refuse the token the server calls validate, then returns
`Running`. -/
theorem C15_false_xoauth2 : ¬ C15 ⟨XOAuth2.server, .initial⟩ := by
  intro h
  have h := (h (exampleEnv [⟨.xoauth2Validate, .error (c!"no")⟩]) (fun _ => 0)
    [⟨some (b!"user=u\x01auth=Bearer t\x01\x01"), []⟩]).1 (fun r hr => by
      rcases List.mem_singleton.1 hr with rfl
      rfl)
  exact absurd h (by decide)

example : Spec.Completed (((⟨Login.server, .new⟩ : Started).session (fun _ => 0)).run Login.server
    (exampleEnv []) [⟨none, []⟩, ⟨some (b!"u"), []⟩, ⟨some (b!"p"), []⟩]).1 :=
  ⟨[⟨.ok .running, b!"User Name\x00"⟩, ⟨.ok .running, b!"Password\x00"⟩], ⟨.ok (.finished .no), []⟩,
    .no, rfl, by simp [Spec.AllRunning], rfl⟩

/-! ## C37 -/

/-- C37: a session of any built-in mechanism but GSSAPI returns `Running` at most twice, whatever
the inputs, the callbacks and the writers do, even if it is used on after errors. -/
theorem C37 (deps : Deps) (st : Started) (a : Auth) (ha : a ≠ .gssapi)
    (hst : a.startServer deps = some st ∨ a.startClient deps = some st) (env : Env)
    (rng : Nat → Nat) (calls : List Call) :
    Spec.runningCount ((st.session rng).run st.mech env calls).1 ≤ 2 := by
  have key : ∀ (m : Mech) (init : m.S) (rank count : m.S → Nat) fin (needs : m.S → Prop) (pan : Prop),
      Tame m rank count fin needs pan → rank init ≤ 2 →
      Spec.runningCount (((⟨m, init⟩ : Started).session rng).run m env calls).1 ≤ 2 := by
    intro m init rank count fin needs pan h h2
    exact Nat.le_trans (Nat.le_trans (Nat.le_add_right _ _)
      (h.run_rank env calls ((⟨m, init⟩ : Started).session rng))) h2
  cases a with
  | gssapi => exact absurd rfl ha
  | plain =>
    rcases hst with hst | hst <;> cases hst
    · exact key _ _ _ _ _ _ _ (Plain.server_tame deps.prep) (by decide)
    · exact key _ _ _ _ _ _ _ Plain.client_tame (by decide)
  | login =>
    rcases hst with hst | hst <;> cases hst
    · exact key _ _ _ _ _ _ _ Login.server_tame (by decide)
    · exact key _ _ _ _ _ _ _ Login.client_tame (by decide)
  | external =>
    rcases hst with hst | hst <;> cases hst
    · exact key _ _ _ _ _ _ _ External.server_tame (by decide)
    · exact key _ _ _ _ _ _ _ External.client_tame (by decide)
  | anonymous =>
    rcases hst with hst | hst <;> cases hst
    · exact key _ _ _ _ _ _ _ Anonymous.server_tame (by decide)
    · exact key _ _ _ _ _ _ _ Anonymous.client_tame (by decide)
  | xoauth2 =>
    rcases hst with hst | hst <;> cases hst
    · exact key _ _ _ _ _ _ _ XOAuth2.server_tame (by decide)
    · exact key _ _ _ _ _ _ _ XOAuth2.client_tame (by decide)
  | oauthbearer =>
    rcases hst with hst | hst <;> cases hst
    · exact key _ _ _ _ _ _ _ (OAuthBearer.server_tame _) (by decide)
    · exact key _ _ _ _ _ _ _ (OAuthBearer.client_tame _) (by decide)
  | scramClient x b =>
    rcases hst with hst | hst <;> cases hst
    exact key _ _ _ _ _ _ _ (Scram.client_tame _) (by cases b <;> decide)
  | scramClientPlus x =>
    rcases hst with hst | hst <;> cases hst
    exact key _ _ _ _ _ _ _ (Scram.client_tame _) (by decide)
  | scramServer x b =>
    rcases hst with hst | hst <;> cases hst
    exact key _ _ _ _ _ _ _ (Scram.server_tame _) (by cases b <;> decide)
  | scramServerPlus x =>
    rcases hst with hst | hst <;> cases hst
    exact key _ _ _ _ _ _ _ (Scram.server_tame _) (by decide)
  | custom n => rcases hst with hst | hst <;> cases hst

/-- The bound is reached. -/
example : Spec.runningCount (((⟨Login.server, .new⟩ : Started).session (fun _ => 0)).run Login.server
    (exampleEnv []) [⟨none, []⟩, ⟨some (b!"u"), []⟩, ⟨some (b!"p"), []⟩, ⟨none, []⟩]).1 = 2 := rfl

/-! ## C36 -/

/-- C36 for one mechanism: a step that returns `InputDataRequired` got no input and left the
session exactly as it was, without writing anything. (A user callback can of course return this
error itself; that is excluded.) -/
def C36 (st : Started) : Prop :=
  ∀ (env : Env), Spec.NoInventedIDR env → ∀ (ses : Session st.mech.S) (c : Call),
    (ses.step st.mech env c).1.res = .err .inputDataRequired →
    c.input = none ∧ ses.step st.mech env c = (⟨.err .inputDataRequired, []⟩, ses)

/-- C36 for all mechanisms except SCRAM and GSSAPI, for which it is false. -/
theorem C36_partial (deps : Deps) (st : Started) (a : Auth) (hs : a.isScram = false)
    (ha : a ≠ .gssapi) (hst : a.startServer deps = some st ∨ a.startClient deps = some st) :
    C36 st := by
  have key : ∀ (m : Mech) (init : m.S) (rank count : m.S → Nat) fin (needs : m.S → Prop) (pan : Prop),
      Tame m rank count fin needs pan → Refuses m needs → C36 ⟨m, init⟩ := by
    intro m init rank count fin needs pan h hr env henv ses c hc
    rcases (h.step std_ne henv ses c).err _ hc with hne | ⟨_, hi, hn⟩
    · exact absurd rfl hne
    · obtain ⟨input, sched⟩ := c
      cases hi
      exact ⟨rfl, hr.session env ses sched hn⟩
  cases a with
  | gssapi => exact absurd rfl ha
  | plain =>
    rcases hst with hst | hst <;> cases hst
    · exact key _ _ _ _ _ _ _ (Plain.server_tame deps.prep) (fun _ _ _ _ => rfl)
    · exact key _ _ _ _ _ _ _ Plain.client_tame (fun _ _ _ h => h.elim)
  | login =>
    rcases hst with hst | hst <;> cases hst
    · refine key _ _ _ _ _ _ _ Login.server_tame (fun _ s _ h => ?_)
      cases s with
      | new => cases h
      | waitingForUsername => rfl
      | waitingForPassword u => rfl
      | done => cases h
    · exact key _ _ _ _ _ _ _ Login.client_tame (fun _ _ _ h => h.elim)
  | external =>
    rcases hst with hst | hst <;> cases hst
    · exact key _ _ _ _ _ _ _ External.server_tame (fun _ _ _ h => h.elim)
    · exact key _ _ _ _ _ _ _ External.client_tame (fun _ _ _ h => h.elim)
  | anonymous =>
    rcases hst with hst | hst <;> cases hst
    · exact key _ _ _ _ _ _ _ Anonymous.server_tame (fun _ _ _ h => h.elim)
    · exact key _ _ _ _ _ _ _ Anonymous.client_tame (fun _ _ _ h => h.elim)
  | xoauth2 =>
    rcases hst with hst | hst <;> cases hst
    · refine key _ _ _ _ _ _ _ XOAuth2.server_tame (fun _ s _ h => ?_)
      have h : s = .initial := h
      subst h
      rfl
    · exact key _ _ _ _ _ _ _ XOAuth2.client_tame (fun _ _ _ h => h.elim)
  | oauthbearer =>
    rcases hst with hst | hst <;> cases hst
    · refine key _ _ _ _ _ _ _ (OAuthBearer.server_tame _) (fun _ s _ h => ?_)
      have h : s = .initial := h
      subst h
      rfl
    · exact key _ _ _ _ _ _ _ (OAuthBearer.client_tame _) (fun _ _ _ h => h.elim)
  | scramClient x b => cases hs
  | scramClientPlus x => cases hs
  | scramServer x b => cases hs
  | scramServerPlus x => cases hs
  | custom n => rcases hst with hst | hst <;> cases hst

/-- What C36 gives: the failed call might as well not have happened. -/
theorem C36_as_if_never_called {st : Started} (h : C36 st) (env : Env)
    (henv : Spec.NoInventedIDR env) (ses : Session st.mech.S) (c : Call)
    (hc : (ses.step st.mech env c).1.res = .err .inputDataRequired) (cs : List Call) :
    ses.run st.mech env (c :: cs) = (⟨.err .inputDataRequired, []⟩ :: (ses.run st.mech env cs).1,
      (ses.run st.mech env cs).2) := by
  rw [run_cons, (h env henv ses c hc).2]

theorem exampleEnv_noIDR (pvs : List PV) : Spec.NoInventedIDR (exampleEnv pvs) := by
  intro log ctx
  show (answerAll pvs).Errs _
  induction pvs with
  | nil => exact fun e h => nomatch h
  | cons pv pvs ih =>
    intro r hr
    cases r with
    | ok u => exact ih
    | error e =>
      intro e' h
      cases h
      exact hr _ rfl

/-- C36 is false for SCRAM: after the failed call the server panics on a message it would have
accepted. -/
theorem C36_false_scram : ¬ C36 ⟨Scram.server toyDigest, Scram.serverNew false⟩ := by
  intro h
  have := C36_as_if_never_called h (exampleEnv []) (exampleEnv_noIDR [])
    ⟨Scram.serverNew false, none, fun _ => 0, []⟩ ⟨none, []⟩ rfl
    [⟨some (b!"n,,n=user,r=abc"), []⟩]
  have := congrArg (fun r => r.1.map Reply.res) this
  exact absurd this (by decide)

/-- C36 is false for the SCRAM client. -/
theorem C36_false_scram_client : ¬ C36 ⟨Scram.client toyDigest, Scram.clientNew true⟩ := by
  intro h
  have := (h (exampleEnv []) (exampleEnv_noIDR [])
    ⟨some (.clientFirst [] [] []), none, fun _ => 0, []⟩ ⟨none, []⟩ rfl).2
  have : (none : Scram.CS) = some _ := congrArg (fun r => r.2.st) this
  cases this

/-- C36 is false for GSSAPI: the failed call ends the exchange. -/
theorem C36_false_gssapi : ¬ C36 ⟨Gssapi.server toyGss, .initial⟩ := by
  intro h
  have := C36_as_if_never_called h (exampleEnv []) (exampleEnv_noIDR [])
    ⟨.initial, none, fun _ => 0, []⟩ ⟨none, []⟩ rfl [⟨some [], []⟩]
  have := congrArg (fun r => r.1.map Reply.res) this
  exact absurd this (by decide)

/-- C36 exactly: it holds for all mechanisms but SCRAM (with any hash) and GSSAPI (with any library
that can have a context), on both sides. -/
theorem C36_exact (deps : Deps) (ctx : deps.gss.Ctx) (st : Started) (a : Auth)
    (hst : a.startServer deps = some st ∨ a.startClient deps = some st) :
    C36 st ↔ a.isScram = false ∧ a ≠ .gssapi := by
  refine ⟨fun h => ?_, fun ⟨h1, h2⟩ => C36_partial deps st a h1 h2 hst⟩
  have hsrv : ∀ (d : Scram.Digest) (i : Scram.SS), ¬ C36 ⟨Scram.server d, i⟩ := fun d i h =>
    nomatch congrArg (fun r => r.2.st) (h (exampleEnv []) (exampleEnv_noIDR [])
      ⟨some (.waitingClientFirst false), none, fun _ => 0, []⟩ ⟨none, []⟩ rfl).2
  have hcli : ∀ (d : Scram.Digest) (i : Scram.CS), ¬ C36 ⟨Scram.client d, i⟩ := fun d i h =>
    nomatch congrArg (fun r => r.2.st) (h (exampleEnv []) (exampleEnv_noIDR [])
      ⟨some (.clientFirst [] [] []), none, fun _ => 0, []⟩ ⟨none, []⟩ rfl).2
  cases a with
  | gssapi =>
    exfalso
    rcases hst with hst | hst <;> cases hst
    · exact nomatch congrArg (fun r => r.2.st) (h (exampleEnv []) (exampleEnv_noIDR [])
        ⟨.pending ctx, none, fun _ => 0, []⟩ ⟨none, []⟩ rfl).2
    · exact nomatch congrArg (fun r => r.2.st) (h (exampleEnv []) (exampleEnv_noIDR [])
        ⟨.last ctx .none, none, fun _ => 0, []⟩ ⟨none, []⟩ rfl).2
  | scramClient x b => rcases hst with hst | hst <;> cases hst <;> exact absurd h (hcli _ _)
  | scramClientPlus x => rcases hst with hst | hst <;> cases hst <;> exact absurd h (hcli _ _)
  | scramServer x b => rcases hst with hst | hst <;> cases hst <;> exact absurd h (hsrv _ _)
  | scramServerPlus x => rcases hst with hst | hst <;> cases hst <;> exact absurd h (hsrv _ _)
  | custom n => rcases hst with hst | hst <;> cases hst
  | _ => exact ⟨rfl, nofun⟩

example : (Auth.scramServer .sha256 true).startServer toyDeps =
    some ⟨Scram.server (toyDeps.digest .sha256), Scram.serverNew true⟩ := rfl

/-! ## C35 -/

/-- C35 for one mechanism: as long as all calls returned `Running`, the next one does not
panic. -/
def C35 (st : Started) : Prop :=
  ∀ (env : Env) (rng : Nat → Nat) (calls : List Call) (pre : List (Reply State)) (r : Reply State)
    (post : List (Reply State)),
    ((st.session rng).run st.mech env calls).1 = pre ++ r :: post → Spec.AllRunning pre →
    r.res ≠ .panic

theorem Gssapi.client_run_no_panic (lib : Gssapi.Lib) (env : Env) (calls : List Call)
    (ses : Session (Gssapi.client lib).S) :
    ∀ r ∈ (ses.run (Gssapi.client lib) env calls).1, r.res ≠ .panic := by
  induction calls generalizing ses with
  | nil => intro r hr; cases hr
  | cons c cs ih =>
    intro r hr
    rw [run_cons] at hr
    rcases List.mem_cons.1 hr with rfl | hr
    · exact ((Gssapi.clientStep_post std_true env.errs_true c.input ses.st
        (validations ses.log)).exec c.sched).np
    · exact ih _ r hr

theorem Gssapi.server_run_no_panic (lib : Gssapi.Lib) (env : Env) (calls : List Call)
    (ses : Session (Gssapi.server lib).S) :
    ∀ r ∈ (ses.run (Gssapi.server lib) env calls).1, r.res ≠ .panic := by
  induction calls generalizing ses with
  | nil => intro r hr; cases hr
  | cons c cs ih =>
    intro r hr
    rw [run_cons] at hr
    rcases List.mem_cons.1 hr with rfl | hr
    · exact ((Gssapi.serverStep_post std_true env.errs_true c.input ses.st
        (validations ses.log)).exec c.sched).np
    · exact ih _ r hr

/-- C35 for all mechanisms but SCRAM, and more: no call on such a session ever panics, not even
after an error or `Finished`. -/
theorem C35_partial (deps : Deps) (st : Started) (a : Auth) (hs : a.isScram = false)
    (hst : a.startServer deps = some st ∨ a.startClient deps = some st) (env : Env)
    (rng : Nat → Nat) (calls : List Call) :
    ∀ r ∈ ((st.session rng).run st.mech env calls).1, r.res ≠ .panic := by
  cases a with
  | gssapi =>
    rcases hst with hst | hst <;> cases hst
    · exact Gssapi.server_run_no_panic _ env calls _
    · exact Gssapi.client_run_no_panic _ env calls _
  | plain =>
    rcases hst with hst | hst <;> cases hst
    · exact (Plain.server_tame deps.prep).run_no_panic env calls _
    · exact Plain.client_tame.run_no_panic env calls _
  | login =>
    rcases hst with hst | hst <;> cases hst
    · exact Login.server_tame.run_no_panic env calls _
    · exact Login.client_tame.run_no_panic env calls _
  | external =>
    rcases hst with hst | hst <;> cases hst
    · exact External.server_tame.run_no_panic env calls _
    · exact External.client_tame.run_no_panic env calls _
  | anonymous =>
    rcases hst with hst | hst <;> cases hst
    · exact Anonymous.server_tame.run_no_panic env calls _
    · exact Anonymous.client_tame.run_no_panic env calls _
  | xoauth2 =>
    rcases hst with hst | hst <;> cases hst
    · exact XOAuth2.server_tame.run_no_panic env calls _
    · exact XOAuth2.client_tame.run_no_panic env calls _
  | oauthbearer =>
    rcases hst with hst | hst <;> cases hst
    · exact (OAuthBearer.server_tame _).run_no_panic env calls _
    · exact (OAuthBearer.client_tame _).run_no_panic env calls _
  | scramClient x b => cases hs
  | scramClientPlus x => cases hs
  | scramServer x b => cases hs
  | scramServerPlus x => cases hs
  | custom n => rcases hst with hst | hst <;> cases hst

/-- C35 for the SCRAM client, provided the server's messages have two bytes between any two
commas and the callback offers cached keys of the right length only. Missing: other messages
make it panic (`C35_false_client`). -/
theorem C35_scram_client_partial (d : Scram.Digest) (env : Env)
    (henv : env.Supplies .scramCachedPassword (Scram.CachedOk d)) (plus : Scram.CbSupport)
    (rng : Nat → Nat) (c : Call) (cs : List Call) (hc : ∀ x ∈ cs, Scram.ClientShaped x.input)
    (pre : List (Reply State)) (r : Reply State) (post : List (Reply State))
    (hr : (((⟨Scram.client d, some (.initial plus)⟩ : Started).session rng).run (Scram.client d)
      env (c :: cs)).1 = pre ++ r :: post)
    (hpre : Spec.AllRunning pre) : r.res ≠ .panic := by
  have key : ∀ (cs : List Call) (ses : Session Scram.CS) (pre : List (Reply State)),
      ses.st ≠ none → (∀ x ∈ cs, Scram.ClientShaped x.input) →
      (Session.run (Scram.client d) env ses cs).1 = pre ++ r :: post → Spec.AllRunning pre →
      r.res ≠ .panic := by
    intro cs
    induction cs with
    | nil => intro ses pre _ _ h; simp [Session.run] at h
    | cons c cs ih =>
      intro ses pre hs hc h hpre
      have h := (congrArg Prod.fst (run_cons (Scram.client d) env ses c cs)).symm.trans h
      cases pre with
      | nil =>
        cases h
        exact Scram.client_step_ne_panic d henv ses c hs (.inl (hc c (by simp)))
      | cons r₀ pre =>
        rw [List.cons_append] at h
        injection h with h1 h2
        obtain ⟨hp1, hp2⟩ := hpre.of_cons
        rw [← h1] at hp1
        exact ih _ pre ((Scram.client_next d env c.input ses.st _).exec c.sched hp1)
          (fun x hx => hc x (by simp [hx])) h2 hp2
  have h := (congrArg Prod.fst (run_cons (Scram.client d) env _ c cs)).symm.trans hr
  cases pre with
  | nil =>
    cases h
    exact Scram.client_step_ne_panic d henv _ c nofun (.inr ⟨plus, rfl⟩)
  | cons r₀ pre =>
    rw [List.cons_append] at h
    injection h with h1 h2
    obtain ⟨hp1, hp2⟩ := hpre.of_cons
    rw [← h1] at hp1
    exact key cs _ pre ((Scram.client_next d env c.input _ _).exec c.sched hp1) hc h2 hp2

/-- C35 for the SCRAM server, provided the client's messages have two bytes between any two
commas (except for the GS2 header of the first one). Missing: other messages make it panic
(`C35_false_server`). -/
theorem C35_scram_server_partial (d : Scram.Digest) (env : Env) (canCb : Bool)
    (rng : Nat → Nat) (c : Call) (cs : List Call) (hc₁ : Scram.FirstShaped c.input)
    (hc : ∀ x ∈ cs, Scram.ClientShaped x.input)
    (pre : List (Reply State)) (r : Reply State) (post : List (Reply State))
    (hr : (((⟨Scram.server d, Scram.serverNew canCb⟩ : Started).session rng).run (Scram.server d)
      env (c :: cs)).1 = pre ++ r :: post)
    (hpre : Spec.AllRunning pre) : r.res ≠ .panic := by
  have h := (congrArg Prod.fst (run_cons (Scram.server d) env _ c cs)).symm.trans hr
  cases pre with
  | nil =>
    cases h
    exact Scram.server_step_ne_panic d env _ c nofun (.inl ⟨hc₁, canCb, rfl⟩)
  | cons r₀ pre =>
    rw [List.cons_append] at h
    injection h with h1 h2
    obtain ⟨hp1, hp2⟩ := hpre.of_cons
    rw [← h1] at hp1
    have hnext := (Scram.server_next d env c.input (Scram.serverNew canCb) _).exec
      (ses := (⟨Scram.server d, Scram.serverNew canCb⟩ : Started).session rng) c.sched hp1
    have hrank := (((Scram.server_tame d).step std_true env.errs_true
      ((⟨Scram.server d, Scram.serverNew canCb⟩ : Started).session rng) c).running hp1).1
    have hst : ¬ ∃ b, (Session.step (Scram.server d) env
        ((⟨Scram.server d, Scram.serverNew canCb⟩ : Started).session rng) c).2.st =
        some (.waitingClientFirst b) := by
      rintro ⟨b, hb⟩
      rw [hb] at hrank
      exact absurd hrank (Nat.lt_irrefl 1)
    cases cs with
    | nil => simp [Session.run] at h2
    | cons c₂ cs =>
      have h2 := (congrArg Prod.fst (run_cons (Scram.server d) env _ c₂ cs)).symm.trans h2
      cases pre with
      | nil =>
        cases h2
        exact Scram.server_step_ne_panic d env _ c₂ hnext (.inr ⟨hc c₂ (by simp), hst⟩)
      | cons r₁ pre =>
        rw [List.cons_append] at h2
        injection h2 with h3 h4
        obtain ⟨hp3, _⟩ := hp2.of_cons
        rw [← h3] at hp3
        have hrank2 := (((Scram.server_tame d).step std_true env.errs_true _ c₂).running hp3).1
        exfalso
        have h0 : Scram.srank (Session.step (Scram.server d) env
          ((⟨Scram.server d, Scram.serverNew canCb⟩ : Started).session rng) c).2.st = 0 :=
          Nat.lt_one_iff.1 hrank
        rw [h0] at hrank2
        exact absurd hrank2 (Nat.not_lt_zero _)

/-- C35 is false for SCRAM servers: `n,,n` makes it panic. -/
theorem C35_false_server : ¬ C35 ⟨Scram.server toyDigest, Scram.serverNew false⟩ := by
  intro h
  exact h (exampleEnv []) (fun _ => 0) [⟨some (b!"n,,n"), []⟩] [] _ [] rfl nofun rfl

/-- C35 is false for SCRAM clients: a server's message `r=x,s` makes it panic. -/
theorem C35_false_client : ¬ C35 ⟨Scram.client toyDigest, Scram.clientNew true⟩ := by
  intro h
  exact h (exampleEnv [⟨.authId, c!"user"⟩]) (fun _ => 0)
    [⟨none, []⟩, ⟨some (b!"r=x,s"), []⟩] [⟨.ok .running, _⟩] _ [] rfl
    (by simp [Spec.AllRunning]) rfl

/-- C35 is false for SCRAM clients also because of cached keys of the wrong length. -/
theorem C35_false_cached : ¬ C35 ⟨Scram.client toyDigest, Scram.clientNew true⟩ := by
  intro h
  exact h (exampleEnv [⟨.authId, c!"user"⟩, ⟨.scramCachedPassword, ⟨[], []⟩⟩]) (fun _ => 0)
    [⟨none, []⟩, ⟨some (b!"r=!!!!!!!!!!!!!!!!!!!!!!!!abc,s=AA==,i=1"), []⟩]
    [⟨.ok .running, _⟩] _ [] rfl (by simp [Spec.AllRunning]) rfl

example : Scram.FirstShaped (some (b!"n,,n=user,r=abc")) := by
  intro b hb
  cases hb
  intro flag az rest h
  have : splitOn 44 (b!"n,,n=user,r=abc") = [b!"n", [], b!"n=user", b!"r=abc"] := by decide
  rw [this] at h
  cases h
  exact ⟨.inl rfl, by decide⟩

/-! ## C38 -/

/-- C38: `encode` and `decode` report `NoSecurityLayer` exactly if there is no security layer. -/
theorem C38_consistent (deps : Deps) (st : Started)
    (hst : Spec.BuiltinServer deps st ∨ Spec.BuiltinClient deps st)
    (ses : Session st.mech.S) (input : Bytes) (sched : List WResp) :
    ((ses.encode st.mech input sched).1.res = .err .noSecurityLayer ↔
      ses.hasSecurityLayer st.mech = false) ∧
    ((ses.decode st.mech input sched).1.res = .err .noSecurityLayer ↔
      ses.hasSecurityLayer st.mech = false) := by
  have hdef : ∀ (S : Type) (step : Env → Option Bytes → M S State) (init : S) (ses : Session S),
      let st : Started := ⟨{ S := S, step := step }, init⟩
      ((Session.encode st.mech ses input sched).1.res = .err .noSecurityLayer ↔
        Session.hasSecurityLayer st.mech ses = false) ∧
      ((Session.decode st.mech ses input sched).1.res = .err .noSecurityLayer ↔
        Session.hasSecurityLayer st.mech ses = false) :=
    fun S step init ses => ⟨⟨fun _ => rfl, fun _ => rfl⟩, ⟨fun _ => rfl, fun _ => rfl⟩⟩
  have hlayer : ∀ {S : Type} (lib : Gssapi.Lib) (put : lib.Ctx → S) (ctx : lib.Ctx) (e : Bool)
      (s : S) (w : World), (Gssapi.layerEncode lib put ctx e input s w).1 ≠ .err .noSecurityLayer ∧
        (Gssapi.layerDecode lib put ctx input s w).1 ≠ .err .noSecurityLayer := by
    intro S lib put ctx e s w
    have hf : Fails (fun e => e ≠ .noSecurityLayer) (Gssapi.layerEncode lib put ctx e input : M S Nat) := by
      refine Fails.bind (Fails.set _) (fun _ => Fails.bind ?_ (fun _ =>
        Fails.bind (Fails.writeAll (fun _ => nofun) _) (fun _ => Fails.pure _)))
      generalize (lib.wrap ctx e input).1 = r
      cases r with
      | ok a => exact Fails.pure _
      | error n => exact Fails.fail nofun
    have hf' : Fails (fun e => e ≠ .noSecurityLayer) (Gssapi.layerDecode lib put ctx input : M S Nat) := by
      refine Fails.bind (Fails.set _) (fun _ => Fails.bind ?_ (fun _ =>
        Fails.bind (Fails.writeAll (fun _ => nofun) _) (fun _ => Fails.pure _)))
      generalize (lib.unwrap ctx input).1 = r
      cases r with
      | ok a => exact Fails.pure _
      | error n => exact Fails.fail nofun
    exact ⟨fun h => hf s w _ h rfl, fun h => hf' s w _ h rfl⟩
  rcases hst with ⟨a, ha⟩ | ⟨a, ha⟩
  · cases a <;> cases ha
    case inl.gssapi.refl =>
      obtain ⟨s, slot, rng, log⟩ := ses
      have no : ∀ s : Gssapi.SState deps.gss, Gssapi.serverHasLayer deps.gss s = false →
          (Gssapi.serverEncode deps.gss input s ⟨⟨[], sched⟩, rng, slot, log⟩).1 =
            .err .noSecurityLayer ∧
          (Gssapi.serverDecode deps.gss input s ⟨⟨[], sched⟩, rng, slot, log⟩).1 =
            .err .noSecurityLayer := by
        intro s hs
        match s, hs with
        | .initial, _ => exact ⟨rfl, rfl⟩
        | .pending _, _ => exact ⟨rfl, rfl⟩
        | .installed .., _ => exact ⟨rfl, rfl⟩
        | .final .., _ => exact ⟨rfl, rfl⟩
        | .done none, _ => exact ⟨rfl, rfl⟩
        | .errored, _ => exact ⟨rfl, rfl⟩
      refine ⟨⟨fun h => ?_, fun h => (no s h).1⟩, ⟨fun h => ?_, fun h => (no s h).2⟩⟩
      all_goals
        cases hl : Gssapi.serverHasLayer deps.gss s with
        | false => exact hl
        | true =>
          exfalso
          match s, hl with
          | .done (some (ctx, e)), _ =>
            first
              | exact (hlayer deps.gss (fun c => Gssapi.SState.done (some (c, e))) ctx e (.done (some (ctx, e)))
                  ⟨⟨[], sched⟩, rng, slot, log⟩).1 h
              | exact (hlayer deps.gss (fun c => Gssapi.SState.done (some (c, e))) ctx e (.done (some (ctx, e)))
                  ⟨⟨[], sched⟩, rng, slot, log⟩).2 h
    all_goals exact hdef _ _ _ ses
  · cases a <;> cases ha
    case inr.gssapi.refl =>
      obtain ⟨s, slot, rng, log⟩ := ses
      have no : ∀ s : Gssapi.CState deps.gss, Gssapi.clientHasLayer deps.gss s = false →
          (Gssapi.clientEncode deps.gss input s ⟨⟨[], sched⟩, rng, slot, log⟩).1 =
            .err .noSecurityLayer ∧
          (Gssapi.clientDecode deps.gss input s ⟨⟨[], sched⟩, rng, slot, log⟩).1 =
            .err .noSecurityLayer := by
        intro s hs
        match s, hs with
        | .initial, _ => exact ⟨rfl, rfl⟩
        | .pending _, _ => exact ⟨rfl, rfl⟩
        | .last .., _ => exact ⟨rfl, rfl⟩
        | .completed none, _ => exact ⟨rfl, rfl⟩
        | .errored, _ => exact ⟨rfl, rfl⟩
      refine ⟨⟨fun h => ?_, fun h => (no s h).1⟩, ⟨fun h => ?_, fun h => (no s h).2⟩⟩
      all_goals
        cases hl : Gssapi.clientHasLayer deps.gss s with
        | false => exact hl
        | true =>
          exfalso
          match s, hl with
          | .completed (some (ctx, e)), _ =>
            first
              | exact (hlayer deps.gss (fun c => Gssapi.CState.completed (some (c, e))) ctx e (.completed (some (ctx, e)))
                  ⟨⟨[], sched⟩, rng, slot, log⟩).1 h
              | exact (hlayer deps.gss (fun c => Gssapi.CState.completed (some (c, e))) ctx e (.completed (some (ctx, e)))
                  ⟨⟨[], sched⟩, rng, slot, log⟩).2 h
    all_goals exact hdef _ _ _ ses

/-- C38: mechanisms other than GSSAPI never have a security layer. -/
theorem C38_only_gssapi (deps : Deps) (st : Started) (a : Auth) (ha : a ≠ .gssapi)
    (hst : a.startServer deps = some st ∨ a.startClient deps = some st)
    (ses : Session st.mech.S) : ses.hasSecurityLayer st.mech = false := by
  cases a <;> rcases hst with hst | hst <;> cases hst <;> first | rfl | exact absurd rfl ha

/-- One use of a session. -/
inductive Spec.Op where
  | step (c : Call)
  | encode (b : Bytes) (sched : List WResp)
  | decode (b : Bytes) (sched : List WResp)

/-- Any sequence of uses; the replies to `step`. -/
def Spec.use (m : Mech) (env : Env) : Session m.S → List Spec.Op → List (Reply State) × Session m.S
  | s, [] => ([], s)
  | s, .step c :: ops =>
    let (r, s) := s.step m env c
    let (rs, s) := Spec.use m env s ops
    (r :: rs, s)
  | s, .encode b sched :: ops => Spec.use m env (s.encode m b sched).2 ops
  | s, .decode b sched :: ops => Spec.use m env (s.decode m b sched).2 ops

/-- C38: in GSSAPI sessions too there is a security layer only after a step has returned
`Finished`. -/
theorem C38_only_after_finished (deps : Deps) (st : Started)
    (hst : Spec.BuiltinServer deps st ∨ Spec.BuiltinClient deps st)
    (env : Env) (rng : Nat → Nat) (ops : List Spec.Op)
    (h : (Spec.use st.mech env (st.session rng) ops).2.hasSecurityLayer st.mech = true) :
    ∃ r ∈ (Spec.use st.mech env (st.session rng) ops).1, ∃ k, r.res = .ok (.finished k) := by
  have key : ∀ (m : Mech) (init : m.S), m.hasLayer init = false →
      (∀ (env : Env) (ses : Session m.S) c, m.hasLayer (ses.step m env c).2.st = true →
        ∃ k, (ses.step m env c).1.res = .ok (.finished k)) →
      (∀ (ses : Session m.S) b sched, m.hasLayer (ses.encode m b sched).2.st = true →
        m.hasLayer ses.st = true) →
      (∀ (ses : Session m.S) b sched, m.hasLayer (ses.decode m b sched).2.st = true →
        m.hasLayer ses.st = true) →
      (Spec.use m env ((⟨m, init⟩ : Started).session rng) ops).2.hasSecurityLayer m = true →
      ∃ r ∈ (Spec.use m env ((⟨m, init⟩ : Started).session rng) ops).1,
        ∃ k, r.res = .ok (.finished k) := by
    intro m init h0 hs he hd
    have gen : ∀ (ops : List Spec.Op) (ses : Session m.S),
        (Spec.use m env ses ops).2.hasSecurityLayer m = true →
        m.hasLayer ses.st = true ∨ ∃ r ∈ (Spec.use m env ses ops).1, ∃ k, r.res = .ok (.finished k) := by
      intro ops
      induction ops with
      | nil => intro ses h; exact .inl h
      | cons op ops ih =>
        intro ses h
        cases op with
        | step c =>
          have h : (Spec.use m env (ses.step m env c).2 ops).2.hasSecurityLayer m = true := h
          have e : (Spec.use m env ses (.step c :: ops)).1 =
            (ses.step m env c).1 :: (Spec.use m env (ses.step m env c).2 ops).1 := rfl
          rw [e]
          rcases ih _ h with h1 | ⟨r, hr, k, hk⟩
          · exact .inr ⟨_, by simp, hs env ses c h1⟩
          · exact .inr ⟨r, by simp [hr], k, hk⟩
        | encode b sched =>
          rcases ih (ses.encode m b sched).2 h with h1 | h1
          · exact .inl (he ses b sched h1)
          · exact .inr h1
        | decode b sched =>
          rcases ih (ses.decode m b sched).2 h with h1 | h1
          · exact .inl (hd ses b sched h1)
          · exact .inr h1
    intro h
    refine (gen ops _ h).resolve_left ?_
    intro h1
    have h1 : m.hasLayer init = true := h1
    rw [h0] at h1
    cases h1
  have hdef : ∀ (S : Type) (step : Env → Option Bytes → M S State) (init : S),
      (Spec.use { S := S, step := step } env
        ((⟨{ S := S, step := step }, init⟩ : Started).session rng) ops).2.hasSecurityLayer
          { S := S, step := step } = true → False := nofun
  rcases hst with ⟨a, ha⟩ | ⟨a, ha⟩
  · cases a <;> cases ha
    case inl.gssapi.refl =>
      refine key _ _ rfl ?_ ?_ ?_ h
      · exact fun env ses c hl => ((Gssapi.serverStep_post std_true env.errs_true c.input ses.st
          (validations ses.log)).exec c.sched).layer hl
      · intro ses b sched hl
        obtain ⟨s, slot, rng, log⟩ := ses
        match s with
        | .initial => exact hl
        | .pending _ => exact hl
        | .installed .. => exact hl
        | .final .. => exact hl
        | .done none => exact hl
        | .errored => exact hl
        | .done (some (ctx, e)) => exact rfl
      · intro ses b sched hl
        obtain ⟨s, slot, rng, log⟩ := ses
        match s with
        | .initial => exact hl
        | .pending _ => exact hl
        | .installed .. => exact hl
        | .final .. => exact hl
        | .done none => exact hl
        | .errored => exact hl
        | .done (some (ctx, e)) => exact rfl
    all_goals exact (hdef _ _ _ h).elim
  · cases a <;> cases ha
    case inr.gssapi.refl =>
      refine key _ _ rfl ?_ ?_ ?_ h
      · exact fun env ses c hl => ((Gssapi.clientStep_post std_true env.errs_true c.input ses.st
          (validations ses.log)).exec c.sched).layer hl
      · intro ses b sched hl
        obtain ⟨s, slot, rng, log⟩ := ses
        match s with
        | .initial => exact hl
        | .pending _ => exact hl
        | .last .. => exact hl
        | .completed none => exact hl
        | .errored => exact hl
        | .completed (some (ctx, e)) => exact rfl
      · intro ses b sched hl
        obtain ⟨s, slot, rng, log⟩ := ses
        match s with
        | .initial => exact hl
        | .pending _ => exact hl
        | .last .. => exact hl
        | .completed none => exact hl
        | .errored => exact hl
        | .completed (some (ctx, e)) => exact rfl
    all_goals exact (hdef _ _ _ h).elim

/-- A server session that ends up with a layer. -/
example : (Spec.use (Gssapi.server toyGss) (exampleEnv []) ⟨.initial, none, fun _ => 0, []⟩
    [.step ⟨some [], []⟩, .step ⟨some [4, 0, 0, 0], []⟩, .encode [1, 2] []]).2.hasSecurityLayer
      (Gssapi.server toyGss) = true := rfl

end Rsasl

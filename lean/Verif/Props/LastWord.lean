/-
C89: the validate callback has the last word.
-/
import Verif.Proofs.LastWord
import Verif.Props.Message
import Verif.Props.Session
import Verif.Props.ScramPolicy

namespace Rsasl

open Spec

variable {S : Type} {env : Env}

theorem Plain.server_defers (prep : Str → Option Str) (input : Option Bytes) :
    Defers env (Plain.serverStep prep env input) := by
  unfold Plain.serverStep
  defers

theorem Login.server_defers (input : Option Bytes) : Defers env (Login.serverStep env input) := by
  unfold Login.serverStep
  defers

theorem External.server_defers (input : Option Bytes) :
    Defers env (External.serverStep env input) := by
  unfold External.serverStep
  defers

theorem Anonymous.server_defers (input : Option Bytes) :
    Defers env (Anonymous.serverStep env input) := by
  unfold Anonymous.serverStep
  defers

theorem XOAuth2.server_defers (input : Option Bytes) :
    Defers env (XOAuth2.serverStep env input) := by
  have h : ∀ r, Aloof (XOAuth2.onResult r) := by
    intro r
    unfold XOAuth2.onResult
    defers
  unfold XOAuth2.serverStep
  defers

theorem OAuthBearer.server_defers (json : OAuthBearer.Json) (input : Option Bytes) :
    Defers env (OAuthBearer.serverStep json env input) := by
  have h : ∀ r, Aloof (OAuthBearer.onResult json r) := by
    intro r
    unfold OAuthBearer.onResult
    defers
  unfold OAuthBearer.serverStep
  defers

theorem Gssapi.server_defers (lib : Gssapi.Lib) (input : Option Bytes) :
    Defers env (Gssapi.serverStep lib env input) := by
  unfold Gssapi.serverStep Gssapi.serverPending Gssapi.serverInstalled
  defers

theorem Scram.server_defers (d : Scram.Digest) (n : Nat) (input : Option Bytes) :
    Defers env (Scram.serverStep d n env input) := by
  have h : ∀ data i, Defers env (Scram.handleClientFinal d env data i) := by
    intro data i
    unfold Scram.handleClientFinal
    defers
  unfold Scram.serverStep Scram.handleClientFirst Scram.serverCb Scram.useStored Scram.generateNonce
  refine Defers.bind Aloof.get fun st => Defers.bind (Aloof.set _) fun _ => ?_
  split
  · defers
  · exact Defers.bind (Aloof.okOr _ _) fun _ => Defers.thenSettles (h _ _) fun _ => .set _ (.pure _)
  · defers
  · defers

/-- What the judgement says of a step. -/
theorem Defers.step {m : M S State} (h : Defers env m) (ses : Session S) (sched : List WResp) :
    NoVerdict ses (ses.exec m sched) ∨ HasVerdict env ses (ses.exec m sched) := by
  have out : ∀ {es : List Event}, (∀ e ∈ es, e.Outside) → ∀ ctx, .validated ctx ∉ es :=
    fun h ctx hm => h _ hm
  rcases h.run ses.st { wr := ⟨[], sched⟩, rng := ses.rng, slot := ses.slot, log := ses.log } with
    ⟨es, h1, h2, h3⟩ | ⟨es, ctx, es', st, h1, h2, h3, h4, h5⟩
  · exact .inl ⟨⟨es, h1, out h2⟩, h3⟩
  · exact .inr ⟨es, ctx, st, out h1, ⟨es', h2, h3⟩, h4, h5, rfl⟩

/-- C89: a step of a server either has nobody validated, or it calls `validate` once, does nothing
after it, and returns exactly what the callback said: the callback's own error, or success. This holds
in any state of the mechanism. -/
theorem C89 (deps : Deps) (a : Auth) (st : Started) (h : a.startServer deps = some st) (env : Env)
    (ses : Session st.mech.S) (c : Call) :
    NoVerdict ses (ses.step st.mech env c) ∨ HasVerdict env ses (ses.step st.mech env c) := by
  cases a <;> first | (cases h; done) | skip
  all_goals cases h
  · exact (Plain.server_defers _ _).step ses c.sched
  · exact (Login.server_defers _).step ses c.sched
  · exact (External.server_defers _).step ses c.sched
  · exact (Anonymous.server_defers _).step ses c.sched
  · exact (XOAuth2.server_defers _).step ses c.sched
  · exact (OAuthBearer.server_defers _ _).step ses c.sched
  · exact (Gssapi.server_defers _ _).step ses c.sched
  · exact (Scram.server_defers _ _ _).step ses c.sched
  · exact (Scram.server_defers _ _ _).step ses c.sched

/-! ## Consequences -/

theorem Spec.NoVerdict.validations {ses : Session S} {r : Reply State × Session S}
    (h : NoVerdict ses r) : validations r.2.log = validations ses.log := by
  obtain ⟨es, h1, h2⟩ := h.log
  rw [h1, validations_append]
  have : Rsasl.validations es = [] := by
    unfold Rsasl.validations
    rw [List.filterMap_eq_nil_iff]
    intro e he
    split
    · exact absurd he (h2 _)
    · rfl
  rw [this, List.append_nil]

theorem Spec.HasVerdict.refused {ses : Session S} {r : Reply State × Session S} (hr : RefusesAll env)
    (h : HasVerdict env ses r) : ∃ e, r.1.res = .err (.validationError e) := by
  obtain ⟨es, ctx, st, -, h⟩ := h
  obtain ⟨e, he⟩ := hr (ses.log ++ es) ctx ses.slot.isNone
  refine ⟨e, h.res.trans ?_⟩
  unfold Spec.verdict
  simp only [he]

/-- A step in which a callback that refuses everyone was called fails with the callback's error. -/
theorem C89_refused (deps : Deps) (a : Auth) (st : Started) (h : a.startServer deps = some st)
    (env : Env) (hr : RefusesAll env) (ses : Session st.mech.S) (c : Call)
    (hv : validations (ses.step st.mech env c).2.log ≠ validations ses.log) :
    ∃ e, (ses.step st.mech env c).1.res = .err (.validationError e) := by
  rcases C89 deps a st h env ses c with hu | hj
  · exact absurd hu.validations hv
  · exact hj.refused hr

/-- The value of the session only changes in a step that calls `validate`. -/
theorem C89_value (deps : Deps) (a : Auth) (st : Started) (h : a.startServer deps = some st)
    (env : Env) (ses : Session st.mech.S) (c : Call)
    (hv : validations (ses.step st.mech env c).2.log = validations ses.log) :
    (ses.step st.mech env c).2.slot = ses.slot := by
  rcases C89 deps a st h env ses c with hu | ⟨es, ctx, s, hn, hj⟩
  · exact hu.slot
  · obtain ⟨es', -, hl⟩ := hj.log
    rw [hl] at hv
    have := congrArg List.length hv
    simp [validations_append, Rsasl.validations] at this

/-- With a callback that refuses everyone no server would finish. -/
def C89_never : Prop :=
  ∀ (deps : Deps) (a : Auth) (st : Started), a.startServer deps = some st → ∀ env, RefusesAll env →
    ∀ (rng : Nat → Nat) (calls : List Call), ∀ r ∈ ((st.session rng).run st.mech env calls).1,
      ∀ m, r.res ≠ .ok (.finished m)

/-- PLAIN, LOGIN, EXTERNAL and ANONYMOUS do not, not even in later steps. Missing: the OAuth mechanisms
finish a session in which the token was refused, SCRAM one in which it sent an error, GSSAPI never calls
`validate`. -/
theorem C89_never_partial (deps : Deps) (a : Auth)
    (ha : a = .plain ∨ a = .login ∨ a = .external ∨ a = .anonymous) (st : Started)
    (h : a.startServer deps = some st) (env : Env) (hr : RefusesAll env) (ses : Session st.mech.S)
    (calls : List Call) : ∀ r ∈ (ses.run st.mech env calls).1, ∀ m, r.res ≠ .ok (.finished m) := by
  have step : ∀ (ses : Session st.mech.S) (c : Call) m,
      (ses.step st.mech env c).1.res ≠ .ok (.finished m) := by
    intro ses c m hm
    rcases C89 deps a st h env ses c with hu | hj
    · have hu := hu.validations
      have key : ∀ (mech : Mech) (ses : Session mech.S) (rank : mech.S → Nat) (needs : mech.S → Prop)
          (pan : Prop), Tame mech rank (fun _ => 0) (· = 1) needs pan →
          (ses.step mech env c).1.res = .ok (.finished m) →
          validations (ses.step mech env c).2.log = validations ses.log → False := by
        intro mech ses rank needs pan ht hm hu
        obtain ⟨n, hn, he⟩ := (ht.step std_true env.errs_true ses c).finished m hm
        rw [hu] at he
        omega
      rcases ha with rfl | rfl | rfl | rfl <;> cases h
      · exact key _ _ _ _ _ (Plain.server_tame deps.prep) hm hu
      · exact key _ _ _ _ _ Login.server_tame hm hu
      · exact key _ _ _ _ _ External.server_tame hm hu
      · exact key _ _ _ _ _ Anonymous.server_tame hm hu
    · obtain ⟨e, he⟩ := hj.refused hr
      rw [he] at hm
      cases hm
  induction calls generalizing ses with
  | nil => exact nofun
  | cons c cs ih =>
    rw [run_cons]
    intro r hr m
    rcases List.mem_cons.1 hr with rfl | hr
    · exact step ses c m
    · exact ih _ r hr m

/-- SCRAM: a callback that refuses everyone sees to it that a server that finishes sent an error. -/
theorem C89_scram (d : Scram.Digest) (env : Env) (hr : RefusesAll env) (ses : Session Scram.SS)
    (c : Call) (hc : Cooperative c.sched) (m : MessageSent)
    (hm : (ses.step (Scram.server d) env c).1.res = .ok (.finished m)) :
    ∃ e : ServerErrorValue, (ses.step (Scram.server d) env c).1.out = b!"e=" ++ e.bytes := by
  have hd := (Scram.server_defers (env := env) d Scram.nonceLen c.input).step ses c.sched
  obtain ⟨⟨r, ses'⟩, hs⟩ : ∃ x, ses.step (Scram.server d) env c = x := ⟨_, rfl⟩
  replace hd : NoVerdict ses (r, ses') ∨ HasVerdict env ses (r, ses') := hs ▸ hd
  rw [hs] at hm ⊢
  have over : ses.st = none ∨ ses.st = some .finished → False := by
    intro h
    have := (server_over d env ses h [c]).1 r (by rw [run_cons, hs]; exact List.mem_cons_self ..)
    exact absurd hm (this.1 _)
  rcases hd with hu | hj
  · have hu := hu.validations
    rcases hst : ses.st with _ | s
    · exact (over (.inl hst)).elim
    · cases s with
      | waitingClientFirst canCb =>
        rcases hf : Scram.serverStep d Scram.nonceLen env c.input (some (.waitingClientFirst canCb))
          ⟨⟨[], c.sched⟩, ses.rng, ses.slot, ses.log⟩ with ⟨o, s', w'⟩
        obtain ⟨st, slot, rng, log⟩ := ses
        cases hst
        rw [step_of (m := Scram.server d) hf] at hs
        cases hs
        cases hm
        cases (Scram.serverStep_first_ok hf).1
      | waitingClientFinal data =>
        cases data with
        | none =>
          rcases (server_unknown d env ses hst c _ _ hs).2.2 with h | h
          · exact absurd hm (h _)
          · exact ⟨.unknownUser, h.2.2 hc⟩
        | some f =>
          rcases (server_second d env ses f ⟨0, [], f.storedKey, f.serverKey⟩ rfl rfl hst c _ _
            hs).2 with ⟨-, h | ⟨-, e, -, he⟩⟩ | ⟨b, auth, exts, given, proof, es, -, -, -, -, -, -, hq, hl⟩
          · exact absurd hm (h _)
          · exact ⟨e, he hc⟩
          · dsimp only at hu
            rw [hl, validations_append] at hu
            have := congrArg List.length hu
            simp [Rsasl.validations] at this
      | finished => exact (over (.inr hst)).elim
  · obtain ⟨e, he⟩ := hj.refused hr
    rw [he] at hm
    cases hm

/-- The example callback, refusing everyone. -/
def refusing (pvs : List PV) : Env :=
  { exampleEnv pvs with validate := fun _ _ _ => .ret (.error (.boxed 0)) }

theorem refusing_refuses (pvs : List PV) : RefusesAll (refusing pvs) := fun _ _ _ => ⟨_, rfl⟩

/-- A PLAIN server: the callback is called, and its error is what the step returns. -/
example :
    let r := (⟨(), none, fun _ => 0, []⟩ : Session Unit).step (Plain.server some) (refusing [])
      ⟨some (b!"\x00user\x00pass"), []⟩
    r.1.res = .err (.validationError (.boxed 0)) ∧ (validations r.2.log).length = 1 := by
  decide +kernel

/-- The same server with a callback that accepts and leaves a value. -/
example :
    let r := (⟨(), none, fun _ => 0, []⟩ : Session Unit).step (Plain.server some)
      { exampleEnv [] with validate := fun _ _ _ => .finalize 0 (b!"v") (.ret (.ok ())) }
      ⟨some (b!"\x00user\x00pass"), []⟩
    r.1.res = .ok (.finished .no) ∧ r.2.slot = some (b!"v") := by
  decide +kernel

/-- A SCRAM server that finishes with a refusing callback: the proof was wrong. -/
example :
    let r := ((serverAt (Scram.serverNew false)).run (Scram.server toyDigest)
      (refusing [⟨.scramStoredPassword, oneUser⟩]) [⟨some (b!"n,,n=user,r=abc"), []⟩,
        ⟨some (b!"c=biws,r=abc!!!!!!!!!!!!!!!!!!!!!!!!,p=8A=="), []⟩]).1
    r.map (·.res) = [.ok .running, .ok (.finished .yes)] ∧
      r.map (·.out) = [b!"r=abc!!!!!!!!!!!!!!!!!!!!!!!!,s=AAAA,i=4096", b!"e=invalid-proof"] := by
  decide +kernel

/-- An XOAUTH2 server told to refuse a token calls `validate`, fails with what it says, and finishes when
it is stepped again. -/
theorem C89_never_false : ¬ C89_never := by
  intro h
  refine h toyDeps .xoauth2 _ rfl (refusing [⟨.xoauth2Validate, .error (c!"no")⟩]) (refusing_refuses _)
    (fun _ => 0) [⟨some (b!"user=u\x01auth=Bearer t\x01\x01"), []⟩, ⟨some [], []⟩]
    ⟨.ok (.finished .no), []⟩ (.tail _ (.head _)) .no rfl

/-- A client whose server refuses it would hear nothing from that step. -/
def C89_silent : Prop :=
  ∀ (deps : Deps) (a : Auth) (st : Started), a.startServer deps = some st → ∀ env, RefusesAll env →
    ∀ (rng : Nat → Nat) (calls : List Call) (c : Call),
      let ses := ((st.session rng).run st.mech env calls).2
      validations (ses.step st.mech env c).2.log ≠ validations ses.log →
      (ses.step st.mech env c).1.out = []

/-- So it is for PLAIN, LOGIN, EXTERNAL and ANONYMOUS. Missing: SCRAM sends its signature before it
calls `validate`, XOAUTH2 and OAUTHBEARER the error the token was refused with. -/
theorem C89_silent_partial (deps : Deps) (a : Auth)
    (ha : a = .plain ∨ a = .login ∨ a = .external ∨ a = .anonymous) (st : Started)
    (h : a.startServer deps = some st) (env : Env) (ses : Session st.mech.S) (c : Call)
    (hv : validations (ses.step st.mech env c).2.log ≠ validations ses.log) :
    (ses.step st.mech env c).1.out = [] := by
  have key : ∀ (m : Mech) (ses : Session m.S), Still (m.step env c.input) →
      (ses.step m env c).1.out = [] := by
    intro m ses hs
    exact congrArg Writer.out (hs.wr ses.st ⟨⟨[], c.sched⟩, ses.rng, ses.slot, ses.log⟩)
  rcases ha with rfl | rfl | rfl | rfl <;> cases h
  · refine key _ _ ?_
    show Still (Plain.serverStep deps.prep env c.input)
    unfold Plain.serverStep
    still
  · obtain ⟨st, slot, rng, log⟩ := ses
    have aloof : ∀ m : M Login.SState State, Aloof m → Login.serverStep env c.input st = m st → False := by
      intro m hm he
      refine hv (Spec.NoVerdict.validations (r := Session.exec ⟨st, slot, rng, log⟩
        (Login.serverStep env c.input) c.sched) ?_)
      have : Session.exec ⟨st, slot, rng, log⟩ (Login.serverStep env c.input) c.sched =
          Session.exec ⟨st, slot, rng, log⟩ m c.sched := by
        unfold Session.exec
        simp only [he]
      rw [this]
      obtain ⟨es, h1, h2⟩ := hm.log st ⟨⟨[], c.sched⟩, rng, slot, log⟩
      exact ⟨⟨es, h1, fun ctx h => h2 _ h⟩, hm.slot st ⟨⟨[], c.sched⟩, rng, slot, log⟩⟩
    cases st with
    | new => exact (aloof (do M.writeAll Login.userPrompt; M.set .waitingForUsername; pure .running)
        (by defers) rfl).elim
    | waitingForUsername =>
      cases hi : c.input with
      | none => exact (aloof (M.fail .inputDataRequired) (.fail _) (by rw [hi]; rfl)).elim
      | some input =>
        exact (aloof (do
            let username ← M.okOr (.mechanismError .loginUtf8) (fromUtf8 input)
            M.writeAll Login.passwordPrompt
            M.set (.waitingForPassword username)
            pure .running) (by defers) (by rw [hi]; rfl)).elim
    | waitingForPassword u =>
      cases hi : c.input with
      | none => exact (aloof (M.fail .inputDataRequired) (.fail _) (by rw [hi]; rfl)).elim
      | some input =>
        have hs : Still (do
            validate env (Login.provider u input)
            M.set .done
            pure (.finished .no) : M Login.SState State) :=
          .bind .validate fun _ => .bind (.set _) fun _ => .pure _
        have := hs.wr (.waitingForPassword u) ⟨⟨[], c.sched⟩, rng, slot, log⟩
        obtain ⟨i, sched⟩ := c
        cases hi
        exact congrArg Writer.out this
    | done => exact (aloof (M.fail .mechanismDone) (.fail _) rfl).elim
  · refine key _ _ ?_
    show Still (External.serverStep env c.input)
    unfold External.serverStep
    still
  · refine key _ _ ?_
    show Still (Anonymous.serverStep env c.input)
    unfold Anonymous.serverStep
    still

/-- A SCRAM server gives a client it refuses the proof that it is the right server. -/
theorem C89_silent_false : ¬ C89_silent := by
  intro h
  have h := h toyDeps (.scramServer .sha256 false) _ rfl (refusing [⟨.scramStoredPassword, oneUser⟩])
    (refusing_refuses _) (fun _ => 0) [⟨some (b!"n,,n=user,r=abc"), []⟩] ⟨some rightFinal, []⟩
    (fun hv => absurd (congrArg List.length hv) (by decide +kernel))
  exact absurd h (by decide +kernel)

end Rsasl

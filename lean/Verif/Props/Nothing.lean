/-
C69: calls of `step` without input, where input was to be expected.
-/
import Verif.Spec.Nothing
import Verif.Spec.Examples
import Verif.Proofs.Leads
import Verif.Proofs.Contacts
import Verif.Proofs.Run
import Verif.Props.Message

namespace Rsasl

open Spec

variable {S α β : Type} {P : S → Prop} {env : Env}

/-- Decompose code that keeps a property of the state. -/
macro "stays" : tactic => `(tactic|
  repeat (first
    | with_reducible assumption
    | intro _
    | with_reducible exact Stays.pure _ | with_reducible exact Stays.panic
    | with_reducible exact Stays.fail _
    | with_reducible exact Stays.get
    | with_reducible exact Stays.draw _
    | with_reducible exact Stays.writeAll _ | with_reducible exact Stays.writeVectored _
    | with_reducible exact Stays.writeJson _
    | with_reducible exact Stays.okOr _ _ | with_reducible exact Stays.lift _
    | with_reducible exact Stays.liftOutcome _ | with_reducible exact Stays.liftGss _
    | with_reducible exact Stays.validate | with_reducible exact Stays.action
    | ((with_reducible refine Stays.modify ?_); intro _ h; exact h)
    | ((with_reducible refine Stays.set ?_); first | assumption | exact nofun)
    | with_reducible refine Stays.bind ?_ ?_
    | with_reducible refine Stays.needWith ?_
    | with_reducible refine Stays.ask ?_
    | with_reducible refine Stays.needCbData ?_
    | with_reducible refine Stays.maybeNeedCbData ?_
    | with_reducible refine Stays.attempt ?_
    | with_reducible apply Stays.withLocal | split | dsimp only))

/-- A mechanism that leaves its fresh states with the first step that succeeds, never returns to
them, and does not return `Running` without input from any other state. -/
structure Hears (m : Mech) (Fresh : m.S → Prop) : Prop where
  went : ∀ env input s w a, (m.step env input s w).1 = .ok a → ¬ Fresh (m.step env input s w).2.1
  stay : ∀ env input s w, ¬ Fresh s → ¬ Fresh (m.step env input s w).2.1
  mute : ∀ env s w, ¬ Fresh s → (m.step env none s w).1 ≠ .ok .running
  enc : ∀ i s w, ¬ Fresh s → ¬ Fresh (m.encode i s w).2.1
  dec : ∀ i s w, ¬ Fresh s → ¬ Fresh (m.decode i s w).2.1

theorem Hears.notRunning {st : Started} {Fresh : st.mech.S → Prop} (h : Hears st.mech Fresh)
    (first : Bool) (hf : first = false → ¬ Fresh st.init) : NotRunning st first := by
  have key : ∀ env (ops : List Op) (ses : Session st.mech.S),
      (¬ Fresh ses.st ∨ Stepped (ses.performAll st.mech env ops).1) →
      ¬ Fresh (ses.afterAll st.mech env ops).st := by
    intro env ops
    induction ops with
    | nil =>
      rintro ses (h1 | ⟨s, out, h1⟩)
      · exact h1
      · cases h1
    | cons op ops ih =>
      intro ses h1
      refine ih (ses.perform st.mech env op).2 ?_
      have hstep : ∀ c, (¬ Fresh ses.st ∨ ∃ s, (ses.step st.mech env c).1.res = .ok s) →
          ¬ Fresh (ses.step st.mech env c).2.st := by
        rintro c (h2 | ⟨s, h2⟩)
        · exact h.stay _ _ _ _ h2
        · exact h.went _ _ _ _ _ h2
      have hthis : (¬ Fresh ses.st ∨ ∃ s out, (ses.perform st.mech env op).1 = .state ⟨.ok s, out⟩) →
          ¬ Fresh (ses.perform st.mech env op).2.st := by
        intro h2
        cases op with
        | step c =>
          refine hstep c (h2.imp id ?_)
          rintro ⟨s, out, h3⟩
          exact ⟨s, congrArg (fun a => match a with | .state r => r.res | _ => .panic) h3⟩
        | step64 c =>
          have h2 : ¬ Fresh ses.st ∨ ∃ s, (ses.step64 st.mech env c).1.res = .ok s := by
            refine h2.imp id ?_
            rintro ⟨s, out, h3⟩
            exact ⟨s, congrArg (fun a => match a with | .state r => r.res | _ => .panic) h3⟩
          show ¬ Fresh (ses.step64 st.mech env c).2.st
          unfold Session.step64 at h2 ⊢
          split at h2
          · split at h2
            · next hi _ hd =>
              simp only [hd]
              rcases h2 with h2 | ⟨s, h2⟩
              · exact h2
              · cases h2
            · next hd =>
              simp only [hd]
              exact hstep _ h2
          · exact hstep _ h2
        | encode i sched =>
          rcases h2 with h2 | ⟨s, out, h3⟩
          · exact h.enc _ _ _ h2
          · cases h3
        | decode i sched =>
          rcases h2 with h2 | ⟨s, out, h3⟩
          · exact h.dec _ _ _ h2
          · cases h3
        | validation =>
          rcases h2 with h2 | ⟨s, out, h3⟩
          · exact h2
          · cases h3
      rcases h1 with h1 | ⟨s, out, h1⟩
      · exact .inl (hthis (.inl h1))
      · rcases List.mem_cons.1 h1 with h1 | h1
        · exact .inl (hthis (.inr ⟨s, out, h1.symm⟩))
        · exact .inr ⟨s, out, h1⟩
  intro env rng ops sched hs
  refine h.mute env _ _ (key env ops _ ?_)
  cases first with
  | false => exact .inl (hf rfl)
  | true => exact .inr (hs rfl)

/-- Mechanisms without a security layer. -/
theorem Hears.plain {S : Type} {step : Env → Option Bytes → M S State} {Fresh : S → Prop}
    (went : ∀ env input, Leads (fun _ => True) (step env input)
      fun o s => ∀ a, o = .ok a → ¬ Fresh s)
    (stay : ∀ env input, Stays (fun s => ¬ Fresh s) (step env input))
    (mute : ∀ env, Leads (fun s => ¬ Fresh s) (step env none) fun o _ => ∀ a, o = .ok a → a ≠ .running) :
    Hears { S := S, step := step } Fresh where
  went env input s w a h := (went env input).leads s w trivial a h
  stay env input s w h := (stay env input).leads s w h
  mute env s w h h' := (mute env).leads s w h _ h' rfl
  enc _ _ _ h := h
  dec _ _ _ h := h

/-- Mechanisms whose side does not go first. -/
theorem Hears.second {S : Type} {step : Env → Option Bytes → M S State}
    (mute : ∀ env, Leads (fun _ => True) (step env none) fun o _ => ∀ a, o = .ok a → a ≠ .running) :
    Hears { S := S, step := step } (fun _ => False) :=
  Hears.plain (fun _ _ => ⟨fun _ _ _ _ _ => id⟩) (fun _ _ => ⟨fun _ _ _ => id⟩)
    fun env => (mute env).mono (fun _ _ => trivial) fun _ _ h => h

/-- Nothing comes after input that is not there. -/
theorem Leads.noInput {e : SessionError} {f : α → M S β} {Q : Outcome β → S → Prop}
    (h : ∀ s, P s → Q (.err e) s) : Leads P (M.okOr e none >>= f) Q := ⟨fun s _ hs => h s hs⟩

theorem Leads.local {T : Type} {l : T} {m : M (S × T) α} {Q : Outcome α → S → Prop}
    (h : Leads (fun x => P x.1) m fun o x => Q o x.1) : Leads P (M.withLocal l m) Q :=
  ⟨fun s w hs => h.leads (s, l) w hs⟩

theorem Stays.getBind {f : S → M S α} (h : ∀ s, P s → Stays P (f s)) : Stays P (M.get >>= f) :=
  ⟨fun s w hs => (h s hs).leads s w hs⟩

/-- Decompose code whose end decides. -/
macro "leads" : tactic => `(tactic|
  repeat (first
    | with_reducible refine Leads.getBind fun _ _ => ?_
    | with_reducible refine Leads.setBind ?_
    | ((with_reducible refine Leads.noInput ?_); (first | exact nofun | done))
    | ((with_reducible refine Leads.fail ?_); (first | exact nofun | done))
    | ((with_reducible refine Leads.panic ?_); (first | exact nofun | done))
    | ((with_reducible refine Leads.pure ?_); (first | exact nofun | (rintro _ rfl _ _; exact nofun) | done))
    | ((with_reducible refine Leads.after ?_ (fun _ => ?_) nofun nofun); (focus (stays; done)))
    | split | dsimp only))

/-! ## Mechanisms -/

/-- Mechanisms that never return `Running`. -/
theorem Hears.never {S : Type} {step : Env → Option Bytes → M S State} {R : State → Bytes → Prop}
    (h : ∀ env, Says False R (step env none)) (hR : ∀ d, ¬ R .running d) :
    Hears { S := S, step := step } (fun _ => False) :=
  .second fun env => ⟨fun s w _ a ha hr => by
    obtain ⟨d, _, _, h3⟩ := (h env).says s w nofun
    exact hR d (hr ▸ h3 a ha)⟩

theorem Login.server_hears : Hears Login.server (· = .new) := by
  refine Hears.plain (fun env input => ?_) (fun env input => ?_) (fun env => ?_)
  · unfold Login.serverStep
    leads
  · unfold Login.serverStep
    refine Stays.getBind fun st hst => ?_
    split
    · exact absurd rfl hst
    all_goals stays
  · unfold Login.serverStep
    refine Leads.getBind fun st hst => ?_
    split
    · exact absurd rfl hst
    all_goals leads

theorem XOAuth2.client_hears : Hears XOAuth2.client (· = .initial) := by
  refine Hears.plain (fun env input => ?_) (fun env input => ?_) (fun env => ?_)
  · unfold XOAuth2.clientStep
    leads
  · unfold XOAuth2.clientStep
    refine Stays.getBind fun st hst => ?_
    split
    · exact absurd rfl hst
    all_goals stays
  · unfold XOAuth2.clientStep
    refine Leads.getBind fun st hst => ?_
    split
    · exact absurd rfl hst
    all_goals leads

theorem OAuthBearer.client_hears (json : OAuthBearer.Json) :
    Hears (OAuthBearer.client json) (· = .initial) := by
  have hkv : ∀ {P : OAuthCState → Prop} kvs,
      Stays P (OAuthBearer.writeKVs kvs : M OAuthCState Unit) := by
    intro P kvs
    induction kvs with
    | nil => exact .pure _
    | cons kv kvs ih => exact Stays.bind (.writeVectored _) fun _ => ih
  refine Hears.plain (fun env input => ?_) (fun env input => ?_) (fun env => ?_)
  · unfold OAuthBearer.clientStep
    have := @hkv (· = .initial)
    leads
  · unfold OAuthBearer.clientStep
    refine Stays.getBind fun st hst => ?_
    split
    · exact absurd rfl hst
    all_goals stays
  · unfold OAuthBearer.clientStep
    refine Leads.getBind fun st hst => ?_
    split
    · exact absurd rfl hst
    all_goals leads

theorem XOAuth2.server_hears : Hears XOAuth2.server (fun _ => False) := by
  refine .second fun env => ?_
  unfold XOAuth2.serverStep
  leads

theorem OAuthBearer.server_hears (json : OAuthBearer.Json) :
    Hears (OAuthBearer.server json) (fun _ => False) := by
  refine .second fun env => ?_
  unfold OAuthBearer.serverStep
  leads

theorem Scram.server_hears (d : Scram.Digest) : Hears (Scram.server d) (fun _ => False) := by
  refine .second fun env => ?_
  unfold Scram.serverStep
  leads

/-- The client has not begun. -/
def Scram.freshClient : Scram.CS → Prop
  | some (.initial _) => True
  | _ => False

theorem Scram.client_begun (d : Scram.Digest) : ∀ env input, Leads (fun _ => True)
    (Scram.clientStep d Scram.nonceLen env input) fun _ s => ¬ Scram.freshClient s := by
  have hn : ∀ {Q : Prop}, Scram.freshClient none → Q := nofun
  have h1 : ∀ n env plus, Leads (fun x => x.1 = none) (Scram.sendClientFirst n env plus)
      fun o x => x.1 = none ∧ ∀ a, o = .ok a → ¬ Scram.freshClient (some a) := by
    intro n env plus
    have hpush : ∀ b, Stays (fun x => x.1 = none) (Scram.pushHeader b) := fun _ =>
      .modify fun _ h => h
    have hset : ∀ b, Stays (fun x => x.1 = none) (Scram.setCbdata b) := fun _ =>
      .modify fun _ h => h
    have hesc : ∀ b, Stays (fun x : Scram.CS × Scram.Gs2 => x.1 = none) (Scram.escapeM b) := by
      intro b; unfold Scram.escapeM; stays
    have hnonce : Stays (fun x : Scram.CS × Scram.Gs2 => x.1 = none) (Scram.generateNonce n) := by
      unfold Scram.generateNonce; stays
    have hcb : Stays (fun x => x.1 = none) (Scram.clientCb env plus) := by
      unfold Scram.clientCb
      split
      · refine Stays.bind (hpush _) fun _ => Stays.bind (Stays.ask fun _ => Stays.bind (hpush _)
          fun _ => .pure _) fun o => ?_
        split
        · exact Stays.needCbData hset
        · refine Stays.bind (Stays.maybeNeedCbData fun _ => Stays.bind (hpush _) fun _ => hset _)
            fun o => ?_
          split
          · exact .pure _
          · exact Stays.needCbData fun _ => Stays.bind (hpush _) fun _ => hset _
      · exact hpush _
      · exact hpush _
    have hz : ∀ a, Stays (fun x => x.1 = none) (Scram.clientAuthzid a) := by
      intro a
      unfold Scram.clientAuthzid
      exact Stays.bind (hpush _) fun _ => Stays.bind (hesc _) fun _ => hpush _
    unfold Scram.sendClientFirst
    refine Leads.after hcb (fun _ => Leads.after (hpush _) (fun _ => Leads.after (Stays.ask hz)
      (fun _ => Leads.after (hpush _) (fun _ => Leads.after (Stays.needWith hesc) (fun _ =>
      Leads.after hnonce (fun _ => Leads.after .get (fun x => Leads.after (.writeVectored _)
        (fun _ => .pure fun _ h => ⟨h, ?_⟩) ?_ ?_) ?_ ?_) ?_ ?_) ?_ ?_) ?_ ?_) ?_ ?_) ?_ ?_) ?_ ?_
    · rintro _ ⟨⟩ h; exact h
    all_goals first
      | exact fun _ _ h => ⟨h, nofun⟩
      | exact fun _ h => ⟨h, nofun⟩
  have h2 : ∀ env cb nonce username input,
      Leads (· = none) (Scram.handleServerFirst d env cb nonce username input)
      fun o x => x = none ∧ ∀ a, o = .ok a → ¬ Scram.freshClient (some a) := by
    intro env cb nonce username input
    have hk : ∀ prov it salt, Stays (· = none) (Scram.clientKeys d env prov it salt) := by
      intro prov it salt
      unfold Scram.clientKeys Scram.useCached Scram.useSalted Scram.usePassword
      stays
    unfold Scram.handleServerFirst
    refine Leads.after (.liftOutcome _) (fun _ => Leads.after (hk _ _ _) (fun _ =>
      Leads.after (.writeVectored _) (fun _ => .pure fun _ h => ⟨h, ?_⟩) ?_ ?_) ?_ ?_) ?_ ?_
    · rintro _ ⟨⟩ h; exact h
    all_goals first
      | exact fun _ _ h => ⟨h, nofun⟩
      | exact fun _ h => ⟨h, nofun⟩
  intro env input
  unfold Scram.clientStep
  refine Leads.getBind fun st _ => Leads.setBind ?_
  split
  · refine Leads.bind (Leads.local (Q := fun o x => x = none ∧ ∀ a, o = .ok a →
      ¬ Scram.freshClient (some a)) (h1 _ _ _)) (fun a => ?_) (fun _ _ h => h.1 ▸ hn)
      (fun _ h => h.1 ▸ hn)
    exact ⟨fun _ _ h => h.2 _ rfl⟩
  · refine Leads.after (.okOr _ _) (fun _ => Leads.bind (h2 _ _ _ _ _) (fun a => ?_)
      (fun _ _ h => h.1 ▸ hn) (fun _ h => h.1 ▸ hn)) (fun _ _ h => h ▸ hn) (fun _ h => h ▸ hn)
    exact ⟨fun _ _ h => h.2 _ rfl⟩
  · refine Leads.mono (P := (· = none)) (Q := fun _ => (· = none)) ?_ (fun _ h => h)
      (fun _ _ h => h ▸ hn)
    unfold Scram.handleServerFinal
    stays
  · exact .panic (by rintro _ rfl; exact hn)

theorem Scram.client_hears (d : Scram.Digest) : Hears (Scram.client d) Scram.freshClient := by
  have h3 := Scram.client_begun d
  refine Hears.plain (fun env input => (h3 env input).mono (fun _ h => h) fun _ _ h _ _ => h)
    (fun env input => (h3 env input).mono (fun _ _ => trivial) fun _ _ h => h) (fun env => ?_)
  unfold Scram.clientStep
  refine Leads.getBind fun st hst => Leads.setBind ?_
  split
  · exact absurd trivial hst
  all_goals leads

/-! ## The property -/

/-- C69, first part: once a side has begun (or at once if it does not go first), a call of `step`
without input never returns `Running`. Not true: see `C69_false_login`, `C69_false_gssapi` and
`C69_false_gssapi_server`. -/
def C69 : Prop :=
  (∀ deps a st, Auth.startClient deps a = some st → NotRunning st (a != .login)) ∧
  (∀ deps a st, Auth.startServer deps a = some st → NotRunning st (a == .login))

/-- C69 for all clients but LOGIN's and GSSAPI's. -/
theorem C69_client_partial (deps : Deps) (a : Auth) (st : Started)
    (h : a.startClient deps = some st) (hl : a ≠ .login) (hg : a ≠ .gssapi) :
    NotRunning st (a != .login) := by
  cases a <;> first | contradiction | cases h
  · exact (Hears.never (fun _ => Plain.client_says none) fun _ h => nomatch h.1).notRunning _ nofun
  · exact (Hears.never (fun _ => External.client_says none) fun _ h => nomatch h).notRunning _ nofun
  · exact (Hears.never (fun _ => Anonymous.client_says none) fun _ h => nomatch h).notRunning _ nofun
  · exact XOAuth2.client_hears.notRunning _ nofun
  · exact (OAuthBearer.client_hears _).notRunning _ nofun
  · exact (Scram.client_hears _).notRunning _ nofun
  · exact (Scram.client_hears _).notRunning _ nofun

/-- C69 for all servers but GSSAPI's. -/
theorem C69_server_partial (deps : Deps) (a : Auth) (st : Started)
    (h : a.startServer deps = some st) (hg : a ≠ .gssapi) : NotRunning st (a == .login) := by
  cases a <;> first | contradiction | cases h
  · exact (Hears.never (fun _ => Plain.server_says _ none) fun _ h => nomatch h.1).notRunning _
      (fun _ h => h)
  · exact Login.server_hears.notRunning _ nofun
  · exact (Hears.never (fun _ => External.server_says none) fun _ h => nomatch h.1).notRunning _
      (fun _ h => h)
  · exact (Hears.never (fun _ => Anonymous.server_says none) fun _ h => nomatch h.1).notRunning _
      (fun _ h => h)
  · exact XOAuth2.server_hears.notRunning _ (fun _ h => h)
  · exact (OAuthBearer.server_hears _).notRunning _ (fun _ h => h)
  · exact (Scram.server_hears _).notRunning _ (fun _ h => h)
  · exact (Scram.server_hears _).notRunning _ (fun _ h => h)

/-! ### GSSAPI -/

/-- The server's library has no token left to send when the context is complete. -/
def Spec.NoLastToken (lib : Gssapi.Lib) : Prop :=
  ∀ ctx i tok, (lib.serverStep ctx i).1 = .ok (some tok) →
    lib.isComplete (lib.serverStep ctx i).2 = false

/-- The server has the client's last token and its own message is still to come. -/
def Gssapi.isInstalled {lib : Gssapi.Lib} : Gssapi.SState lib → Prop
  | .installed _ _ => True
  | _ => False

theorem Gssapi.server_hears (lib : Gssapi.Lib) (hlib : NoLastToken lib) :
    Hears (Gssapi.server lib) Gssapi.isInstalled := by
  have he : ∀ {s : Gssapi.SState lib}, s = .errored → ¬ Gssapi.isInstalled s := by
    rintro _ rfl; exact id
  have hi : ∀ {P : Gssapi.SState lib → Prop} ctx sup, (∀ s, P s → ¬ Gssapi.isInstalled s) →
      Leads P (Gssapi.serverInstalled lib ctx sup) fun _ s => ¬ Gssapi.isInstalled s := by
    intro P ctx sup hP
    refine Leads.mono (P := fun s => ¬ Gssapi.isInstalled s) ?_ hP fun _ _ h => h
    unfold Gssapi.serverInstalled
    stays
  have hp : ∀ env ctx input, Leads (· = .errored) (Gssapi.serverPending lib env ctx input)
      fun _ s => ¬ Gssapi.isInstalled s := by
    intro env ctx input
    unfold Gssapi.serverPending
    have e1 : ∀ (e : SessionError) s, s = .errored → ¬ Gssapi.isInstalled (lib := lib) s :=
      fun _ _ => he
    have e2 : ∀ s, s = .errored → ¬ Gssapi.isInstalled (lib := lib) s := fun _ => he
    refine Leads.after (.okOr _ _) (fun i => ?_) e1 e2
    have hl := hlib ctx i
    rcases hr : lib.serverStep ctx i with ⟨res, ctx'⟩
    rw [hr] at hl
    dsimp only
    cases res with
    | error n => exact .fail e2
    | ok token =>
      have hb : ∀ {β : Type} (f : Option Bytes → M (Gssapi.SState lib) β) Q,
          Leads (· = .errored) (f token) Q →
          Leads (· = .errored) (Gssapi.liftGss (.ok token) >>= f) Q := fun _ _ h => h
      refine hb _ _ ?_
      cases token with
      | some tok =>
        rw [hl tok rfl]
        refine Leads.after (.writeAll _) (fun _ => .pure e2) e1 e2
      | none =>
        dsimp only
        split
        · refine Leads.after (Stays.ask fun _ => .pure _) (fun o => Leads.after (.liftGss _)
            (fun _ => ?_) e1 e2) e1 e2
          cases o <;> dsimp only <;> split
          · exact .fail e2
          · exact Leads.setBind (Leads.setBind (hi _ _ e2))
          · exact .fail e2
          · exact Leads.setBind (Leads.setBind (hi _ _ e2))
        · exact .fail e2
  have hs : ∀ env input, Leads (fun _ => True) (Gssapi.serverStep lib env input)
      fun _ s => ¬ Gssapi.isInstalled s := by
    intro env input
    unfold Gssapi.serverStep
    refine Leads.getBind fun st _ => Leads.setBind ?_
    split
    · exact Leads.after (.liftGss _) (fun _ => hp _ _ _) (fun _ _ => he) (fun _ => he)
    · exact hp _ _ _
    · exact hi _ _ fun _ => he
    · refine Leads.mono (P := fun s => ¬ Gssapi.isInstalled s) ?_ (fun _ => he) fun _ _ h => h
      stays
    · exact .fail fun _ => he
    · exact .fail fun _ => he
  have hd : ∀ {α : Type} (m : M (Gssapi.SState lib) α) (s : Gssapi.SState lib) w,
      Leads (fun _ => True) m (fun _ s => ¬ Gssapi.isInstalled s) →
      ¬ Gssapi.isInstalled (m s w).2.1 := fun m s w h => h.leads s w trivial
  refine ⟨fun env i s w _ _ => hd _ _ _ (hs env i), fun env i s w _ => hd _ _ _ (hs env i), ?_, ?_, ?_⟩
  · intro env s w h
    have : Leads (fun s => ¬ Gssapi.isInstalled s) (Gssapi.serverStep lib env none)
        fun o _ => ∀ a, o = .ok a → a ≠ .running := by
      unfold Gssapi.serverStep
      refine Leads.getBind fun st hst => Leads.setBind ?_
      unfold Gssapi.serverPending
      split
      · leads
      · leads
      · exact absurd trivial hst
      all_goals leads
    exact fun h' => this.leads s w h _ h' rfl
  · intro i s w h
    have : Stays (fun s => ¬ Gssapi.isInstalled s) (Gssapi.serverEncode lib i) := by
      unfold Gssapi.serverEncode Gssapi.layerEncode
      stays
    exact this.leads s w h
  · intro i s w h
    have : Stays (fun s => ¬ Gssapi.isInstalled s) (Gssapi.serverDecode lib i) := by
      unfold Gssapi.serverDecode Gssapi.layerDecode
      stays
    exact this.leads s w h

/-- C69 for GSSAPI's server, if the library has no token left for the client when the context is
complete. -/
theorem C69_gssapi_server_partial (deps : Deps) (st : Started)
    (h : Auth.gssapi.startServer deps = some st) (hlib : NoLastToken deps.gss) :
    NotRunning st false := by
  cases h
  exact (Gssapi.server_hears _ hlib).notRunning _ (fun _ h => h)

example : NoLastToken toyDeps.gss := nofun

/-- LOGIN's client does not look at its input: told nothing it starts sending. -/
theorem C69_false_login : ¬ C69 := fun h =>
  h.1 toyDeps .login ⟨Login.client, .authid⟩ rfl (exampleEnv [⟨.authId, c!"user"⟩]) (fun _ => 0) []
    [] nofun rfl

/-- A library whose contexts never become complete on the client's side. -/
def endlessGss : Gssapi.Lib := { toyGss with isComplete := fun _ => false }

/-- GSSAPI's client gives the library no input, again and again. -/
theorem C69_false_gssapi : ∃ st, Auth.gssapi.startClient { toyDeps with gss := endlessGss } =
    some st ∧ ¬ NotRunning st true := by
  refine ⟨_, rfl, fun h => h (exampleEnv [⟨.gssService, c!"imap"⟩, ⟨.hostname, c!"h"⟩]) (fun _ => 0)
    [.step ⟨none, []⟩] [] (fun _ => ⟨.running, [], ?_⟩) ?_⟩
  · exact .head _
  · rfl

/-- A library whose contexts are complete at once, with a token for the client. -/
def answeringGss : Gssapi.Lib := { toyGss with serverStep := fun _ _ => (.ok (some [1]), ()) }

/-- GSSAPI's server does not look at the answer to its last token. -/
theorem C69_false_gssapi_server : ∃ st, Auth.gssapi.startServer { toyDeps with gss := answeringGss } =
    some st ∧ ¬ NotRunning st false := by
  refine ⟨_, rfl, fun h => h (exampleEnv []) (fun _ => 0) [.step ⟨some [], []⟩] [] nofun ?_⟩
  rfl

/-- XOAUTH2's client has begun, and is then called without input: it is done. -/
example : let env := exampleEnv [⟨.authId, c!"user"⟩, ⟨.oauthBearerToken, c!"t"⟩]
    let st : Started := ⟨XOAuth2.client, .initial⟩
    Auth.xoauth2.startClient toyDeps = some st ∧
    ∃ rs, ((st.session fun _ => 0).performAll st.mech env [.step ⟨none, []⟩]).1 = rs ∧
      rs.length = 1 ∧ Stepped rs :=
  ⟨rfl, _, rfl, rfl, .running, _, .head _⟩

/-! ### The contract in full -/

/-- After a step that returned `Running` the state is good; good states answer a call without input
by an error. -/
theorem refuses_of {st : Started} (Good : st.mech.S → Prop) (first : Bool)
    (h0 : first = false → Good st.init)
    (hr : ∀ env input s w, (st.mech.step env input s w).1 = .ok .running →
      Good (st.mech.step env input s w).2.1)
    (hg : ∀ env s w, Good s → ∃ e, (st.mech.step env none s w).1 = .err e) : RefusesNothing st first := by
  have key : ∀ env (calls : List Call) (ses : Session st.mech.S), (Good ses.st ∨ calls ≠ []) →
      (∀ r ∈ (ses.run st.mech env calls).1, r.res = .ok .running) →
      Good (ses.run st.mech env calls).2.st := by
    intro env calls
    induction calls with
    | nil =>
      rintro ses (h | h) _
      · exact h
      · exact absurd rfl h
    | cons c cs ih =>
      intro ses _ hall
      rw [run_cons] at hall ⊢
      exact ih _ (.inl (hr _ _ _ _ (hall _ (.head _)))) fun r hr => hall r (.tail _ hr)
  intro env rng calls sched hall hne
  refine hg env _ _ (key env calls _ ?_ hall)
  cases first with
  | false => exact .inl (h0 rfl)
  | true => exact .inr (hne rfl)

/-- C69, second part: such a call ends with an error. Not true: see `C69_false_takes` and
`C69_false_done`. -/
def C69_refuses : Prop :=
  (∀ deps a st, Auth.startClient deps a = some st → RefusesNothing st (a != .login)) ∧
  (∀ deps a st, Auth.startServer deps a = some st → RefusesNothing st (a == .login))

/-- Good results say that. -/
theorem Leads.skip {m : M S α} {f : α → M S β} {Q : β → S → Prop}
    (h : ∀ a, Leads (fun _ => True) (f a) fun o s => ∀ b, o = .ok b → Q b s) :
    Leads P (m >>= f) fun o s => ∀ b, o = .ok b → Q b s :=
  Leads.seq (R := fun _ _ => True) ⟨fun _ _ _ _ _ => trivial⟩ h

/-- C69, second part, for the SCRAM clients. -/
theorem C69_scram_client_partial (deps : Deps) (a : Auth) (ha : a.isScram = true) (st : Started)
    (h : a.startClient deps = some st) : RefusesNothing st true := by
  have key : ∀ d init, RefusesNothing ⟨Scram.client d, init⟩ true := by
    intro d init
    refine refuses_of (st := ⟨Scram.client d, init⟩) (fun s => s ≠ none ∧ ¬ Scram.freshClient s) true
      nofun (fun env input s w hs => ⟨?_, (Scram.client_begun d env input).leads s w trivial⟩) ?_
    · have : Leads (fun _ => True) (Scram.clientStep d Scram.nonceLen env input)
          fun o s => ∀ a, o = .ok a → a = .running → s ≠ none := by
        unfold Scram.clientStep
        refine Leads.getBind fun st _ => Leads.setBind ?_
        split
        · exact Leads.skip fun _ => Leads.setBind (.pure fun _ h _ _ _ => by rw [h]; nofun)
        · exact Leads.skip fun _ => Leads.skip fun _ => Leads.setBind
            (.pure fun _ h _ _ _ => by rw [h]; nofun)
        · exact Leads.skip fun _ => Leads.skip fun _ => .pure fun _ _ _ h h' => by
            cases h; cases h'
        · exact .panic nofun
      exact this.leads s w trivial _ hs rfl
    · rintro env (_ | ⟨_ | _ | _⟩) w ⟨h1, h2⟩
      · exact absurd rfl h1
      · exact absurd trivial h2
      · exact ⟨_, rfl⟩
      · exact ⟨_, rfl⟩
  cases a <;> first | contradiction | cases h
  · exact key _ _
  · exact key _ _

/-- C69, second part, for the servers of PLAIN, LOGIN and SCRAM. -/
theorem C69_refusing_server_partial (deps : Deps) (a : Auth)
    (ha : a = .plain ∨ a = .login ∨ a.isScram = true) (st : Started)
    (h : a.startServer deps = some st) : RefusesNothing st (a == .login) := by
  have key : ∀ d init, init ≠ none → RefusesNothing ⟨Scram.server d, init⟩ false := by
    intro d init hinit
    refine refuses_of (st := ⟨Scram.server d, init⟩) (fun s => s ≠ none) false
      (fun _ => hinit) (fun env input s w hs => ?_) ?_
    · have : Leads (fun _ => True) (Scram.serverStep d Scram.nonceLen env input)
          fun o s => ∀ a, o = .ok a → s ≠ none := by
        unfold Scram.serverStep
        refine Leads.getBind fun st _ => Leads.setBind ?_
        split
        · exact Leads.skip fun _ => Leads.skip fun _ => Leads.skip fun _ => Leads.setBind
            (.pure fun _ h _ _ => by rw [h]; nofun)
        · exact Leads.skip fun _ => Leads.skip fun _ => Leads.setBind
            (.pure fun _ h _ _ => by rw [h]; nofun)
        · exact .fail nofun
        · exact .panic nofun
      exact this.leads s w trivial _ hs
    · rintro env (_ | ⟨_ | _ | _⟩) w h1
      · exact absurd rfl h1
      · exact ⟨_, rfl⟩
      · exact ⟨_, rfl⟩
      · exact ⟨_, rfl⟩
  rcases ha with rfl | rfl | ha
  · cases h
    exact refuses_of (st := ⟨Plain.server _, ()⟩) (fun _ => True) _ (fun _ => trivial)
      (fun _ _ _ _ _ => trivial) fun _ _ _ _ => ⟨_, rfl⟩
  · cases h
    refine refuses_of (st := ⟨Login.server, .new⟩) (· ≠ .new) true nofun
      (fun env input s w hs => Login.server_hears.went env input s w _ hs) ?_
    rintro env (_ | _ | _ | _) w h
    · exact absurd rfl h
    · exact ⟨_, rfl⟩
    · exact ⟨_, rfl⟩
    · exact ⟨_, rfl⟩
  · cases a <;> first | contradiction | cases h
    · exact key _ _ nofun
    · exact key _ _ nofun

/-- EXTERNAL's server takes no message for an empty one. -/
theorem C69_false_takes : ¬ C69_refuses := fun h => by
  obtain ⟨e, he⟩ := h.2 toyDeps .external ⟨External.server, ()⟩ rfl (exampleEnv []) (fun _ => 0) [] []
    nofun nofun
  cases he

/-- XOAUTH2's client takes no message for the news that all went well. -/
theorem C69_false_done : ∃ st, Auth.xoauth2.startClient toyDeps = some st ∧ ¬ RefusesNothing st true := by
  refine ⟨_, rfl, fun h => ?_⟩
  obtain ⟨e, he⟩ := h (exampleEnv [⟨.authId, c!"user"⟩, ⟨.oauthBearerToken, c!"t"⟩]) (fun _ => 0)
    [⟨none, []⟩] [] (fun r hr => by cases hr with | head => rfl | tail _ h => cases h) nofun
  cases he

/-- A SCRAM client after its first message. -/
example : let env := exampleEnv [⟨.authId, c!"user"⟩]
    let st : Started := ⟨Scram.client toyDigest, Scram.clientNew true⟩
    Auth.startClient toyDeps (.scramClient .sha256 true) = some st ∧
    ∀ r ∈ ((st.session fun _ => 0).run st.mech env [⟨none, []⟩]).1, r.res = .ok .running :=
  ⟨rfl, fun r hr => by cases hr with | head => rfl | tail _ h => cases h⟩

end Rsasl

/-
C82: what a session does when `step` is called after its end.
-/
import Verif.Spec.Ended
import Verif.Props.Nothing

namespace Rsasl

open Spec

/-- A mechanism that goes to states in `Over` with results in `p`, stays there and does nothing. -/
structure Dies (m : Mech) (p : Outcome State → Prop) (Over : m.S → Prop) : Prop where
  goes : ∀ env input, Leads (fun _ => True) (m.step env input) fun o s => p o → Over s
  dead : ∀ env input s w, Over s → ∃ o s', m.step env input s w = (o, s', w) ∧ Over s' ∧ ∀ a, o ≠ .ok a

theorem Dies.deadAfter {st : Started} {p : Outcome State → Prop} {Over : st.mech.S → Prop}
    (h : Dies st.mech p Over) : DeadAfter p st := by
  have step : ∀ env (ses : Session st.mech.S) (c : Call), Over ses.st →
      (∀ s, (ses.step st.mech env c).1.res ≠ .ok s) ∧ (ses.step st.mech env c).1.out = [] ∧
      Over (ses.step st.mech env c).2.st ∧ (ses.step st.mech env c).2.log = ses.log ∧
      (ses.step st.mech env c).2.slot = ses.slot := by
    intro env ses c ho
    obtain ⟨o, s', hs, ho', hn⟩ := h.dead env c.input ses.st
      { wr := ⟨[], c.sched⟩, rng := ses.rng, slot := ses.slot, log := ses.log } ho
    unfold Session.step Session.exec
    rw [hs]
    exact ⟨hn, rfl, ho', rfl, rfl⟩
  have over : ∀ env (before : List Call) (ses : Session st.mech.S),
      (Over ses.st ∨ ∃ r ∈ (ses.run st.mech env before).1, p r.res) →
      Over (ses.run st.mech env before).2.st := by
    intro env before
    induction before with
    | nil =>
      rintro ses (h | ⟨r, hr, _⟩)
      · exact h
      · cases hr
    | cons c cs ih =>
      intro ses ho
      rw [run_cons] at ho ⊢
      refine ih _ ?_
      rcases ho with ho | ⟨r, hr, hp⟩
      · exact .inl (step env ses c ho).2.2.1
      · rcases List.mem_cons.1 hr with rfl | hr
        · exact .inl ((h.goes env c.input).leads ses.st _ trivial hp)
        · exact .inr ⟨r, hr, hp⟩
  intro env rng before after hb
  have ho := over env before (st.session rng) (.inr hb)
  dsimp only
  generalize ((st.session rng).run st.mech env before).2 = ses at ho
  induction after generalizing ses with
  | nil => exact ⟨nofun, rfl, rfl⟩
  | cons c cs ih =>
    rw [run_cons]
    obtain ⟨h1, h2, h3, h4, h5⟩ := step env ses c ho
    obtain ⟨i1, i2, i3⟩ := ih _ h3
    refine ⟨?_, i2.trans h4, i3.trans h5⟩
    intro r hr
    rcases List.mem_cons.1 hr with rfl | hr
    · exact ⟨h1, h2⟩
    · exact i1 r hr

/-! ## The mechanisms -/

/-- Code that keeps the state, before code that ends well or keeps it. -/
theorem Leads.dies {S α β : Type} {P : S → Prop} {p : Outcome β → Prop} {m : M S α} {f : α → M S β}
    (h1 : Stays P m) (h2 : ∀ a, Leads P (f a) fun o s => p o → P s) :
    Leads P (m >>= f) fun o s => p o → P s :=
  Leads.after h1 h2 (fun _ _ h _ => h) fun _ h _ => h

theorem Login.client_dies : Dies Login.client IsFinished (· = .done) := by
  refine ⟨fun env input => ?_, ?_⟩
  · show Leads _ (Login.clientStep env input) _
    unfold Login.clientStep
    refine Leads.getBind fun s _ => ?_
    cases s
    · exact Leads.bind .triv (fun _ => Leads.setBind (.pure fun _ _ h => h.elim)) (fun _ _ _ h => h.elim)
        fun _ _ h => h.elim
    · exact Leads.bind .triv (fun _ => Leads.setBind (.pure fun _ h _ => h)) (fun _ _ _ h => h.elim)
        fun _ _ h => h.elim
    · exact .fail fun _ _ h => h.elim
  · rintro env input _ w rfl
    exact ⟨_, _, rfl, rfl, nofun⟩

theorem Login.server_dies : Dies Login.server IsFinished (· = .done) := by
  refine ⟨fun env input => ?_, ?_⟩
  · show Leads _ (Login.serverStep env input) _
    unfold Login.serverStep
    refine Leads.getBind fun s _ => ?_
    cases s
    · exact Leads.bind .triv (fun _ => Leads.setBind (.pure fun _ _ h => h.elim)) (fun _ _ _ h => h.elim)
        fun _ _ h => h.elim
    · cases input
      · exact .fail fun _ _ h => h.elim
      · refine Leads.bind .triv (fun _ => Leads.bind .triv (fun _ =>
          Leads.setBind (.pure fun _ _ h => h.elim)) (fun _ _ _ h => h.elim)
          fun _ _ h => h.elim) (fun _ _ _ h => h.elim) fun _ _ h => h.elim
    · cases input
      · exact .fail fun _ _ h => h.elim
      · exact Leads.bind .triv (fun _ => Leads.setBind (.pure fun _ h _ => h)) (fun _ _ _ h => h.elim)
          fun _ _ h => h.elim
    · exact .fail fun _ _ h => h.elim
  · rintro env input _ w rfl
    exact ⟨_, _, rfl, rfl, nofun⟩

theorem Scram.client_dies (d : Scram.Digest) : Dies (Scram.client d) IsEnd (· = none) := by
  refine ⟨fun env input => ?_, ?_⟩
  · show Leads _ (Scram.clientStep d Scram.nonceLen env input) _
    unfold Scram.clientStep
    refine Leads.getBind fun s _ => Leads.setBind ?_
    have hr : ∀ {new : Scram.CS}, Leads (· = none) (M.set new >>= fun _ => (pure .running : M Scram.CS State))
        fun o s => IsEnd o → s = none := Leads.setBind (.pure fun _ _ h => h.elim)
    split
    · refine Leads.dies (.withLocal ?_) fun _ => hr
      unfold Scram.sendClientFirst Scram.clientCb Scram.clientAuthzid Scram.escapeM Scram.generateNonce
        Scram.pushHeader Scram.setCbdata
      stays
    · refine Leads.dies (.okOr _ _) fun _ => Leads.dies ?_ fun _ => hr
      unfold Scram.handleServerFirst Scram.clientKeys Scram.useCached Scram.useSalted Scram.usePassword
      stays
    · refine Leads.dies (.okOr _ _) fun _ => Leads.dies ?_ fun _ => .pure fun _ h _ => h
      unfold Scram.handleServerFinal
      stays
    · exact .panic fun _ h _ => h
  · rintro env input _ w rfl
    exact ⟨_, _, rfl, rfl, nofun⟩

theorem Scram.server_dies (d : Scram.Digest) :
    Dies (Scram.server d) IsEnd fun s => s = none ∨ s = some .finished := by
  refine ⟨fun env input => ?_, ?_⟩
  · show Leads _ (Scram.serverStep d Scram.nonceLen env input) _
    unfold Scram.serverStep
    refine Leads.getBind fun s _ => Leads.setBind ?_
    refine Leads.mono (P := fun s => s = none ∨ s = some .finished) ?_ (fun _ => .inl) fun _ _ h => h
    split
    · refine Leads.dies (.okOr _ _) fun _ => Leads.dies (.liftOutcome _) fun _ =>
        Leads.dies (.withLocal ?_) fun _ => Leads.setBind (.pure fun _ _ h => h.elim)
      unfold Scram.handleClientFirst Scram.serverCb Scram.useStored Scram.generateNonce
      stays
    · refine Leads.dies (.okOr _ _) fun _ => Leads.dies ?_ fun _ =>
        Leads.setBind (.pure fun _ h _ => .inr h)
      unfold Scram.handleClientFinal
      stays
    · exact .fail fun _ h _ => h
    · exact .panic fun _ h _ => h
  · rintro env input _ w (rfl | rfl)
    · exact ⟨_, _, rfl, .inl rfl, nofun⟩
    · exact ⟨_, _, rfl, .inl rfl, nofun⟩

theorem XOAuth2.client_dies : Dies XOAuth2.client IsFinished (· = .done) := by
  have no : ∀ {o : Outcome State} {e : SessionError}, o = .err e → IsFinished o → False := by
    rintro _ _ rfl h; exact h
  refine ⟨fun env input => ?_, ?_⟩
  · show Leads _ (XOAuth2.clientStep env input) _
    unfold XOAuth2.clientStep
    refine Leads.getBind fun s _ => ?_
    cases s
    · exact Leads.bind .triv (fun _ => Leads.bind .triv (fun _ =>
        Leads.setBind (.pure fun _ _ h => h.elim)) (fun _ _ _ h => h.elim) fun _ _ h => h.elim)
        (fun _ _ _ h => h.elim) fun _ _ h => h.elim
    · refine Leads.setBind ?_
      dsimp only
      split
      · exact .pure fun _ h _ => h
      · exact Leads.dies (.okOr _ _) fun _ => Leads.dies .action fun _ => .pure fun _ h _ => h
    · exact .fail fun _ _ h => h.elim
  · rintro env input _ w rfl
    exact ⟨_, _, rfl, rfl, nofun⟩

theorem OAuthBearer.client_dies (json : OAuthBearer.Json) :
    Dies (OAuthBearer.client json) IsFinished (· = .done) := by
  refine ⟨fun env input => ?_, ?_⟩
  · show Leads _ (OAuthBearer.clientStep json env input) _
    unfold OAuthBearer.clientStep
    refine Leads.getBind fun s _ => ?_
    have skip : ∀ {α : Type} {m : M OAuthCState α} {f : α → M OAuthCState State},
        (∀ a, Leads (fun _ => True) (f a) fun o s => IsFinished o → s = .done) →
        Leads (fun _ => True) (m >>= f) fun o s => IsFinished o → s = .done := fun h =>
      Leads.bind .triv h (fun _ _ _ h => h.elim) fun _ _ h => h.elim
    cases s
    · refine Leads.mono (P := fun _ => True) ?_ (fun _ _ => trivial) fun _ _ h => h
      exact skip fun _ => skip fun _ => skip fun _ => skip fun _ => skip fun _ =>
        Leads.setBind (.pure fun _ _ h => h.elim)
    · refine Leads.setBind ?_
      dsimp only
      split
      · exact .pure fun _ h _ => h
      · exact Leads.dies (.okOr _ _) fun _ => Leads.dies .action fun _ => .pure fun _ h _ => h
    · exact .fail fun _ _ h => h.elim
  · rintro env input _ w rfl
    exact ⟨_, _, rfl, rfl, nofun⟩

theorem Gssapi.client_dies (lib : Gssapi.Lib) :
    Dies (Gssapi.client lib) IsEnd fun s => s = .errored ∨ ∃ l, s = .completed l := by
  refine ⟨fun env input => ?_, ?_⟩
  · have hp : ∀ ctx, Leads (fun s => s = .errored ∨ ∃ l, s = .completed l)
        (Gssapi.clientPending lib env ctx input)
        fun o s => IsEnd o → s = .errored ∨ ∃ l, s = .completed l := by
      intro ctx
      unfold Gssapi.clientPending
      dsimp only
      refine Leads.dies (.liftGss _) fun tok => ?_
      have ha : ∀ c v, Stays (fun s => s = .errored ∨ ∃ l, s = .completed l)
          (Gssapi.clientAcceptable lib c v) := by
        intro c v
        unfold Gssapi.clientAcceptable
        stays
      repeat' split
      all_goals first
        | exact Leads.dies (.ask (ha _)) fun _ => Leads.setBind (.pure fun _ _ h => h.elim)
        | exact Leads.setBind (.pure fun _ _ h => h.elim)
        | exact Leads.dies (.writeAll _) fun _ => Leads.dies (.ask (ha _)) fun _ =>
            Leads.setBind (.pure fun _ _ h => h.elim)
        | exact Leads.dies (.writeAll _) fun _ => Leads.setBind (.pure fun _ _ h => h.elim)
    show Leads _ (Gssapi.clientStep lib env input) _
    unfold Gssapi.clientStep
    refine Leads.getBind fun s _ => Leads.setBind ?_
    refine Leads.mono (P := fun s => s = .errored ∨ ∃ l, s = .completed l) ?_ (fun _ => .inl)
      fun _ _ h => h
    split
    · exact Leads.dies (.needWith fun _ => .pure _) fun _ => Leads.dies (.needWith fun _ => .pure _)
        fun _ => Leads.dies (.liftGss _) fun _ => hp _
    · exact hp _
    · refine Leads.dies (.okOr _ _) fun _ => Leads.dies (.liftGss _) fun _ => Leads.dies (.lift _)
        fun _ => ?_
      split
      · exact .fail fun _ h _ => h
      · exact Leads.dies (.liftGss _) fun _ => Leads.dies (.writeAll _) fun _ =>
          Leads.setBind (.pure fun _ h _ => .inr ⟨_, h⟩)
    · exact .fail fun _ h _ => h
    · exact .fail fun _ h _ => h
  · rintro env input _ w (rfl | ⟨l, rfl⟩)
    · exact ⟨_, _, rfl, .inl rfl, nofun⟩
    · exact ⟨_, _, rfl, .inl rfl, nofun⟩

theorem Gssapi.server_dies (lib : Gssapi.Lib) :
    Dies (Gssapi.server lib) (fun o => IsEnd o ∧ NotIo o)
      fun s => s = .errored ∨ ∃ l, s = .done l := by
  refine ⟨fun env input => ?_, ?_⟩
  · have hi : ∀ ctx sup, Leads (fun s => s = .errored ∨ ∃ l, s = .done l)
        (Gssapi.serverInstalled lib ctx sup)
        fun o s => IsEnd o ∧ NotIo o → s = .errored ∨ ∃ l, s = .done l := by
      intro ctx sup
      unfold Gssapi.serverInstalled
      exact Leads.dies (.liftGss _) fun _ => Leads.dies (.writeAll _) fun _ =>
        Leads.setBind (.pure fun _ _ h => h.1.elim)
    have hw : ∀ {P : Gssapi.SState lib → Prop} (b : Bytes),
        Leads P (M.writeAll b >>= fun _ => (pure .running : M _ State))
        fun o s => IsEnd o ∧ NotIo o → s = .errored ∨ ∃ l, s = .done l := by
      intro P b
      constructor
      intro s w _ h
      obtain ⟨n, sc, _, _, hx | ⟨e, hx⟩⟩ := M.writeAll_cases b s w
      · rw [M.bind_ok hx] at h
        exact h.1.elim
      · rw [M.bind_err hx] at h
        exact h.2.elim
    have hp : ∀ ctx, Leads (fun s => s = .errored ∨ ∃ l, s = .done l)
        (Gssapi.serverPending lib env ctx input)
        fun o s => IsEnd o ∧ NotIo o → s = .errored ∨ ∃ l, s = .done l := by
      intro ctx
      unfold Gssapi.serverPending
      refine Leads.dies (.okOr _ _) fun _ => ?_
      dsimp only
      refine Leads.dies (.liftGss _) fun tok => ?_
      split
      · refine Leads.dies (.ask fun _ => .pure _) fun o => Leads.dies (.liftGss _) fun _ => ?_
        cases o <;> dsimp only <;> split
        · exact .fail fun _ h _ => h
        · refine Leads.setBind ?_
          split
          · exact hw _
          · exact Leads.setBind ((hi _ _).mono (fun _ => .inl) fun _ _ h => h)
        · exact .fail fun _ h _ => h
        · refine Leads.setBind ?_
          split
          · exact hw _
          · exact Leads.setBind ((hi _ _).mono (fun _ => .inl) fun _ _ h => h)
      · split
        · exact hw _
        · exact .fail fun _ h _ => h
    show Leads _ (Gssapi.serverStep lib env input) _
    unfold Gssapi.serverStep
    refine Leads.getBind fun s _ => Leads.setBind ?_
    refine Leads.mono (P := fun s => s = .errored ∨ ∃ l, s = .done l) ?_ (fun _ => .inl)
      fun _ _ h => h
    split
    · exact Leads.dies (.liftGss _) fun _ => hp _
    · exact hp _
    · exact hi _ _
    · refine Leads.dies (.okOr _ _) fun _ => Leads.dies (.liftGss _) fun _ => Leads.dies (.lift _)
        fun _ => ?_
      split
      · exact Leads.setBind (.pure fun _ h _ => .inr ⟨_, h⟩)
      · exact .fail fun _ h _ => h
    · exact .fail fun _ h _ => h
    · exact .fail fun _ h _ => h
  · rintro env input _ w (rfl | ⟨l, rfl⟩)
    · exact ⟨_, _, rfl, .inl rfl, nofun⟩
    · exact ⟨_, _, rfl, .inl rfl, nofun⟩

theorem DeadAfter.mono {p q : Outcome State → Prop} {st : Started} (h : DeadAfter p st)
    (hq : ∀ o, q o → p o) : DeadAfter q st := fun env rng before after ⟨r, hr, hp⟩ =>
  h env rng before after ⟨r, hr, hq _ hp⟩

/-! ## The property -/

/-- C82: after `Finished`, an error or a panic a session does nothing any more. Not true: see the
theorems `C82_false_…`. -/
def C82 : Prop :=
  (∀ deps a st, Auth.startClient deps a = some st → DeadAfter IsEnd st) ∧
  (∀ deps a st, Auth.startServer deps a = some st → DeadAfter IsEnd st)

/-- C82 for both sides of SCRAM and for GSSAPI's client. -/
theorem C82_partial (deps : Deps) (a : Auth) (st : Started)
    (h : (a.startClient deps = some st ∧ (a.isScram = true ∨ a = .gssapi)) ∨
      (a.startServer deps = some st ∧ a.isScram = true)) : DeadAfter IsEnd st := by
  rcases h with ⟨h, ha | rfl⟩ | ⟨h, ha⟩
  · cases a <;> first | (cases ha; done) | (cases h; done) | skip
    all_goals cases h; exact (Scram.client_dies _).deadAfter
  · cases h
    exact (Gssapi.client_dies _).deadAfter
  · cases a <;> first | (cases ha; done) | (cases h; done) | skip
    all_goals cases h; exact (Scram.server_dies _).deadAfter

/-- C82 for GSSAPI's server, unless it was the writer that failed. -/
theorem C82_gssapi_server_partial (deps : Deps) (st : Started)
    (h : Auth.gssapi.startServer deps = some st) : DeadAfter (fun o => IsEnd o ∧ NotIo o) st := by
  cases h
  exact (Gssapi.server_dies _).deadAfter

/-- C82 after `Finished`, also for both sides of LOGIN and the clients of the OAuth mechanisms. -/
theorem C82_finished_partial (deps : Deps) (a : Auth) (st : Started)
    (h : (a.startClient deps = some st ∧ a ∉ [.plain, .external, .anonymous]) ∨
      (a.startServer deps = some st ∧ a ∉ [.plain, .external, .anonymous, .xoauth2, .oauthbearer])) :
    DeadAfter IsFinished st := by
  have he : ∀ o, IsFinished o → IsEnd o := by
    rintro (⟨⟨⟩⟩ | _ | _) h <;> first | exact h | exact trivial
  have hn : ∀ o, IsFinished o → IsEnd o ∧ NotIo o := by
    rintro (⟨⟨⟩⟩ | _ | _) h <;> first | exact h.elim | exact ⟨trivial, trivial⟩
  rcases h with ⟨h, ha⟩ | ⟨h, ha⟩
  · cases a <;> first | (cases h; done) | (exact absurd ha (by decide)) | skip
    all_goals cases h
    · exact Login.client_dies.deadAfter
    · exact XOAuth2.client_dies.deadAfter
    · exact (OAuthBearer.client_dies _).deadAfter
    · exact DeadAfter.mono (Gssapi.client_dies _).deadAfter he
    · exact DeadAfter.mono (Scram.client_dies _).deadAfter he
    · exact DeadAfter.mono (Scram.client_dies _).deadAfter he
  · cases a <;> first | (cases h; done) | (exact absurd ha (by decide)) | skip
    all_goals cases h
    · exact Login.server_dies.deadAfter
    · exact DeadAfter.mono (Gssapi.server_dies _).deadAfter hn
    · exact DeadAfter.mono (Scram.server_dies _).deadAfter he
    · exact DeadAfter.mono (Scram.server_dies _).deadAfter he

/-- An application that knows the password `secret`. -/
def secretEnv : Env :=
  ⟨fun _ _ _ => answerAll [], fun _ _ ctx =>
    match ctx.getRef .password with
    | some p => if p = b!"secret" then .ret (.ok ()) else .ret (.error (.boxed 0))
    | none => .ret (.error (.boxed 0)), fun _ => none, 0, ⟨⟨b!"X", 0, .client⟩, .client⟩⟩

/-- A server of PLAIN or LOGIN lets its client guess: refused once, a second password is looked at, and
finishes the session. -/
theorem C82_false_guess :
    (∀ st, Auth.login.startServer toyDeps = some st → ¬ DeadAfter IsEnd st) ∧
    (∀ st, Auth.plain.startServer toyDeps = some st → ¬ DeadAfter IsEnd st) := by
  refine ⟨fun st h => ?_, fun st h => ?_⟩
  · cases h
    intro h
    have := (h secretEnv (fun _ => 0) [⟨none, []⟩, ⟨some (b!"me"), []⟩, ⟨some (b!"guess"), []⟩]
      [⟨some (b!"secret"), []⟩] ⟨⟨.err (.validationError (.boxed 0)), []⟩, .tail _ (.tail _ (.head _)), trivial⟩).1
      ⟨.ok (.finished .no), []⟩ (.head _)
    exact this.1 _ rfl
  · cases h
    intro h
    have := (h secretEnv (fun _ => 0) [⟨some (b!"\x00me\x00guess"), []⟩]
      [⟨some (b!"\x00me\x00secret"), []⟩] ⟨⟨.err (.validationError (.boxed 0)), []⟩, .head _, trivial⟩).1
      ⟨.ok (.finished .no), []⟩ (.head _)
    exact this.1 _ rfl

theorem not_dead {st : Started} {env : Env} {rng : Nat → Nat} {c c' : Call}
    (h : ∃ r, ((st.session rng).run st.mech env [c]).1 = [r] ∧ IsFinished r.res)
    (h' : ∃ r r', ((st.session rng).run st.mech env [c, c']).1 = [r, r'] ∧ IsFinished r'.res) :
    ¬ DeadAfter IsFinished st := by
  obtain ⟨r, hr, hf⟩ := h
  obtain ⟨r1, r2, hrr, hf'⟩ := h'
  intro hd
  have := (hd env rng [c] [c'] ⟨r, by rw [hr]; exact .head _, hf⟩).1
    (((st.session rng).step st.mech env c).2.step st.mech env c').1 (.head _)
  rw [run_cons, run_cons] at hrr
  injection hrr with _ hrr
  injection hrr with hrr
  rw [hrr] at this
  rcases hx : r2.res with x | x | _
  · exact this.1 x hx
  · rw [hx] at hf'; exact hf'
  · rw [hx] at hf'; exact hf'

/-- The servers of PLAIN, EXTERNAL, ANONYMOUS, XOAUTH2 and OAUTHBEARER, having finished, do so again when
given another message: another name is shown to the application. -/
theorem C82_false_again (a : Auth) (first second : Bytes)
    (h : (a, first, second) ∈ [
      (Auth.plain, (b!"\x00me\x00x"), (b!"\x00you\x00x")), (.external, (b!"me"), (b!"you")),
      (.anonymous, (b!"me"), (b!"you")),
      (.xoauth2, (b!"user=me\x01auth=Bearer x\x01\x01"), (b!"user=you\x01auth=Bearer x\x01\x01")),
      (.oauthbearer, (b!"n,a=me,\x01auth=Bearer x\x01\x01"), (b!"n,a=you,\x01auth=Bearer x\x01\x01"))]) :
    ∃ st, a.startServer toyDeps = some st ∧
      let env := exampleEnv [⟨.xoauth2Validate, .ok ()⟩, ⟨.oauthBearerValidate, .ok ()⟩]
      let ses := st.session fun _ => 0
      (∃ r, (ses.run st.mech env [⟨some first, []⟩]).1 = [r] ∧ IsFinished r.res) ∧
      (∃ r r', (ses.run st.mech env [⟨some first, []⟩, ⟨some second, []⟩]).1 = [r, r'] ∧
        IsFinished r'.res) ∧
      (validations (ses.run st.mech env [⟨some first, []⟩, ⟨some second, []⟩]).2.log).length = 2 ∧
      ¬ DeadAfter IsFinished st := by
  suffices hk : ∃ st, a.startServer toyDeps = some st ∧
      let env := exampleEnv [⟨.xoauth2Validate, .ok ()⟩, ⟨.oauthBearerValidate, .ok ()⟩]
      let ses := st.session fun _ => 0
      (∃ r, (ses.run st.mech env [⟨some first, []⟩]).1 = [r] ∧ IsFinished r.res) ∧
      (∃ r r', (ses.run st.mech env [⟨some first, []⟩, ⟨some second, []⟩]).1 = [r, r'] ∧
        IsFinished r'.res) ∧
      (validations (ses.run st.mech env [⟨some first, []⟩, ⟨some second, []⟩]).2.log).length = 2 by
    obtain ⟨st, hs, h1, h2, h3⟩ := hk
    exact ⟨st, hs, h1, h2, h3, not_dead h1 h2⟩
  simp only [List.mem_cons, Prod.mk.injEq, List.not_mem_nil, or_false] at h
  rcases h with ⟨rfl, rfl, rfl⟩ | ⟨rfl, rfl, rfl⟩ | ⟨rfl, rfl, rfl⟩ | ⟨rfl, rfl, rfl⟩ | ⟨rfl, rfl, rfl⟩ <;>
  exact ⟨_, rfl, ⟨_, rfl, trivial⟩, ⟨_, _, rfl, trivial⟩, rfl⟩

/-- The clients of PLAIN, EXTERNAL and ANONYMOUS send their message again. -/
theorem C82_false_client (a : Auth) (out : Bytes)
    (h : (a, out) ∈ [(Auth.plain, (b!"z\x00me\x00pw")), (.external, (b!"z")), (.anonymous, (b!"t"))]) :
    ∃ st, a.startClient toyDeps = some st ∧
      ((st.session fun _ => 0).run st.mech
        (exampleEnv [⟨.authzId, c!"z"⟩, ⟨.authId, c!"me"⟩, ⟨.password, b!"pw"⟩, ⟨.anonymousToken, c!"t"⟩])
        [⟨none, []⟩, ⟨none, []⟩]).1.map (fun r => (r.res, r.out)) =
      [(.ok (.finished .yes), out), (.ok (.finished .yes), out)] := by
  simp only [List.mem_cons, Prod.mk.injEq, List.not_mem_nil, or_false] at h
  rcases h with ⟨rfl, rfl⟩ | ⟨rfl, rfl⟩ | ⟨rfl, rfl⟩ <;> exact ⟨_, rfl, by decide +kernel⟩

/-- After an error of the writer GSSAPI's server goes on, and the client misses the token that could not
be written. -/
theorem C82_false_gssapi_server : ∃ st,
    Auth.gssapi.startServer { toyDeps with gss := answeringGss } = some st ∧ ¬ DeadAfter IsEnd st :=
  ⟨_, rfl, fun h =>
    (h (exampleEnv []) (fun _ => 0) [⟨some [], [.fail (.other 0)]⟩] [⟨some [], []⟩]
      ⟨⟨.err (.io (.other 0)), []⟩, .head _, trivial⟩).1
      ⟨.ok .running, [7, 255, 255, 255]⟩ (.head _) |>.1 _ rfl⟩

/-- So the property fails. -/
theorem C82_false : ¬ C82 := fun h => C82_false_guess.1 _ rfl (h.2 toyDeps .login _ rfl)

/-- A SCRAM client that fails, and is called again. -/
example : let st : Started := ⟨Scram.client toyDigest, Scram.clientNew false⟩
    ∃ r ∈ ((st.session fun _ => 0).run st.mech (exampleEnv [⟨.authId, c!"me"⟩])
      [⟨none, []⟩, ⟨some (b!"rubbish"), []⟩]).1, IsEnd r.res ∧ ∃ e, r.res = .err e :=
  ⟨_, .tail _ (.head _), trivial, _, rfl⟩

end Rsasl

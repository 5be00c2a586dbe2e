/-
C72: who speaks when, and that nobody is left waiting.
-/
import Verif.Proofs.Turns
import Verif.Props.EndToEnd
import Verif.Props.Nothing
import Verif.Props.Preference

namespace Rsasl

open Spec

/-- What a turn allows as result, with what is left to do in `Next`. -/
def Turn.Allows {S : Type} (t : Turn) (input : Option Bytes) (Next : S → Prop) : State → S → Prop
  | .running, s => t.running = true ∧ Next s
  | .finished .yes, _ => t.yes = true
  | .finished .no, _ => t.no = true ∧ (t.empty = true → ∀ i, input = some i → i = [])

theorem Plays.cons {m : Mech} {env : Env} {t : Turn} {ts : List Turn} {s : m.S}
    (hl : ∀ input, Leads (· = s) (m.step env input)
      fun o s' => ∀ st, o = .ok st → t.Allows input (Plays m env ts) st s')
    (hs : t.loud = true → ∀ input, Leads (· = s) (m.step env input)
      (fun o _ => o ≠ .ok .running) ∨
      Says False (fun st d => st = .running → d ≠ []) (m.step env input)) :
    Plays m env (t :: ts) s := by
  intro input w hw st hst
  have h1 := (hl input).leads s w rfl st hst
  cases st with
  | running =>
    refine ⟨h1.1, fun hsay => ?_, h1.2⟩
    rcases hs hsay input with h | h
    · exact absurd hst (h.leads s w rfl)
    · obtain ⟨d, h2, _, h3⟩ := h.says s w nofun
      rw [h2, hw]
      exact h3 _ hst rfl
  | finished b => cases b <;> exact h1

theorem Plays.quiet {m : Mech} {env : Env} {t : Turn} {ts : List Turn} {s : m.S} (ht : t.loud = false)
    (hl : ∀ input, Leads (· = s) (m.step env input)
      fun o s' => ∀ st, o = .ok st → t.Allows input (Plays m env ts) st s') :
    Plays m env (t :: ts) s :=
  .cons hl fun h => by rw [ht] at h; cases h

theorem Plays.plain {S : Type} {step : Env → Option Bytes → M S State} {env : Env} {t : Turn}
    {ts : List Turn} {s : S} (ht : t.loud = false)
    (hl : ∀ input, Leads (· = s) (step env input)
      fun o s' => ∀ st, o = .ok st → t.Allows input (Plays { S := S, step := step } env ts) st s') :
    Plays { S := S, step := step } env (t :: ts) s := .quiet ht hl

/-- Walk to the ends of a step. -/
macro "turns" : tactic => `(tactic|
  repeat (first
    | with_reducible refine Leads.getBind fun _ _ => ?_
    | with_reducible refine Leads.setBind ?_
    | ((with_reducible refine Leads.fail ?_); (intro _ _; exact nofun))
    | ((with_reducible refine Leads.after ?_ (fun _ => ?_) nofun nofun); (focus (stays; done)))
    | split | dsimp only))

/-! ## The mechanisms -/

/-- One message and done. -/
def oneMessage : List Turn := [{ yes := true }]
/-- One message to hear. -/
def oneAnswer : List Turn := [{ no := true }]
/-- LOGIN -/
def loginClient : List Turn := [{ running := true }, { yes := true }]
def loginServer : List Turn := [{ running := true }, { running := true }, { no := true }]
/-- SCRAM -/
def scramClient : List Turn := [{ running := true }, { running := true }, { no := true }]
def scramServer : List Turn := [{ running := true }, { yes := true }]
/-- XOAUTH2, OAUTHBEARER -/
def oauthClient : List Turn := [{ running := true }, { yes := true, no := true, empty := true }]
def oauthServer (loud : Bool) : List Turn := [{ running := true, no := true, loud := loud }, { no := true }]

theorem Plain.client_plays (env : Env) : Plays Plain.client env oneMessage () := by
  refine Plays.plain rfl fun input => ?_
  show Leads _ (Plain.clientStep env input) _
  unfold Plain.clientStep Plain.clientAuthzid Plain.clientAuthid Plain.clientPassword
  turns
  refine Leads.pure ?_
  rintro _ _ st ⟨⟩; rfl

theorem Plain.server_plays (prep : Str → Option Str) (env : Env) :
    Plays (Plain.server prep) env oneAnswer () := by
  refine Plays.plain rfl fun input => ?_
  show Leads _ (Plain.serverStep prep env input) _
  unfold Plain.serverStep
  turns
  · refine Leads.pure ?_
    rintro _ _ st ⟨⟩
    exact ⟨rfl, nofun⟩
  · turns
    refine Leads.pure ?_
    rintro _ _ st ⟨⟩
    exact ⟨rfl, nofun⟩
  · turns

theorem External.client_plays (env : Env) : Plays External.client env oneMessage () := by
  refine Plays.plain rfl fun input => ?_
  show Leads _ (External.clientStep env input) _
  unfold External.clientStep
  turns
  refine Leads.pure ?_
  rintro _ _ st ⟨⟩; rfl

theorem External.server_plays (env : Env) : Plays External.server env oneAnswer () := by
  refine Plays.plain rfl fun input => ?_
  show Leads _ (External.serverStep env input) _
  unfold External.serverStep
  turns
  refine Leads.pure ?_
  rintro _ _ st ⟨⟩; exact ⟨rfl, nofun⟩

theorem Anonymous.client_plays (env : Env) : Plays Anonymous.client env oneMessage () := by
  refine Plays.plain rfl fun input => ?_
  show Leads _ (Anonymous.clientStep env input) _
  unfold Anonymous.clientStep
  turns
  refine Leads.pure ?_
  rintro _ _ st ⟨⟩; rfl

theorem Anonymous.server_plays (env : Env) : Plays Anonymous.server env oneAnswer () := by
  refine Plays.plain rfl fun input => ?_
  show Leads _ (Anonymous.serverStep env input) _
  unfold Anonymous.serverStep
  turns
  refine Leads.pure ?_
  rintro _ _ st ⟨⟩; exact ⟨rfl, nofun⟩

theorem Leads.at {S α : Type} {s : S} {f : S → M S α} {Q : Outcome α → S → Prop}
    (h : Leads (· = s) (f s) Q) : Leads (· = s) (M.get >>= f) Q :=
  .getBind fun _ h' => h'.symm ▸ h

theorem Login.client_plays (env : Env) : Plays Login.client env loginClient .authid := by
  refine Plays.plain rfl fun input => ?_
  show Leads _ (Login.clientStep env input) _
  refine Leads.at ?_
  dsimp only
  turns
  refine Leads.pure ?_
  rintro _ rfl st ⟨⟩
  refine ⟨rfl, Plays.plain rfl fun input => ?_⟩
  show Leads _ (Login.clientStep env input) _
  refine Leads.at ?_
  dsimp only
  turns
  refine Leads.pure ?_
  rintro _ _ st ⟨⟩
  rfl

theorem Login.server_plays (env : Env) : Plays Login.server env loginServer .new := by
  refine Plays.plain rfl fun input => ?_
  show Leads _ (Login.serverStep env input) _
  refine Leads.at ?_
  dsimp only
  turns
  refine Leads.pure ?_
  rintro _ rfl st ⟨⟩
  refine ⟨rfl, Plays.plain rfl fun input => ?_⟩
  show Leads _ (Login.serverStep env input) _
  refine Leads.at ?_
  dsimp only
  turns
  refine Leads.pure ?_
  rintro _ rfl st ⟨⟩
  refine ⟨rfl, Plays.plain rfl fun input => ?_⟩
  show Leads _ (Login.serverStep env input) _
  refine Leads.at ?_
  dsimp only
  turns
  refine Leads.pure ?_
  rintro _ _ st ⟨⟩
  exact ⟨rfl, nofun⟩
  all_goals turns

theorem XOAuth2.client_plays (env : Env) : Plays XOAuth2.client env oauthClient .initial := by
  refine Plays.plain rfl fun input => ?_
  show Leads _ (XOAuth2.clientStep env input) _
  refine Leads.at ?_
  dsimp only
  turns
  refine Leads.pure ?_
  rintro _ rfl st ⟨⟩
  refine ⟨rfl, Plays.plain rfl fun input => ?_⟩
  show Leads _ (XOAuth2.clientStep env input) _
  refine Leads.at ?_
  dsimp only
  refine Leads.setBind ?_
  split
  · next hi =>
    refine .pure ?_
    rintro _ _ st ⟨⟩
    exact ⟨rfl, fun _ i h => by subst h; exact List.isEmpty_iff.1 hi⟩
  · turns
    refine Leads.pure ?_
    rintro _ _ st ⟨⟩
    rfl

theorem OAuthBearer.client_plays (json : OAuthBearer.Json) (env : Env) :
    Plays (OAuthBearer.client json) env oauthClient .initial := by
  have hkv : ∀ {P : OAuthCState → Prop} kvs,
      Stays P (OAuthBearer.writeKVs kvs : M OAuthCState Unit) := by
    intro P kvs
    induction kvs with
    | nil => exact .pure _
    | cons kv kvs ih => exact Stays.bind (.writeVectored _) fun _ => ih
  refine Plays.plain rfl fun input => ?_
  show Leads _ (OAuthBearer.clientStep json env input) _
  refine Leads.at ?_
  dsimp only
  have := @hkv (· = .initial)
  turns
  refine Leads.pure ?_
  rintro _ rfl st ⟨⟩
  refine ⟨rfl, Plays.plain rfl fun input => ?_⟩
  show Leads _ (OAuthBearer.clientStep json env input) _
  refine Leads.at ?_
  dsimp only
  refine Leads.setBind ?_
  split
  · next hi =>
    refine .pure ?_
    rintro _ _ st ⟨⟩
    exact ⟨rfl, fun _ i h => by subst h; exact List.isEmpty_iff.1 hi⟩
  · turns
    refine Leads.pure ?_
    rintro _ _ st ⟨⟩
    rfl

/-- Asking, where only good answers matter. -/
theorem Leads.need {S G : Type} {P : S → Prop} {env : Env} {p : Property} {ctx : Provider}
    {f : p.Value → M S G} {R : G → S → Prop}
    (hf : ∀ v, Leads P (f v) fun o s => ∀ g, o = .ok g → R g s) :
    Leads P (Rsasl.needWith env p ctx f) fun o s => ∀ g, o = .ok g → R g s := by
  refine Leads.seq (R := fun o s => ∀ g, o = some g → R g s) ?_ fun o => ?_
  · constructor
    intro s w hs
    have hr := maybeNeedWith_run env p ctx f s w
    generalize maybeNeedWith env p ctx f s w = x at hr
    cases hr with
    | none o es hq ho =>
      rcases ho with rfl | ⟨e, rfl⟩
      · rintro _ ⟨⟩; nofun
      · nofun
    | ok v es es' g s' w' o hq hq' hf' ho =>
      have := (hf v).leads s (w.addLog (.asked p ctx :: es ++ [.answered p v])) hs
      rw [hf'] at this
      rcases ho with rfl | rfl | ⟨e, rfl⟩
      · rintro _ ⟨⟩ _ ⟨⟩; exact this _ rfl
      · rintro _ ⟨⟩; nofun
      · nofun
    | err v es es' e s' w' o hq hq' hf' ho =>
      rcases ho with rfl | ⟨e, rfl⟩
      · rintro _ ⟨⟩; nofun
      · nofun
    | panic v es s' w' hq hf' => nofun
  · cases o with
    | none => exact .fail nofun
    | some g => exact .pure fun s h b hb => by cases hb; exact h g rfl

theorem oauth_errored {m : Mech} {env : Env} {s : m.S}
    (h : ∀ input w, m.step env input s w = (.ok (.finished .no), s, w)) :
    Plays m env [{ no := true }] s := by
  refine .quiet rfl fun input => ⟨fun s' w hs st hst => ?_⟩
  subst hs
  rw [h] at hst ⊢
  cases hst
  exact ⟨rfl, nofun⟩

/-- What the first step of the OAuth servers leads to. -/
def AfterFirst (st : State) (s : OAuthSState) : Prop :=
  st = .finished .no ∨ (st = .running ∧ s = .errored)

theorem AfterFirst.allows {loud : Bool} {input : Option Bytes} {Next : OAuthSState → Prop}
    (hn : Next .errored) {st : State} {s : OAuthSState} (h : AfterFirst st s) :
    ({ running := true, no := true, loud := loud } : Turn).Allows input Next st s := by
  rcases h with rfl | ⟨rfl, rfl⟩
  · exact ⟨rfl, nofun⟩
  · exact ⟨rfl, hn⟩

theorem XOAuth2.onResult_after (r : Except Str Unit) : Leads (· = .initial) (XOAuth2.onResult r)
    fun o s => ∀ st, o = .ok st → AfterFirst st s := by
  cases r with
  | error e =>
    refine Leads.after (Stays.writeAll _) (fun _ => Leads.setBind (.pure ?_)) nofun nofun
    rintro _ rfl st ⟨⟩
    exact .inr ⟨rfl, rfl⟩
  | ok u => exact .pure (by rintro _ _ st ⟨⟩; exact .inl rfl)

theorem OAuthBearer.onResult_after (json : OAuthBearer.Json) (r : Except OAuthBearerError Unit) :
    Leads (· = .initial) (OAuthBearer.onResult json r)
    fun o s => ∀ st, o = .ok st → AfterFirst st s := by
  cases r with
  | error e =>
    refine Leads.after (Stays.writeJson _) (fun _ => Leads.setBind (.pure ?_)) nofun nofun
    rintro _ rfl st ⟨⟩
    exact .inr ⟨rfl, rfl⟩
  | ok u => exact .pure (by rintro _ _ st ⟨⟩; exact .inl rfl)

/-- The end of the first step of the OAuth servers. -/
theorem oauth_end {env : Env} {prov : Provider} {m : M OAuthSState State}
    (h : Leads (· = .initial) m fun o s => ∀ st, o = .ok st → AfterFirst st s) :
    Leads (· = .initial) (m >>= fun st => Rsasl.validate env prov >>= fun _ => pure st)
      fun o s => ∀ st, o = .ok st → AfterFirst st s :=
  Leads.seq h fun st => Leads.after Stays.validate
    (fun _ => .pure fun s hs st' h' => by cases h'; exact hs) nofun nofun

theorem XOAuth2.server_after (env : Env) (input : Option Bytes) :
    Leads (· = .initial) (XOAuth2.serverStep env input)
      fun o s => ∀ st, o = .ok st → AfterFirst st s := by
  refine Leads.at ?_
  dsimp only
  refine Leads.after (.okOr _ _) (fun i => Leads.after (.lift _) (fun x => ?_) nofun nofun) nofun nofun
  exact oauth_end (Leads.need fun v => XOAuth2.onResult_after v)

theorem OAuthBearer.server_after (json : OAuthBearer.Json) (env : Env) (input : Option Bytes) :
    Leads (· = .initial) (OAuthBearer.serverStep json env input)
      fun o s => ∀ st, o = .ok st → AfterFirst st s := by
  refine Leads.at ?_
  dsimp only
  refine Leads.after (.okOr _ _) (fun i => ?_) nofun nofun
  split
  · exact .fail nofun
  · exact oauth_end (Leads.need fun v => OAuthBearer.onResult_after json v)

theorem XOAuth2.server_plays (env : Env) : Plays XOAuth2.server env (oauthServer false) .initial :=
  .quiet rfl fun input => (XOAuth2.server_after env input).mono (fun _ h => h)
    fun _ _ h st hst => (h st hst).allows (oauth_errored fun _ _ => rfl)

theorem OAuthBearer.server_plays (json : OAuthBearer.Json) (env : Env) :
    Plays (OAuthBearer.server json) env (oauthServer false) .initial :=
  .quiet rfl fun input => (OAuthBearer.server_after json env input).mono (fun _ h => h)
    fun _ _ h st hst => (h st hst).allows (oauth_errored fun _ _ => rfl)

/-- Code whose beginning does not matter. -/
theorem Leads.last {S α β : Type} {m : M S α} {f : α → M S β} {R : β → Prop}
    (h : ∀ a, Leads (fun _ => True) (f a) fun o _ => ∀ b, o = .ok b → R b) :
    Leads (fun _ => True) (m >>= f) fun o _ => ∀ b, o = .ok b → R b :=
  Leads.after .triv h nofun nofun

theorem Scram.sendClientFirst_gives (n : Nat) (env : Env) (plus : Scram.CbSupport) :
    Leads (fun _ => True) (Scram.sendClientFirst n env plus)
      fun o _ => ∀ a, o = .ok a → ∃ cb nonce u, a = .clientFirst cb nonce u := by
  unfold Scram.sendClientFirst
  refine Leads.last fun _ => Leads.last fun _ => Leads.last fun _ => Leads.last fun _ =>
    Leads.last fun _ => Leads.last fun _ => Leads.last fun _ => Leads.last fun _ => .pure ?_
  rintro _ _ _ ⟨⟩
  exact ⟨_, _, _, rfl⟩

theorem Scram.handleServerFirst_gives (d : Scram.Digest) (env : Env) (cb nonce : Bytes) (u : Str)
    (input : Bytes) :
    Leads (fun _ => True) (Scram.handleServerFirst d env cb nonce u input)
      fun o _ => ∀ a, o = .ok a → ∃ v ck sk salt i, a = .serverFirst v ck sk salt i := by
  unfold Scram.handleServerFirst
  refine Leads.last fun _ => Leads.last fun _ => Leads.last fun _ => .pure ?_
  rintro _ _ _ ⟨⟩
  exact ⟨_, _, _, _, _, rfl⟩

theorem Scram.handleClientFirst_gives (d : Scram.Digest) (n : Nat) (env : Env) (canCb : Bool)
    (msg : Scram.ClientFirst) :
    Leads (fun _ => True) (Scram.handleClientFirst d n env canCb msg)
      fun o _ => ∀ a, o = .ok a → ∃ data, a = .waitingClientFinal data := by
  unfold Scram.handleClientFirst
  refine Leads.last fun _ => Leads.last fun _ => Leads.last fun _ => ?_
  split
  · refine Leads.last fun _ => Leads.last fun _ => .pure ?_
    rintro _ _ _ ⟨⟩
    exact ⟨_, rfl⟩
  · refine Leads.last fun _ => Leads.last fun _ => .pure ?_
    rintro _ _ _ ⟨⟩
    exact ⟨_, rfl⟩

/-- Code whose result alone decides. -/
theorem Leads.result {S α β : Type} {P : S → Prop} {m : M S α} {f : α → M S β} {R : α → Prop}
    {Q : β → S → Prop}
    (h1 : Leads (fun _ => True) m fun o _ => ∀ a, o = .ok a → R a)
    (h2 : ∀ a, R a → Leads (fun _ => True) (f a) fun o s => ∀ b, o = .ok b → Q b s) :
    Leads P (m >>= f) fun o s => ∀ b, o = .ok b → Q b s :=
  (Leads.seq (R := fun a _ => R a) h1 fun a => ⟨fun s w h => (h2 a h).leads s w trivial⟩).mono
    (fun _ _ => trivial) fun _ _ h => h

/-- Code whose result does not matter. -/
theorem Leads.anyway {S α β : Type} {P : S → Prop} {m : M S α} {f : α → M S β} {Q : β → S → Prop}
    (h2 : ∀ a, Leads (fun _ => True) (f a) fun o s => ∀ b, o = .ok b → Q b s) :
    Leads P (m >>= f) fun o s => ∀ b, o = .ok b → Q b s :=
  .result (R := fun _ => True) ⟨fun _ _ _ _ _ => trivial⟩ fun a _ => h2 a

theorem Scram.client_plays (d : Scram.Digest) (env : Env) (plus : Scram.CbSupport) :
    Plays (Scram.client d) env scramClient (some (.initial plus)) := by
  refine Plays.plain rfl fun input => ?_
  show Leads _ (Scram.clientStep d Scram.nonceLen env input) _
  refine Leads.at (Leads.setBind ?_)
  dsimp only
  refine Leads.result (Leads.local (P := fun _ => True) (Q := fun o _ => ∀ a, o = .ok a →
    ∃ cb nonce u, a = Scram.CState.clientFirst cb nonce u) (Scram.sendClientFirst_gives Scram.nonceLen env plus)) ?_
  rintro _ ⟨cb, nonce, u, rfl⟩
  refine Leads.setBind (.pure ?_)
  rintro _ rfl st ⟨⟩
  refine ⟨rfl, Plays.plain rfl fun input => ?_⟩
  show Leads _ (Scram.clientStep d Scram.nonceLen env input) _
  refine Leads.at (Leads.setBind ?_)
  dsimp only
  refine Leads.anyway fun i => Leads.result (Scram.handleServerFirst_gives d env cb nonce u i) ?_
  rintro _ ⟨v, ck, sk, salt, it, rfl⟩
  refine Leads.setBind (.pure ?_)
  rintro _ rfl st ⟨⟩
  refine ⟨rfl, Plays.plain rfl fun input => ?_⟩
  show Leads _ (Scram.clientStep d Scram.nonceLen env input) _
  refine Leads.at (Leads.setBind ?_)
  dsimp only
  refine Leads.anyway fun i => Leads.anyway fun _ => .pure ?_
  rintro _ _ st ⟨⟩
  exact ⟨rfl, nofun⟩

theorem Scram.server_plays (d : Scram.Digest) (env : Env) (canCb : Bool) :
    Plays (Scram.server d) env scramServer (some (.waitingClientFirst canCb)) := by
  refine Plays.plain rfl fun input => ?_
  show Leads _ (Scram.serverStep d Scram.nonceLen env input) _
  refine Leads.at (Leads.setBind ?_)
  dsimp only
  refine Leads.anyway fun i => Leads.anyway fun msg => Leads.result
    (Leads.local (P := fun _ => True) (Q := fun o _ => ∀ a, o = .ok a → ∃ data, a = Scram.SState.waitingClientFinal data)
    (Scram.handleClientFirst_gives d Scram.nonceLen env canCb msg)) ?_
  rintro _ ⟨data, rfl⟩
  refine Leads.setBind (.pure ?_)
  rintro _ rfl st ⟨⟩
  refine ⟨rfl, Plays.plain rfl fun input => ?_⟩
  show Leads _ (Scram.serverStep d Scram.nonceLen env input) _
  refine Leads.at (Leads.setBind ?_)
  dsimp only
  refine Leads.anyway fun i => Leads.anyway fun _ => Leads.setBind (.pure ?_)
  rintro _ _ st ⟨⟩
  rfl

/-! ## Servers that say something -/

theorem OAuthBearer.writeJson_all {S : Type} (bs : List Bytes) :
    Says False (fun _ d => d = bs.flatten) (OAuthBearer.writeJson bs : M S Unit) := by
  induction bs with
  | nil => exact .pure rfl
  | cons b bs ih =>
    unfold OAuthBearer.writeJson
    refine Says.bind (Says.attempt (Says.writeAll b)) fun r d h => ?_
    split
    · refine ih.mono fun _ d' h' => ?_
      rw [h _ rfl, h', List.flatten_cons]
    · exact .fail _

/-- Sequencing before code that leaves the writer alone and gives the same result. -/
theorem Says.before {S : Type} {R : State → Bytes → Prop} {m : M S State} {v : M S Unit}
    (h : Says False R m) (hv : Still v) : Says False R (m >>= fun st => v >>= fun _ => Pure.pure st) :=
  Says.bind h fun _ d hd => Says.next hv fun _ => .pure (by rwa [List.append_nil])

theorem OAuthBearer.server_speaks {json : OAuthBearer.Json} (hj : ∀ e, (json.ser e).flatten ≠ [])
    (env : Env) (input : Option Bytes) :
    Leads (· = .initial) (OAuthBearer.serverStep json env input) (fun o _ => o ≠ .ok .running) ∨
    Says False (fun st d => st = .running → d ≠ []) (OAuthBearer.serverStep json env input) := by
  refine .inr (Says.next .get fun s => ?_)
  split
  · refine Says.next (.okOr _ _) fun i => ?_
    split
    · exact .fail _
    · refine Says.before (Says.needWith fun r => ?_) .validate
      cases r with
      | error e =>
        refine Says.bind (OAuthBearer.writeJson_all (json.ser e)) fun _ d hd =>
          Says.next (.set _) fun _ => .pure fun _ => ?_
        rw [List.append_nil, hd]
        exact hj e
      | ok u => exact .pure nofun
  · exact .pure nofun

theorem OAuthBearer.server_loud {json : OAuthBearer.Json} (hj : ∀ e, (json.ser e).flatten ≠ [])
    (env : Env) : Plays (OAuthBearer.server json) env (oauthServer true) .initial :=
  .cons (fun input => (OAuthBearer.server_after json env input).mono (fun _ h => h)
    fun _ _ h st hst => (h st hst).allows (oauth_errored fun _ _ => rfl))
    fun _ input => OAuthBearer.server_speaks hj env input

/-- Only values the callback may supply matter. -/
theorem needWith_congr {S G : Type} {env : Env} {p : Property} {V : p.Value → Prop}
    (hp : env.Supplies p V) (ctx : Provider) {f g : p.Value → M S G} (h : ∀ v, V v → f v = g v) :
    needWith env p ctx f = needWith env p ctx g := by
  unfold needWith maybeNeedWith
  congr 2
  funext l
  rw [runSat_congr (hp l ctx) h]

/-- The error the server's application gives is not empty. -/
def TellsWhy (env : Env) : Prop := env.Supplies .xoauth2Validate fun r => ∀ e, r = .error e → e ≠ []

theorem XOAuth2.server_speaks {env : Env} (he : TellsWhy env) (input : Option Bytes) :
    Leads (· = .initial) (XOAuth2.serverStep env input) (fun o _ => o ≠ .ok .running) ∨
    Says False (fun st d => st = .running → d ≠ []) (XOAuth2.serverStep env input) := by
  classical
  refine .inr (Says.next .get fun s => ?_)
  split
  · refine Says.next (.okOr _ _) fun i => Says.next (.lift _) fun x => ?_
    rcases x with ⟨authid, token⟩
    dsimp only
    rw [needWith_congr he (XOAuth2.provider authid token) (g := fun r =>
      if ∀ e, r = .error e → e ≠ [] then XOAuth2.onResult r else M.panic)
      fun v hv => (if_pos hv).symm]
    refine Says.before (Says.needWith fun r => ?_) .validate
    split
    · next hr =>
      cases r with
      | error e =>
        refine Says.bind (Says.writeAll (Str.bytes e)) fun _ d hd =>
          Says.next (.set _) fun _ => .pure fun _ => ?_
        rw [List.append_nil, hd]
        exact fun h => hr e rfl ((Str.bytes_eq_nil e).1 h)
      | ok u => exact .pure nofun
    · exact .panic
  · exact .pure nofun

theorem XOAuth2.server_loud {env : Env} (he : TellsWhy env) :
    Plays XOAuth2.server env (oauthServer true) .initial :=
  .cons (fun input => (XOAuth2.server_after env input).mono (fun _ h => h)
    fun _ _ h st hst => (h st hst).allows (oauth_errored fun _ _ => rfl))
    fun _ input => XOAuth2.server_speaks he input

/-! ## Conversations -/

/-- The turns of the implementations in client sessions. -/
def clientTurns : Auth → List Turn
  | .plain | .external | .anonymous => oneMessage
  | .login => loginClient
  | .xoauth2 | .oauthbearer => oauthClient
  | .scramClient _ _ | .scramClientPlus _ => scramClient
  | _ => []

/-- In server sessions; `loud`: errors are not empty. -/
def serverTurns (loud : Bool) : Auth → List Turn
  | .plain | .external | .anonymous => oneAnswer
  | .login => loginServer
  | .xoauth2 | .oauthbearer => oauthServer loud
  | .scramServer _ _ | .scramServerPlus _ => scramServer
  | _ => []

theorem client_turns {deps : Deps} {a : Auth} {st : Started} (h : a.startClient deps = some st)
    (env : Env) : Plays st.mech env (clientTurns a) st.init := by
  cases a <;> cases h
  · exact Plain.client_plays env
  · exact Login.client_plays env
  · exact External.client_plays env
  · exact Anonymous.client_plays env
  · exact XOAuth2.client_plays env
  · exact OAuthBearer.client_plays _ env
  · trivial
  · exact Scram.client_plays _ env _
  · exact Scram.client_plays _ env _

theorem server_turns {deps : Deps} {b : Auth} {st : Started} (h : b.startServer deps = some st)
    (env : Env) : Plays st.mech env (serverTurns false b) st.init := by
  cases b <;> cases h
  · exact Plain.server_plays _ env
  · exact Login.server_plays env
  · exact External.server_plays env
  · exact Anonymous.server_plays env
  · exact XOAuth2.server_plays env
  · exact OAuthBearer.server_plays _ env
  · trivial
  · exact Scram.server_plays _ env _
  · exact Scram.server_plays _ env _

theorem server_turns_loud {deps : Deps} (hj : ∀ e, (deps.json.ser e).flatten ≠ []) {b : Auth}
    {st : Started} (h : b.startServer deps = some st) {env : Env} (he : TellsWhy env) :
    Plays st.mech env (serverTurns true b) st.init := by
  cases b <;> cases h
  · exact Plain.server_plays _ env
  · exact Login.server_plays env
  · exact External.server_plays env
  · exact Anonymous.server_plays env
  · exact XOAuth2.server_loud he
  · exact OAuthBearer.server_loud hj env
  · trivial
  · exact Scram.server_plays _ env _
  · exact Scram.server_plays _ env _

/-- How conversations of two such mechanisms can end. -/
def conversationEnds (first : Side) (n : Nat) (ct st : List Turn) : List Ending :=
  match first with
  | .client => ends .client n ct st false false
  | .server => ends .server n st ct false false

theorem conversation_ends {first : Side} {client server : Started} {cenv senv : Env}
    {ct st : List Turn} (hc : Plays client.mech cenv ct client.init)
    (hs : Plays server.mech senv st server.init) (crng srng : Nat → Nat) (ws : List (List WResp)) :
    conversation first client server cenv senv crng srng ws ∈
      conversationEnds first ws.length ct st := by
  cases first with
  | client => exact takeTurns_ends ws _ _ _ _ _ _ _ _ hc (fun _ => hs) nofun
  | server => exact takeTurns_ends ws _ _ _ _ _ _ _ _ hs (fun _ => hc) nofun

/-- What client and server run when the client has chosen the mechanism and told the server. -/
theorem started_both {cc sc : Config} (hc : ∀ m ∈ cc.mechs, m ∈ shipped)
    (hs : ∀ m ∈ sc.mechs, m ∈ shipped) {offered : List Bytes} {a b : Auth} {m m' : Mechanism}
    (ha : cc.clientStart offered = .ok (a, m)) (hb : sc.serverStart m.name = .ok (b, m')) :
    m' = m ∧ m ∈ shipped ∧
    ((m = PLAIN ∧ a = .plain ∧ b = .plain) ∨ (m = LOGIN ∧ a = .login ∧ b = .login) ∨
     (m = EXTERNAL ∧ a = .external ∧ b = .external) ∨
     (m = ANONYMOUS ∧ a = .anonymous ∧ b = .anonymous) ∨
     (m = XOAUTH2 ∧ a = .xoauth2 ∧ b = .xoauth2) ∨
     (m = OAUTHBEARER ∧ a = .oauthbearer ∧ b = .oauthbearer) ∨
     (m = GSSAPI ∧ a = .gssapi ∧ b = .gssapi) ∨
     (∃ h x y, m = SCRAM h ∧ a = .scramClient h x ∧ b = .scramServer h y) ∨
     (∃ h, m = SCRAMPLUS h ∧ a = .scramClientPlus h ∧ b = .scramServerPlus h)) := by
  obtain ⟨hm, _, _, hau⟩ := clientStart_ok (shipped_known hc) ha
  have hm := hc m hm
  obtain ⟨before, after, f, he, hn, hf, hfb, _⟩ := (C05_start _ _ _ _).1 hb
  have hm' : m' ∈ shipped := hs m' (by rw [he]; simp)
  have hmm := shipped_name hm' hm hn
  subst hmm
  refine ⟨rfl, hm, ?_⟩
  simp only [shipped, List.mem_cons, List.not_mem_nil, or_false] at hm
  rcases hm with rfl | rfl | rfl | rfl | rfl | rfl | rfl | rfl | rfl | rfl | rfl | rfl | rfl
  all_goals cases hf; cases hau; cases hfb
  · exact .inl ⟨rfl, rfl, rfl⟩
  · exact .inr (.inl ⟨rfl, rfl, rfl⟩)
  · exact .inr (.inr (.inl ⟨rfl, rfl, rfl⟩))
  · exact .inr (.inr (.inr (.inl ⟨rfl, rfl, rfl⟩)))
  · exact .inr (.inr (.inr (.inr (.inl ⟨rfl, rfl, rfl⟩))))
  · exact .inr (.inr (.inr (.inr (.inr (.inl ⟨rfl, rfl, rfl⟩)))))
  · exact .inr (.inr (.inr (.inr (.inr (.inr (.inl ⟨rfl, rfl, rfl⟩))))))
  all_goals first
    | exact .inr (.inr (.inr (.inr (.inr (.inr (.inr (.inl ⟨_, _, _, rfl, rfl, rfl⟩)))))))
    | exact .inr (.inr (.inr (.inr (.inr (.inr (.inr (.inr ⟨_, rfl, rfl, rfl⟩)))))))

theorem five_or_more {α : Type} {l : List α} (h : 5 ≤ l.length) : ∃ n, l.length = n + 5 :=
  ⟨l.length - 5, by omega⟩

theorem endings_plain (n : Nat) {e : Ending}
    (h : e ∈ conversationEnds .client (n + 5) oneMessage oneAnswer) :
    e = .both ∨ ∃ who, e = .failed who := by
  simp [conversationEnds, ends, oneMessage, oneAnswer] at h
  rcases h with rfl | rfl | rfl <;> simp

theorem endings_login (n : Nat) {e : Ending}
    (h : e ∈ conversationEnds .server (n + 5) loginClient loginServer) :
    e = .both ∨ ∃ who, e = .failed who := by
  simp [conversationEnds, ends, loginClient, loginServer] at h
  rcases h with rfl | rfl | rfl | rfl | rfl | rfl <;> simp

theorem endings_scram (n : Nat) {e : Ending}
    (h : e ∈ conversationEnds .client (n + 5) scramClient scramServer) :
    e = .both ∨ ∃ who, e = .failed who := by
  simp [conversationEnds, ends, scramClient, scramServer] at h
  rcases h with rfl | rfl | rfl | rfl | rfl | rfl <;> simp

theorem endings_oauth (n : Nat) {e : Ending}
    (h : e ∈ conversationEnds .client (n + 5) oauthClient (oauthServer true)) :
    e = .both ∨ e = .waiting .client ∨ ∃ who, e = .failed who := by
  simp [conversationEnds, ends, oauthClient, oauthServer] at h
  rcases h with rfl | rfl | rfl | rfl | rfl | rfl <;> simp [other]

/-- C72: client and server have agreed on one of the crate's mechanisms other than GSSAPI and the OAuth
ones, and are driven by the documented loop. Whatever the applications answer, whatever the writers
do, after at most five steps a step has failed, or both sides have finished and every message has
arrived: no side is left waiting for a message, and no message is left over. -/
theorem C72 (deps : Deps) (cc sc : Config) (hc : ∀ m ∈ cc.mechs, m ∈ shipped)
    (hs : ∀ m ∈ sc.mechs, m ∈ shipped) (offered : List Bytes) (a b : Auth) (m m' : Mechanism)
    (ha : cc.clientStart offered = .ok (a, m)) (hb : sc.serverStart m.name = .ok (b, m'))
    (hm : m ≠ GSSAPI ∧ m ≠ XOAUTH2 ∧ m ≠ OAUTHBEARER) (client server : Started)
    (hca : a.startClient deps = some client) (hsb : b.startServer deps = some server)
    (cenv senv : Env) (crng srng : Nat → Nat) (ws : List (List WResp)) (hw : 5 ≤ ws.length) :
    conversation m.first client server cenv senv crng srng ws = .both ∨
    ∃ who, conversation m.first client server cenv senv crng srng ws = .failed who := by
  have h := conversation_ends (first := m.first) (client_turns hca cenv) (server_turns hsb senv)
    crng srng ws
  obtain ⟨n, hn⟩ := five_or_more hw
  rw [hn] at h
  obtain ⟨_, _, hp⟩ := started_both hc hs ha hb
  rcases hp with ⟨rfl, rfl, rfl⟩ | ⟨rfl, rfl, rfl⟩ | ⟨rfl, rfl, rfl⟩ | ⟨rfl, rfl, rfl⟩ | ⟨rfl, _⟩ |
    ⟨rfl, _⟩ | ⟨rfl, _⟩ | ⟨h, x, y, rfl, rfl, rfl⟩ | ⟨h, rfl, rfl, rfl⟩
  · exact endings_plain n h
  · exact endings_login n h
  · exact endings_plain n h
  · exact endings_plain n h
  · exact absurd rfl hm.2.1
  · exact absurd rfl hm.2.2
  · exact absurd rfl hm.1
  · exact endings_scram n (by assumption)
  · exact endings_scram n (by assumption)

/-- C72, XOAUTH2 and OAUTHBEARER: the same, but the client may be left waiting, as the server has
nothing to say when the token is good. Its application has to give a reason when it is not. -/
theorem C72_oauth (deps : Deps) (hj : ∀ e, (deps.json.ser e).flatten ≠ []) (cc sc : Config)
    (hc : ∀ m ∈ cc.mechs, m ∈ shipped) (hs : ∀ m ∈ sc.mechs, m ∈ shipped) (offered : List Bytes)
    (a b : Auth) (m m' : Mechanism) (ha : cc.clientStart offered = .ok (a, m))
    (hb : sc.serverStart m.name = .ok (b, m')) (hm : m = XOAUTH2 ∨ m = OAUTHBEARER)
    (client server : Started) (hca : a.startClient deps = some client)
    (hsb : b.startServer deps = some server) (cenv senv : Env) (he : TellsWhy senv)
    (crng srng : Nat → Nat) (ws : List (List WResp)) (hw : 5 ≤ ws.length) :
    conversation m.first client server cenv senv crng srng ws = .both ∨
    conversation m.first client server cenv senv crng srng ws = .waiting .client ∨
    ∃ who, conversation m.first client server cenv senv crng srng ws = .failed who := by
  have h := conversation_ends (first := m.first) (client_turns hca cenv)
    (server_turns_loud hj hsb he) crng srng ws
  obtain ⟨n, hn⟩ := five_or_more hw
  rw [hn] at h
  obtain ⟨_, _, hp⟩ := started_both hc hs ha hb
  rcases hm with rfl | rfl
  · rcases hp with ⟨h', _⟩ | ⟨h', _⟩ | ⟨h', _⟩ | ⟨h', _⟩ | ⟨_, rfl, rfl⟩ | ⟨h', _⟩ | ⟨h', _⟩ |
      ⟨x, _, _, h', _⟩ | ⟨x, h', _⟩
    all_goals first
      | exact endings_oauth n h
      | exact absurd (congrArg Mechanism.name h') (by first | decide | (cases x <;> decide))
  · rcases hp with ⟨h', _⟩ | ⟨h', _⟩ | ⟨h', _⟩ | ⟨h', _⟩ | ⟨h', _⟩ | ⟨_, rfl, rfl⟩ | ⟨h', _⟩ |
      ⟨x, _, _, h', _⟩ | ⟨x, h', _⟩
    all_goals first
      | exact endings_oauth n h
      | exact absurd (congrArg Mechanism.name h') (by first | decide | (cases x <;> decide))

/-- C72: that the application gives a reason is needed. A server whose application refuses a token with
the empty string waits for an answer to its error, but the client has taken the empty message for
success and has finished. -/
theorem C72_reason_needed :
    conversation XOAUTH2.first ⟨XOAuth2.client, .initial⟩ ⟨XOAuth2.server, .initial⟩
      (exampleEnv [⟨.authId, c!"u"⟩, ⟨.oauthBearerToken, c!"t"⟩])
      (exampleEnv [⟨.xoauth2Validate, .error []⟩]) id id [[], [], [], [], []] = .waiting .server := by
  decide +kernel

/-- C72: an OAuth client whose token is good is left waiting. -/
theorem C72_good_token :
    conversation XOAUTH2.first ⟨XOAuth2.client, .initial⟩ ⟨XOAuth2.server, .initial⟩
      (exampleEnv [⟨.authId, c!"u"⟩, ⟨.oauthBearerToken, c!"t"⟩])
      (exampleEnv [⟨.xoauth2Validate, .ok ()⟩]) id id [[], [], [], [], []] = .waiting .client := by
  decide +kernel

/-- A client with a token that takes note of errors. -/
def notingEnv : Env where
  callback _ _ _ := .getAction .xoauth2Error fun _ =>
    answerAll [⟨.authId, c!"u"⟩, ⟨.oauthBearerToken, c!"t"⟩]
  validate _ _ _ := .ret (.ok ())
  chanbind _ := none
  vtag := 0
  sd := ⟨⟨b!"XOAUTH2", 300, .client⟩, .client⟩

/-- Both sides finish: PLAIN, LOGIN, and XOAUTH2 with a bad token. -/
example :
    conversation PLAIN.first ⟨Plain.client, ()⟩ ⟨Plain.server some, ()⟩
      (exampleEnv [⟨.authId, c!"u"⟩, ⟨.password, b!"secret"⟩]) (exampleEnv []) id id
      [[], [], [], [], []] = .both ∧
    conversation LOGIN.first ⟨Login.client, .authid⟩ ⟨Login.server, .new⟩
      (exampleEnv [⟨.authId, c!"u"⟩, ⟨.password, b!"secret"⟩]) (exampleEnv []) id id
      [[], [], [], [], []] = .both ∧
    conversation XOAUTH2.first ⟨XOAuth2.client, .initial⟩ ⟨XOAuth2.server, .initial⟩
      notingEnv (exampleEnv [⟨.xoauth2Validate, .error (c!"no")⟩]) id id [[], [], [], [], []] = .both := by
  refine ⟨?_, ?_, ?_⟩ <;> decide +kernel

example : TellsWhy (exampleEnv [⟨.xoauth2Validate, .error (c!"no")⟩]) := by
  intro log ctx
  refine ⟨fun _ e h => ?_, fun r => ?_⟩
  · cases h
    nofun
  · cases r <;> trivial

/-- Negotiations that meet the conditions. -/
example :
    (Config.withCredentials none).clientStart [b!"LOGIN", b!"PLAIN"] = .ok (.plain, PLAIN) ∧
    (⟨[LOGIN, PLAIN], false, defaultPrefer⟩ : Config).serverStart PLAIN.name = .ok (.plain, PLAIN) ∧
    (⟨[XOAUTH2], false, defaultPrefer⟩ : Config).clientStart [b!"XOAUTH2"] = .ok (.xoauth2, XOAUTH2) ∧
    (⟨[XOAUTH2], false, defaultPrefer⟩ : Config).serverStart XOAUTH2.name = .ok (.xoauth2, XOAUTH2) :=
  ⟨rfl, rfl, rfl, rfl⟩

/-- A step fails when the writer does. -/
example :
    conversation PLAIN.first ⟨Plain.client, ()⟩ ⟨Plain.server some, ()⟩
      (exampleEnv [⟨.authId, c!"u"⟩, ⟨.password, b!"secret"⟩]) (exampleEnv []) id id
      [[.fail (.other 5)], [], [], [], []] = .failed .client := by
  decide +kernel

end Rsasl

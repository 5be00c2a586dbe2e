/-
C68: the state a step returns tells whether there is a message to send.
-/
import Verif.Spec.Message
import Verif.Spec.Reads
import Verif.Spec.Examples
import Verif.Spec.Talk
import Verif.Proofs.Message

namespace Rsasl

open Spec

variable {S α β : Type} {C : Prop} {env : Env}

/-- Decompose code that leaves the writer alone. -/
macro "still" : tactic => `(tactic|
  repeat (first
    | with_reducible assumption
    | intro _
    | with_reducible exact Still.pure _ | with_reducible exact Still.panic
    | with_reducible exact Still.fail _
    | with_reducible exact Still.get | with_reducible exact Still.set _
    | with_reducible exact Still.modify _ | with_reducible exact Still.draw _
    | with_reducible exact Still.okOr _ _ | with_reducible exact Still.lift _
    | with_reducible exact Still.liftOutcome _ | with_reducible exact Still.liftGss _
    | with_reducible exact Still.validate | with_reducible exact Still.action
    | with_reducible refine Still.bind ?_ ?_
    | with_reducible refine Still.needWith ?_
    | with_reducible refine Still.ask ?_
    | with_reducible refine Still.needCbData ?_
    | with_reducible refine Still.maybeNeedCbData ?_
    | with_reducible refine Still.attempt ?_
    | with_reducible apply Still.withLocal | split | dsimp only))

/-! ## Mechanisms -/

theorem Plain.client_says (input : Option Bytes) :
    Says C (clientMessage C .plain) (Plain.clientStep env input) := by
  have h1 : ∀ z, Says C (fun _ _ => True) (Plain.clientAuthzid z) := by
    intro z; unfold Plain.clientAuthzid
    split
    · exact .fail _
    · exact (Says.writeAll _).any
  have h2 : ∀ z, Says C (fun _ _ => True) (Plain.clientAuthid z) := by
    intro z; unfold Plain.clientAuthid
    split
    · exact .fail _
    · split
      · exact .fail _
      · exact (Says.writeAll _).any
  have h3 : ∀ z, Says C (fun _ _ => True) (Plain.clientPassword z) := by
    intro z; unfold Plain.clientPassword
    split
    · exact .fail _
    · split
      · exact .fail _
      · exact (Says.writeAll _).any
  unfold Plain.clientStep
  refine Says.bind (Says.ask h1) fun _ d1 _ => Says.bind (.writeAll _) fun _ d2 hd => ?_
  subst hd
  refine Says.bind (Says.needWith h2) fun _ d3 _ => Says.bind (.writeAll _) fun _ d4 _ =>
    Says.bind (Says.needWith h3) fun _ d5 _ => Says.pure ⟨rfl, by simp⟩

theorem Login.client_says (input : Option Bytes) :
    Says C (clientMessage C .login) (Login.clientStep env input) := by
  unfold Login.clientStep
  refine Says.next .get fun st => ?_
  split
  · exact Says.bind (Says.needWith fun _ => (Says.writeAll _).any) fun _ _ _ =>
      Says.next (.set _) fun _ => .pure (.inl rfl)
  · exact Says.bind (Says.needWith fun _ => (Says.writeAll _).any) fun _ _ _ =>
      Says.next (.set _) fun _ => .pure (.inr rfl)
  · exact .fail _

theorem External.client_says (input : Option Bytes) :
    Says C (clientMessage C .external) (External.clientStep env input) := by
  unfold External.clientStep
  exact Says.bind (Says.ask fun _ => (Says.writeAll _).any) fun _ _ _ => .pure rfl

theorem Anonymous.client_says (input : Option Bytes) :
    Says C (clientMessage C .anonymous) (Anonymous.clientStep env input) := by
  unfold Anonymous.clientStep
  exact Says.bind (Says.ask fun _ => (Says.writeAll _).any) fun _ _ _ => .pure rfl

theorem XOAuth2.client_says (input : Option Bytes) :
    Says C (clientMessage C .xoauth2) (XOAuth2.clientStep env input) := by
  unfold XOAuth2.clientStep
  refine Says.next .get fun st => ?_
  split
  · refine Says.bind (Says.needWith fun _ => (Says.writeVectored _).any) fun _ d1 _ =>
      Says.bind (Says.needWith (R := fun _ d => C → d ≠ []) fun t =>
        (Says.writeVectored _).mono fun _ d h hC => ?_) fun _ d2 h => ?_
    · rw [h hC]; simp [XOAuth2.endMark]
    · refine Says.next (.set _) fun _ => .pure (.inl ⟨rfl, fun hC => ?_⟩)
      have := h hC
      simp [this]
  · refine Says.next (.set _) fun _ => ?_
    dsimp only
    split
    · exact .pure (.inr (.inl ⟨rfl, rfl⟩))
    · exact Says.next (.okOr _ _) fun _ => Says.next .action fun _ => .pure (.inr (.inr ⟨rfl, rfl⟩))
  · exact .fail _

theorem OAuthBearer.writeKVs_says (kvs : List (Str × Str)) :
    Says C (fun _ _ => True) (OAuthBearer.writeKVs kvs : M S Unit) := by
  induction kvs with
  | nil => exact .pure trivial
  | cons kv kvs ih => exact Says.bind (.writeVectored _) fun _ _ _ => ih

theorem OAuthBearer.writeJson_says (bs : List Bytes) :
    Says C (fun _ _ => True) (OAuthBearer.writeJson bs : M S Unit) := by
  induction bs with
  | nil => exact .pure trivial
  | cons b bs ih =>
    unfold OAuthBearer.writeJson
    refine Says.bind (Says.attempt (.writeAll _)) fun r _ _ => ?_
    split
    · exact ih
    · exact .fail _

theorem OAuthBearer.client_says (json : OAuthBearer.Json) (input : Option Bytes) :
    Says C (clientMessage C .oauthbearer) (OAuthBearer.clientStep json env input) := by
  unfold OAuthBearer.clientStep
  refine Says.next .get fun st => ?_
  split
  · refine Says.bind (.writeAll _) fun _ d1 hd => ?_
    subst hd
    refine Says.bind (Says.ask (R := fun _ _ => True) fun _ =>
        Says.bind (.writeAll _) fun _ _ _ => (Says.writeAll _).any) fun _ _ _ =>
      Says.bind (.writeAll _) fun _ _ _ => Says.bind (Says.ask OAuthBearer.writeKVs_says) fun _ _ _ =>
      Says.bind (Says.needWith fun _ => (Says.writeVectored _).any) fun _ _ _ =>
      Says.next (.set _) fun _ => .pure (.inl ⟨rfl, fun _ => by simp⟩)
  · refine Says.next (.set _) fun _ => ?_
    dsimp only
    split
    · exact .pure (.inr (.inl ⟨rfl, rfl⟩))
    · exact Says.next (.okOr _ _) fun _ => Says.next .action fun _ => .pure (.inr (.inr ⟨rfl, rfl⟩))
  · exact .fail _

theorem Plain.server_says (prep : Str → Option Str) (input : Option Bytes) :
    Says C (serverMessage C .plain) (Plain.serverStep prep env input) := by
  unfold Plain.serverStep
  repeat (first
    | exact .pure ⟨rfl, rfl⟩ | exact .fail _
    | refine Says.next (.okOr _ _) fun _ => ?_ | refine Says.next .validate fun _ => ?_ | split)

theorem Login.server_says (input : Option Bytes) :
    Says C (serverMessage C .login) (Login.serverStep env input) := by
  have h : ∀ b : Bytes, b ≠ [] → ∀ (s : Login.SState), Says C (serverMessage C .login) (do
      M.writeAll b
      M.set s
      pure State.running) := by
    intro b hb s
    refine Says.bind (.writeAll _) fun _ d hd => Says.next (.set _) fun _ => .pure (.inl ⟨rfl, ?_⟩)
    subst hd; simpa using hb
  unfold Login.serverStep
  refine Says.next .get fun st => ?_
  split
  · exact h _ (by simp [Login.userPrompt]) _
  · split
    · exact Says.next (.okOr _ _) fun _ => h _ (by simp [Login.passwordPrompt]) _
    · exact .fail _
  · split
    · exact Says.next .validate fun _ => Says.next (.set _) fun _ => .pure (.inr ⟨rfl, rfl⟩)
    · exact .fail _
  · exact .fail _

theorem External.server_says (input : Option Bytes) :
    Says C (serverMessage C .external) (External.serverStep env input) := by
  unfold External.serverStep
  exact Says.next (.okOr _ _) fun _ => Says.next .validate fun _ => .pure ⟨rfl, rfl⟩

theorem Anonymous.server_says (input : Option Bytes) :
    Says C (serverMessage C .anonymous) (Anonymous.serverStep env input) := by
  unfold Anonymous.serverStep
  exact Says.next (.okOr _ _) fun _ => Says.next .validate fun _ => .pure ⟨rfl, rfl⟩

theorem XOAuth2.server_says (input : Option Bytes) :
    Says C (serverMessage C .xoauth2) (XOAuth2.serverStep env input) := by
  unfold XOAuth2.serverStep
  refine Says.next .get fun st => ?_
  split
  · refine Says.next (.okOr _ _) fun _ => Says.next (.lift _) fun _ =>
      Says.bind (Q := serverMessage C .xoauth2) (Says.needWith fun v => ?_) fun r d h =>
        Says.next .validate fun _ => .pure (by simpa using h)
    unfold XOAuth2.onResult
    split
    · exact Says.bind (.writeAll _) fun _ _ _ => Says.next (.set _) fun _ => .pure (.inl rfl)
    · exact .pure (.inr ⟨rfl, rfl⟩)
  · exact .pure (.inr ⟨rfl, rfl⟩)

theorem OAuthBearer.server_says (json : OAuthBearer.Json) (input : Option Bytes) :
    Says C (serverMessage C .oauthbearer) (OAuthBearer.serverStep json env input) := by
  unfold OAuthBearer.serverStep
  refine Says.next .get fun st => ?_
  split
  · refine Says.next (.okOr _ _) fun _ => ?_
    split
    · exact .fail _
    · refine Says.bind (Q := serverMessage C .oauthbearer) (Says.needWith fun v => ?_) fun r d h =>
        Says.next .validate fun _ => .pure (by simpa using h)
      unfold OAuthBearer.onResult
      split
      · exact Says.bind (OAuthBearer.writeJson_says _) fun _ _ _ =>
          Says.next (.set _) fun _ => .pure (.inl rfl)
      · exact .pure (.inr ⟨rfl, rfl⟩)
  · exact .pure (.inr ⟨rfl, rfl⟩)

namespace Gssapi

variable (lib : Lib)

theorem client_says (input : Option Bytes) :
    Says C (clientMessage C .gssapi) (clientStep lib env input) := by
  have h1 : ∀ ctx v, Still (clientAcceptable lib ctx v) := by
    unfold clientAcceptable; still
  have h : ∀ ctx input, Says C (clientMessage C .gssapi) (clientPending lib env ctx input) := by
    intro ctx input'
    unfold clientPending
    dsimp only
    refine Says.next (.liftGss _) fun _ => ?_
    have h2 : ∀ d, Says C (fun x d' => clientMessage C .gssapi x (d ++ d'))
        (if lib.isComplete (lib.clientStep ctx input').2 = true then (do
        let acceptable ← maybeNeedWith env .gssSecurityLayer .empty
          (clientAcceptable lib (lib.clientStep ctx input').2)
        M.set (.last (lib.clientStep ctx input').2 (match acceptable with
          | some a => a
          | none => .all))
        pure State.running)
      else do
        M.set (.pending (lib.clientStep ctx input').2)
        pure State.running) := by
      intro d
      split
      · exact Says.next (.ask (h1 _)) fun _ => Says.next (.set _) fun _ => .pure (.inl rfl)
      · exact Says.next (.set _) fun _ => .pure (.inl rfl)
    split
    · split
      · exact h2 []
      · exact Says.bind (.writeAll _) fun _ d _ => h2 d
    · exact h2 []
  unfold clientStep
  refine Says.next .get fun st => Says.next (.set _) fun _ => ?_
  split
  · exact Says.next (.needWith fun _ => .pure _) fun _ => Says.next (.needWith fun _ => .pure _)
      fun _ => Says.next (.liftGss _) fun _ => h _ _
  · exact h _ _
  · refine Says.next (.okOr _ _) fun _ => ?_
    dsimp only
    refine Says.next (.liftGss _) fun _ => Says.next (.lift _) fun _ => ?_
    split
    · exact .fail _
    · exact Says.next (.liftGss _) fun _ => Says.bind (.writeAll _) fun _ _ _ =>
        Says.next (.set _) fun _ => .pure (.inr rfl)
  · exact .fail _
  · exact .fail _

theorem server_says (input : Option Bytes) :
    Says C (serverMessage C .gssapi) (serverStep lib env input) := by
  have h0 : ∀ ctx l, Says C (serverMessage C .gssapi) (serverInstalled lib ctx l) := by
    intro ctx l
    unfold serverInstalled
    dsimp only
    exact Says.next (.liftGss _) fun _ => Says.bind (.writeAll _) fun _ _ _ =>
        Says.next (.set _) fun _ => .pure (.inl rfl)
  have h : ∀ ctx, Says C (serverMessage C .gssapi) (serverPending lib env ctx input) := by
    intro ctx
    unfold serverPending
    refine Says.next (.okOr _ _) fun _ => ?_
    dsimp only
    refine Says.next (.liftGss _) fun _ => ?_
    split
    · refine Says.next (.ask fun _ => .pure _) fun _ => Says.next (.liftGss _) fun _ => ?_
      split <;> split
      all_goals first
        | exact .fail _
        | refine Says.next (.set _) fun _ => ?_
      all_goals
        split
        · exact Says.bind (.writeAll _) fun _ _ _ => .pure (.inl rfl)
        · exact Says.next (.set _) fun _ => h0 _ _
    · split
      · exact Says.bind (.writeAll _) fun _ _ _ => .pure (.inl rfl)
      · exact .fail _
  unfold serverStep
  refine Says.next .get fun st => Says.next (.set _) fun _ => ?_
  split
  · exact Says.next (.liftGss _) fun _ => h _
  · exact h _
  · exact h0 _ _
  · refine Says.next (.okOr _ _) fun _ => ?_
    dsimp only
    refine Says.next (.liftGss _) fun _ => Says.next (.lift _) fun _ => ?_
    split
    · exact Says.next (.set _) fun _ => .pure (.inr ⟨rfl, rfl⟩)
    · exact .fail _
  · exact .fail _
  · exact .fail _

end Gssapi

namespace Scram

theorem generateNonce_still (n : Nat) : Still (generateNonce n : M S Bytes) := by
  unfold generateNonce; still

theorem escapeM_still (x : Str) : Still (escapeM x : M S Str) := by
  unfold escapeM; still

theorem client_says (d : Digest) (n : Nat) (input : Option Bytes) :
    Says C (fun s o => asksOn C s o ∨ endsMute s o) (clientStep d n env input) := by
  have hp : ∀ b, Still (pushHeader b) := fun b => Still.modify _
  have hs : ∀ b, Still (setCbdata b) := fun b => Still.modify _
  unfold clientStep
  refine Says.next .get fun st => Says.next (.set _) fun _ => ?_
  split
  · next plus =>
    refine Says.bind (Q := fun _ o => C → o ≠ []) (Says.withLocal ?_) fun _ o ho =>
      Says.next (.set _) fun _ => .pure (.inl ⟨rfl, by simpa using ho⟩)
    have hc : Still (clientCb env plus) := by
      cases plus with
      | serverNoSupport => exact hp _
      | clientNoSupport => exact hp _
      | supported =>
        unfold clientCb
        refine Still.bind (hp _) fun _ => Still.bind (Still.ask fun _ =>
          Still.bind (Still.modify _) fun _ => .pure _) fun o => ?_
        split
        · exact Still.needCbData hs
        · refine Still.bind (Still.maybeNeedCbData fun _ => Still.bind (hp _) fun _ => hs _)
            fun o => ?_
          split
          · exact .pure _
          · exact Still.needCbData fun _ => Still.bind (hp _) fun _ => hs _
    unfold sendClientFirst
    refine Says.next hc fun _ => Says.next (hp _) fun _ => Says.next (.ask fun z => ?_) fun _ =>
      Says.next (hp _) fun _ => Says.next (.needWith fun _ => escapeM_still _) fun _ =>
      Says.next (generateNonce_still _) fun _ => Says.next .get fun _ =>
      Says.bind (.writeVectored _) fun _ o ho => ?_
    · unfold clientAuthzid
      exact Still.bind (Still.modify _) fun _ => Still.bind (escapeM_still _) fun _ => Still.modify _
    · have h : C → o ++ [] ≠ [] := by
        intro hC
        rw [ho hC]
        simp
      split <;> exact .pure h
  · refine Says.next (.okOr _ _) fun i => Says.bind (Q := fun _ o => C → o ≠ []) ?_ fun _ o ho =>
      Says.next (.set _) fun _ => .pure (.inl ⟨rfl, by simpa using ho⟩)
    have hk : ∀ p it salt, Still (clientKeys d env p it salt) := by
      intro p it salt
      unfold clientKeys useCached useSalted usePassword
      still
    unfold handleServerFirst
    refine Says.next (.liftOutcome _) fun _ => Says.next (hk _ _ _) fun _ =>
      Says.bind (.writeVectored _) fun _ o ho => .pure ?_
    intro hC
    rw [ho hC]
    simp [ClientFinal.ioslices]
  · refine Says.next (.okOr _ _) fun i => Says.next ?_ fun _ => .pure (.inr ⟨rfl, rfl⟩)
    unfold handleServerFinal
    still
  · exact .panic

theorem server_says (d : Digest) (n : Nat) (input : Option Bytes) :
    Says C (fun s o => asksOn C s o ∨ s = .finished .yes ∧ (C → o ≠ []))
      (serverStep d n env input) := by
  have hw : ∀ {S : Type} (m : ServerFirst), Says C (fun _ o => C → o ≠ [])
      (M.writeVectored m.ioslices : M S Unit) := fun m =>
    (Says.writeVectored _).mono fun _ o ho hC => by rw [ho hC]; simp [ServerFirst.ioslices]
  have hv : ∀ {S : Type} (m : ServerFinal), Says C (fun _ o => C → o ≠ [])
      (M.writeVectored m.ioslices : M S Unit) := fun m =>
    (Says.writeVectored _).mono fun _ o ho hC => by
      rw [ho hC]; cases m <;> simp [ServerFinal.ioslices]
  unfold serverStep
  refine Says.next .get fun st => Says.next (.set _) fun _ => ?_
  split
  · refine Says.next (.okOr _ _) fun i => Says.next (.liftOutcome _) fun msg =>
      Says.bind (Q := fun _ o => C → o ≠ []) (Says.withLocal ?_) fun _ o ho =>
      Says.next (.set _) fun _ => .pure (.inl ⟨rfl, by simpa using ho⟩)
    unfold handleClientFirst
    refine Says.next ?_ fun _ => Says.next (.ask fun p => ?_) fun params =>
      Says.next (generateNonce_still _) fun _ => ?_
    · unfold serverCb
      still
    · unfold useStored
      still
    · split
      · exact Says.bind (hw _) fun _ o ho => Says.next .get fun _ => .pure (by simpa using ho)
      · exact Says.next (.draw _) fun _ => Says.bind (hw _) fun _ o ho => .pure (by simpa using ho)
  · refine Says.next (.okOr _ _) fun i => Says.bind (Q := fun _ o => C → o ≠ []) ?_ fun _ o ho =>
      Says.next (.set _) fun _ => .pure (.inr ⟨rfl, by simpa using ho⟩)
    unfold handleClientFinal
    refine Says.next (.liftOutcome _) fun m => Says.next (.lift _) fun r => ?_
    split
    · exact Says.bind (hv _) fun _ o ho => Says.mono (Still.mute .validate)
        fun _ o' ho' => by subst ho'; simpa using ho
    · exact hv _
  · exact .fail _
  · exact .panic

end Scram

/-! ## Sessions -/

theorem Says.step {m : Mech} {c : Call} {R : State → Bytes → Prop} (h : Says C R (m.step env c.input))
    (hc : C → Cooperative c.sched) (ses : Session m.S) (s : State)
    (hs : (ses.step m env c).1.res = .ok s) : R s (ses.step m env c).1.out := by
  obtain ⟨d, h1, _, h3⟩ := h.says ses.st
    { wr := ⟨[], c.sched⟩, rng := ses.rng, slot := ses.slot, log := ses.log } hc
  have : (ses.step m env c).1.out = d := h1
  rw [this]
  exact h3 s hs

/-- C68, clients: what state a step can end with and what it then has written. -/
theorem C68_client (deps : Deps) (a : Auth) (st : Started) (h : a.startClient deps = some st)
    (env : Env) (C : Prop) (c : Call) (hc : C → Cooperative c.sched) (ses : Session st.mech.S)
    (s : State) (hs : (ses.step st.mech env c).1.res = .ok s) :
    clientMessage C a s (ses.step st.mech env c).1.out := by
  cases a <;> cases h
  · exact Says.step (Plain.client_says c.input) hc ses s hs
  · exact Says.step (Login.client_says c.input) hc ses s hs
  · exact Says.step (External.client_says c.input) hc ses s hs
  · exact Says.step (Anonymous.client_says c.input) hc ses s hs
  · exact Says.step (XOAuth2.client_says c.input) hc ses s hs
  · exact Says.step (OAuthBearer.client_says _ c.input) hc ses s hs
  · exact Says.step (Gssapi.client_says _ c.input) hc ses s hs
  · exact Says.step (Scram.client_says _ _ c.input) hc ses s hs
  · exact Says.step (Scram.client_says _ _ c.input) hc ses s hs

/-- C68, servers. -/
theorem C68_server (deps : Deps) (a : Auth) (st : Started) (h : a.startServer deps = some st)
    (env : Env) (C : Prop) (c : Call) (hc : C → Cooperative c.sched) (ses : Session st.mech.S)
    (s : State) (hs : (ses.step st.mech env c).1.res = .ok s) :
    serverMessage C a s (ses.step st.mech env c).1.out := by
  cases a <;> cases h
  · exact Says.step (Plain.server_says _ c.input) hc ses s hs
  · exact Says.step (Login.server_says c.input) hc ses s hs
  · exact Says.step (External.server_says c.input) hc ses s hs
  · exact Says.step (Anonymous.server_says c.input) hc ses s hs
  · exact Says.step (XOAuth2.server_says c.input) hc ses s hs
  · exact Says.step (OAuthBearer.server_says _ c.input) hc ses s hs
  · exact Says.step (Gssapi.server_says _ c.input) hc ses s hs
  · exact Says.step (Scram.server_says _ _ c.input) hc ses s hs
  · exact Says.step (Scram.server_says _ _ c.input) hc ses s hs

/-- C68: `has_sent_message` is true of the states after which there is something to send. -/
theorem C68_has_sent (s : State) :
    (s.hasSentMessage = true ↔ s ∈ tellsToSend) ∧ (s.isRunning = true ↔ s = .running) ∧
    s.isFinished = !s.isRunning := by
  rcases s with _ | (_ | _) <;> decide

/-- C68: no message is lost. If the state says that there is nothing to send then nothing was
written, whatever the mechanism, the side, the calls before, the callback and the writer. -/
theorem C68_no_loss (deps : Deps) (a : Auth) (st : Started)
    (h : a.startClient deps = some st ∨ a.startServer deps = some st) (env : Env) (c : Call)
    (ses : Session st.mech.S) (s : State) (hs : (ses.step st.mech env c).1.res = .ok s)
    (hn : s.hasSentMessage = false) : (ses.step st.mech env c).1.out = [] := by
  have hs' : s = .finished .no := by
    rcases s with _ | (_ | _)
    · cases hn
    · cases hn
    · rfl
  subst hs'
  rcases h with h | h
  · have := C68_client deps a st h env False c nofun ses _ hs
    cases a <;> simp [clientMessage, asksOn, endsMute] at this <;> exact this
  · have := C68_server deps a st h env False c nofun ses _ hs
    cases a <;> simp [serverMessage, asksOn, endsMute] at this <;> exact this

/-- C68: with `step64` as well. -/
theorem C68_no_loss64 (deps : Deps) (a : Auth) (st : Started)
    (h : a.startClient deps = some st ∨ a.startServer deps = some st) (env : Env) (c : Call)
    (ses : Session st.mech.S) (s : State) (hs : (ses.step64 st.mech env c).1.res = .ok s)
    (hn : s.hasSentMessage = false) : (ses.step64 st.mech env c).1.out = [] := by
  have he : Base64.encode [] = [] := by decide
  unfold Session.step64 at hs ⊢
  split at hs
  · rename_i hi
    split at hs
    · cases hs
    · next hd =>
      simp only [hi, hd]
      show Base64.encode _ = _
      rw [C68_no_loss deps a st h env _ ses s hs hn, he]
  · next hi =>
    simp only [hi]
    show Base64.encode _ = _
    rw [C68_no_loss deps a st h env _ ses s hs hn, he]

/-- A step that ends without a message. -/
example : ∃ ses', (Session.step (Plain.server some) (exampleEnv []) { st := (), rng := fun _ => 0 }
    ⟨some (b!"\x00a\x00b"), []⟩) = (⟨.ok (.finished .no), []⟩, ses') := ⟨_, rfl⟩

/-- An environment whose callback takes the error it is told about. -/
def tellEnv : Env :=
  { exampleEnv [] with
    callback := fun _ _ _ => CbProg.getAction Property.xoauth2Error fun _ => CbProg.ret (.ok ()) }

/-- C68: the empty message exists. An XOAUTH2 client that was refused has it to send; a GSSAPI client
can be waiting for an answer without having written anything. -/
theorem C68_empty :
    (∃ env, ∃ ses : Session XOAuth2.client.S, ∃ c,
      ((ses.step XOAuth2.client env c).1.res, (ses.step XOAuth2.client env c).1.out) =
        (.ok (.finished .yes), [])) ∧
    (∃ env, ∃ c, ((Session.step (Gssapi.client toyGss) env { st := .initial, rng := fun _ => 0 } c).1.res,
      (Session.step (Gssapi.client toyGss) env { st := .initial, rng := fun _ => 0 } c).1.out) =
        (.ok .running, [])) := by
  refine ⟨⟨tellEnv,
    { st := .waitingServerResponse, rng := fun _ => 0 }, ⟨some (b!"no"), []⟩, rfl⟩,
    ⟨exampleEnv [⟨.gssService, c!"imap"⟩, ⟨.hostname, c!"h"⟩], ⟨none, []⟩, rfl⟩⟩

end Rsasl

/-
What a step of GSSAPI does to state and validate calls.
-/
import Verif.Proofs.TameScram

namespace Rsasl.Gssapi

variable {lib : Lib}

/-- After a step: validate was not called; no panic; there is a security layer only if the step
finished; an error outside of `E` is `InputDataRequired` and there was no input. -/
structure GssQ {S : Type} (E : SessionError → Prop) (hasLayer : S → Bool) (needs : Prop)
    (input : Option Bytes) (vs : List Provider) (o : Outcome State) (s' : S)
    (vs' : List Provider) : Prop where
  vals : vs' = vs
  np : o ≠ .panic
  layer : hasLayer s' = true → ∃ k, o = .ok (.finished k)
  err : ∀ e, o = .err e → E e ∨ (e = .inputDataRequired ∧ input = none ∧ needs)

section

variable {S : Type} {E : SessionError → Prop} {hl : S → Bool} {needs : Prop} {input : Option Bytes}
  {vs : List Provider} {s' : S}

theorem GssQ.error {e : SessionError} (he : E e) (hs : hl s' = false) :
    GssQ E hl needs input vs (.err e) s' vs :=
  ⟨rfl, nofun, fun h => (by rw [hs] at h; cases h), fun _ h => by cases h; exact .inl he⟩

theorem GssQ.needed (hi : input = none) (hn : needs) (hs : hl s' = false) :
    GssQ E hl needs input vs (.err .inputDataRequired) s' vs :=
  ⟨rfl, nofun, fun h => (by rw [hs] at h; cases h), fun _ h => by cases h; exact .inr ⟨rfl, hi, hn⟩⟩

theorem GssQ.run (hs : hl s' = false) : GssQ E hl needs input vs (.ok .running) s' vs :=
  ⟨rfl, nofun, fun h => (by rw [hs] at h; cases h), nofun⟩

theorem GssQ.done {k : MessageSent} : GssQ E hl needs input vs (.ok (.finished k)) s' vs :=
  ⟨rfl, nofun, fun _ => ⟨k, rfl⟩, nofun⟩

end

theorem liftGss_post {S α : Type} {r : Except Nat α} {s : S} {vs : List Provider}
    {Q : Outcome α → S → List Provider → Prop} (h1 : ∀ a, r = .ok a → Q (.ok a) s vs)
    (h2 : ∀ n, Q (.err (.mechanismError (.gss n))) s vs) : Post (liftGss r) s vs Q := by
  cases r with
  | ok a => exact Post.pure (h1 a rfl)
  | error n => exact Post.fail (h2 n)

theorem liftGss_fails {S α : Type} {E : SessionError → Prop} (hE : Std E) (r : Except Nat α) :
    Fails E (liftGss r : M S α) := by
  cases r with
  | ok a => exact Fails.pure _
  | error n => exact Fails.fail (hE _ nofun)

theorem finalToken_errs {b : Bytes} {e : SessionError} (h : finalToken b = .error e) :
    e = badFinalToken := by
  unfold finalToken at h
  repeat' first
    | (cases h; done)
    | (cases h; rfl)
    | split at h

theorem clientPending_post {E : SessionError → Prop} (hE : Std E) {env : Env} (henv : env.Errs E)
    {needs : Prop} (ctx : lib.Ctx) (input : Option Bytes) (vs : List Provider) :
    Post (clientPending lib env ctx input) .errored vs
      (GssQ E (clientHasLayer lib) needs input vs) := by
  have herr : ∀ e, E e → GssQ E (clientHasLayer lib) needs input vs (.err e) .errored vs :=
    fun e he => .error he rfl
  have hrest : ∀ ctx' : lib.Ctx, Post (if lib.isComplete ctx' then do
      let acceptable ← maybeNeedWith env .gssSecurityLayer .empty (clientAcceptable lib ctx')
      let acceptable := match acceptable with
        | some a => a
        | none => .all
      M.set (.last ctx' acceptable)
      pure .running
    else do
      M.set (.pending ctx')
      pure .running : M (CState lib) State) .errored vs
      (GssQ E (clientHasLayer lib) needs input vs) := by
    intro ctx'
    have hset : ∀ st : CState lib, clientHasLayer lib st = false →
        Post (do M.set st; pure .running : M (CState lib) State) .errored vs
          (GssQ E (clientHasLayer lib) needs input vs) := fun st h =>
      Post.bind (Post.set (Seq.ok (Post.pure (.run h))))
    split
    · refine Post.bind (Post.maybeNeedWith (hE _ nofun) henv ?_ (hset _ rfl) herr ?_)
      · intro v
        refine Fails.bind (liftGss_fails hE _) (fun _ => ?_)
        try dsimp only
        split
        · exact Fails.pure _
        · split
          · exact Fails.pure _
          · split
            · exact Fails.pure _
            · exact Fails.fail (hE _ nofun)
      · intro v
        have h3 : Closure E (Seq (fun acceptable => (do
            let acceptable := match acceptable with
              | some a => a
              | none => .all
            M.set (.last ctx' acceptable)
            pure .running : M (CState lib) State)) (GssQ E (clientHasLayer lib) needs input vs))
            (.ok v) .errored vs := ⟨hset _ rfl, hset _ rfl, herr⟩
        have h4 : ∀ e, Closure E (Seq (fun acceptable => (do
            let acceptable := match acceptable with
              | some a => a
              | none => .all
            M.set (.last ctx' acceptable)
            pure .running : M (CState lib) State)) (GssQ E (clientHasLayer lib) needs input vs))
            (.err e) .errored vs := fun e => ⟨hset _ rfl, herr⟩
        refine Post.bind (liftGss_post (fun flags _ => Seq.ok ?_)
          (fun n => h4 (.mechanismError (.gss n))))
        split
        · exact Post.pure h3
        · split
          · exact Post.pure h3
          · split
            · exact Post.pure h3
            · exact Post.fail (h4 _)
    · exact hset _ rfl
  unfold clientPending
  try dsimp only
  refine Post.bind (liftGss_post (fun token _ => Seq.ok ?_) (fun n => herr _ (hE _ nofun)))
  cases token with
  | none => exact hrest _
  | some t =>
    show Post (ite _ _ _) _ _ _
    split
    · exact hrest _
    · exact Post.bind (Post.writeAll (Seq.ok (hrest _)) (fun e => herr _ (hE _ nofun)))

/-- States in which the client needs input. -/
def CState.needs : CState lib → Prop
  | .last .. => True
  | _ => False

/-- States in which the server needs input. -/
def SState.needs : SState lib → Prop
  | .initial => True
  | .pending _ => True
  | .final .. => True
  | _ => False

theorem clientStep_post {E : SessionError → Prop} (hE : Std E) {env : Env} (henv : env.Errs E)
    (input : Option Bytes) (s : CState lib) (vs : List Provider) :
    Post (clientStep lib env input) s vs (GssQ E (clientHasLayer lib) s.needs input vs) := by
  have herr : ∀ e, E e → GssQ E (clientHasLayer lib) s.needs input vs (.err e) .errored vs :=
    fun e he => .error he rfl
  have hN : ∀ p, E (.callbackError (.noCallback p)) := fun p => hE _ nofun
  refine Post.bind (Post.get (Seq.ok (Post.bind (Post.set (Seq.ok ?_)))))
  cases s with
  | initial =>
    refine Post.bind (Post.needWith (hE _ nofun) hN henv (fun _ => Fails.pure _) herr
      (fun v => Post.pure ⟨?_, herr⟩))
    refine Post.bind (Post.needWith (hE _ nofun) hN henv (fun _ => Fails.pure _) herr
      (fun v => Post.pure ⟨?_, herr⟩))
    exact Post.bind (liftGss_post (fun ctx _ => clientPending_post hE henv ctx input vs)
      (fun n => herr _ (hE _ nofun)))
  | pending ctx => exact clientPending_post hE henv ctx input vs
  | last ctx acceptable =>
    refine Post.bind (Post.okOr (fun i _ => Seq.ok ?_) (fun hn => .needed hn trivial rfl))
    refine Post.bind (liftGss_post (fun u _ => Seq.ok ?_) (fun n => herr _ (hE _ nofun)))
    refine Post.bind (Post.lift (fun supported _ => Seq.ok ?_) (fun e he => herr _ (by
      rw [finalToken_errs he]; exact hE _ nofun)))
    try dsimp only
    split
    · exact Post.fail (herr _ (hE _ nofun))
    · refine Post.bind (liftGss_post (fun wrapped _ => Seq.ok ?_) (fun n => herr _ (hE _ nofun)))
      refine Post.bind (Post.writeAll (Seq.ok ?_) (fun e => herr _ (hE _ nofun)))
      exact Post.bind (Post.set (Seq.ok (Post.pure .done)))
  | completed l => exact Post.fail (herr _ (hE _ nofun))
  | errored => exact Post.fail (herr _ (hE _ nofun))

theorem serverPending_post {E : SessionError → Prop} (hE : Std E) {env : Env} (henv : env.Errs E)
    {needs : Prop} (hn : needs) (ctx : lib.Ctx) (input : Option Bytes) (vs : List Provider) :
    Post (serverPending lib env ctx input) .errored vs
      (GssQ E (serverHasLayer lib) needs input vs) := by
  have herr : ∀ e, E e → GssQ E (serverHasLayer lib) needs input vs (.err e) .errored vs :=
    fun e he => .error he rfl
  unfold serverPending
  refine Post.bind (Post.okOr (fun i _ => Seq.ok ?_) (fun hn' => .needed hn' hn rfl))
  try dsimp only
  refine Post.bind (liftGss_post (fun token _ => Seq.ok ?_) (fun n => herr _ (hE _ nofun)))
  try dsimp only
  split
  · generalize (lib.serverStep ctx i).2 = c
    have hrest : ∀ acceptable : Option SecurityLayer, Post (do
        let acceptable := match acceptable with
          | some a => a
          | none => .all
        let flags ← liftGss (lib.flags c)
        let acceptable := serverRestrict acceptable flags
        if acceptable.isEmpty then M.fail badContext
        else do
          M.set (.installed c acceptable)
          match token with
          | some token => do
            M.writeAll token
            pure .running
          | none => do
            M.set .errored
            serverInstalled lib c acceptable : M (SState lib) State) .errored vs
        (GssQ E (serverHasLayer lib) needs input vs) := by
      intro acceptable
      extract_lets acc
      generalize acc = acc
      refine Post.bind (liftGss_post (fun flags _ => Seq.ok ?_) (fun n => herr _ (hE _ nofun)))
      extract_lets acc'
      split
      · exact Post.fail (herr _ (hE _ nofun))
      · refine Post.bind (Post.set (Seq.ok ?_))
        cases token with
        | some t =>
          exact Post.bind (Post.writeAll (Seq.ok (Post.pure (.run rfl)))
            (fun e => .error (hE _ nofun) rfl))
        | none =>
          refine Post.bind (Post.set (Seq.ok ?_))
          unfold serverInstalled
          try dsimp only
          refine Post.bind (liftGss_post (fun w _ => Seq.ok ?_) (fun n => herr _ (hE _ nofun)))
          refine Post.bind (Post.writeAll (Seq.ok ?_) (fun e => herr _ (hE _ nofun)))
          exact Post.bind (Post.set (Seq.ok (Post.pure (.run rfl))))
    exact Post.bind (Post.maybeNeedWith (hE _ nofun) henv (fun _ => Fails.pure _) (hrest none) herr
      (fun v => Post.pure ⟨hrest (some v), hrest none, herr⟩))
  · cases token with
    | some t =>
      exact Post.bind (Post.writeAll (Seq.ok (Post.pure (.run rfl)))
        (fun e => herr _ (hE _ nofun)))
    | none => exact Post.fail (herr _ (hE _ nofun))

theorem serverStep_post {E : SessionError → Prop} (hE : Std E) {env : Env} (henv : env.Errs E)
    (input : Option Bytes) (s : SState lib) (vs : List Provider) :
    Post (serverStep lib env input) s vs (GssQ E (serverHasLayer lib) s.needs input vs) := by
  have herr : ∀ e, E e → GssQ E (serverHasLayer lib) s.needs input vs (.err e) .errored vs :=
    fun e he => .error he rfl
  refine Post.bind (Post.get (Seq.ok (Post.bind (Post.set (Seq.ok ?_)))))
  cases s with
  | initial =>
    exact Post.bind (liftGss_post (fun ctx _ => serverPending_post hE henv trivial ctx input vs)
      (fun n => herr _ (hE _ nofun)))
  | pending ctx => exact serverPending_post hE henv trivial ctx input vs
  | installed ctx supported =>
    unfold serverInstalled
    try dsimp only
    refine Post.bind (liftGss_post (fun w _ => Seq.ok ?_) (fun n => herr _ (hE _ nofun)))
    refine Post.bind (Post.writeAll (Seq.ok ?_) (fun e => herr _ (hE _ nofun)))
    exact Post.bind (Post.set (Seq.ok (Post.pure (.run rfl))))
  | final ctx supported =>
    refine Post.bind (Post.okOr (fun i _ => Seq.ok ?_) (fun hn => .needed hn trivial rfl))
    refine Post.bind (liftGss_post (fun u _ => Seq.ok ?_) (fun n => herr _ (hE _ nofun)))
    refine Post.bind (Post.lift (fun selected _ => Seq.ok ?_) (fun e he => herr _ (by
      rw [finalToken_errs he]; exact hE _ nofun)))
    try dsimp only
    split
    · exact Post.bind (Post.set (Seq.ok (Post.pure .done)))
    · exact Post.fail (herr _ (hE _ nofun))
  | done l => exact Post.fail (herr _ (hE _ nofun))
  | errored => exact Post.fail (herr _ (hE _ nofun))

end Rsasl.Gssapi

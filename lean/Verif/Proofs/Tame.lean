/-
For every built-in mechanism: how a single step changes its state, how often it calls validate,
which errors it can return. The properties about whole sessions follow from this.
-/
import Verif.Proofs.Post
import Verif.Model.Link

namespace Rsasl

/-- Every error but `InputDataRequired` is in `E`: the two instances of interest are all errors
(arbitrary callbacks) and all errors but that one (callbacks that do not invent it). -/
def Std (E : SessionError → Prop) : Prop := ∀ e, e ≠ .inputDataRequired → E e

/-- What is known after a step: `rank` never grows and falls with every `Running`; with `Running`
the number of validate calls follows `count`, with `Finished` there were `k` of them in the whole
session for some `k` in `fin`; a panic only if `pan`; an error not in `E` is `InputDataRequired`,
raised because there was no input, in a state that needs it. -/
structure TameQ {S : Type} (E : SessionError → Prop) (rank count : S → Nat) (fin : Nat → Prop)
    (needs : S → Prop) (pan : Prop) (input : Option Bytes) (s : S) (vs : List Provider)
    (o : Outcome State) (s' : S) (vs' : List Provider) : Prop where
  rank_le : rank s' ≤ rank s
  running : o = .ok .running → rank s' < rank s ∧ vs'.length + count s = vs.length + count s'
  finished : ∀ k, o = .ok (.finished k) → ∃ n, fin n ∧ vs'.length + count s = vs.length + n
  err : ∀ e, o = .err e → E e ∨ (e = .inputDataRequired ∧ input = none ∧ needs s)
  panic : o = .panic → pan

/-- A mechanism all of whose steps are like that. -/
def Tame (m : Mech) (rank count : m.S → Nat) (fin : Nat → Prop) (needs : m.S → Prop)
    (pan : Prop) : Prop :=
  ∀ E, Std E → ∀ env : Env, env.Errs E → ∀ input s vs,
    Post (m.step env input) s vs (TameQ E rank count fin needs pan input s vs)

section

variable {S : Type} {E : SessionError → Prop} {rank count : S → Nat} {fin : Nat → Prop}
  {needs : S → Prop} {pan : Prop} {input : Option Bytes} {s s' : S} {vs vs' : List Provider}

theorem TameQ.error {e : SessionError} (he : E e) (hr : rank s' ≤ rank s) :
    TameQ E rank count fin needs pan input s vs (.err e) s' vs' :=
  ⟨hr, nofun, nofun, fun _ h => by cases h; exact .inl he, nofun⟩

theorem TameQ.needed (hi : input = none) (hn : needs s) (hr : rank s' ≤ rank s) :
    TameQ E rank count fin needs pan input s vs (.err .inputDataRequired) s' vs' :=
  ⟨hr, nofun, nofun, fun _ h => by cases h; exact .inr ⟨rfl, hi, hn⟩, nofun⟩

theorem TameQ.run (hr : rank s' < rank s) (hc : vs'.length + count s = vs.length + count s') :
    TameQ E rank count fin needs pan input s vs (.ok .running) s' vs' :=
  ⟨Nat.le_of_lt hr, fun _ => ⟨hr, hc⟩, nofun, nofun, nofun⟩

theorem TameQ.done {k : MessageSent} (hr : rank s' ≤ rank s) (n : Nat) (hn : fin n)
    (hc : vs'.length + count s = vs.length + n) :
    TameQ E rank count fin needs pan input s vs (.ok (.finished k)) s' vs' :=
  ⟨hr, nofun, fun _ _ => ⟨n, hn, hc⟩, nofun, nofun⟩

theorem TameQ.crash (hp : pan) (hr : rank s' ≤ rank s) :
    TameQ E rank count fin needs pan input s vs .panic s' vs' :=
  ⟨hr, nofun, nofun, nofun, fun _ => hp⟩

end

/-! ## PLAIN, EXTERNAL, ANONYMOUS -/

theorem Plain.clientAuthzid_fails {E : SessionError → Prop} (hE : Std E) (v : Str) :
    Fails E (Plain.clientAuthzid v) := by
  unfold Plain.clientAuthzid
  split
  · exact Fails.fail (hE _ nofun)
  · exact Fails.writeAll (fun _ => hE _ nofun) _

theorem Plain.clientAuthid_fails {E : SessionError → Prop} (hE : Std E) (v : Str) :
    Fails E (Plain.clientAuthid v) := by
  unfold Plain.clientAuthid
  split
  · exact Fails.fail (hE _ nofun)
  · split
    · exact Fails.fail (hE _ nofun)
    · exact Fails.writeAll (fun _ => hE _ nofun) _

theorem Plain.clientPassword_fails {E : SessionError → Prop} (hE : Std E) (v : Bytes) :
    Fails E (Plain.clientPassword v) := by
  unfold Plain.clientPassword
  split
  · exact Fails.fail (hE _ nofun)
  · split
    · exact Fails.fail (hE _ nofun)
    · exact Fails.writeAll (fun _ => hE _ nofun) _

/-- A closure on a trivial state that does not panic. -/
theorem Post.unitClosure {G : Type} {m : M Unit G} {vs : List Provider} {E : SessionError → Prop}
    {Q : Outcome (Option G) → Unit → List Provider → Prop}
    (hm : Post m () vs (fun o _ vs' => o ≠ .panic ∧ vs' = vs))
    (h1 : ∀ g, Q (.ok g) () vs) (h2 : ∀ e, E e → Q (.err e) () vs) :
    Post m () vs (Closure E Q) := by
  refine hm.mono ?_
  rintro o s vs' ⟨ho, rfl⟩
  cases o with
  | ok g => exact ⟨h1 _, h1 _, h2⟩
  | err e => exact ⟨h1 _, h2⟩
  | panic => exact absurd rfl ho

theorem Post.unitClosure' {G : Type} {m : M Unit G} {vs : List Provider} {E : SessionError → Prop}
    {Q : Outcome G → Unit → List Provider → Prop}
    (hm : Post m () vs (fun o _ vs' => o ≠ .panic ∧ vs' = vs))
    (h1 : ∀ g, Q (.ok g) () vs) (h2 : ∀ e, E e → Q (.err e) () vs) :
    Post m () vs (Closure' E Q) := by
  refine hm.mono ?_
  rintro o s vs' ⟨ho, rfl⟩
  cases o with
  | ok g => exact ⟨h1 _, h2⟩
  | err e => exact h2
  | panic => exact absurd rfl ho

theorem Post.quietWrite {S : Type} {s : S} {vs : List Provider} (buf : Bytes) :
    Post (M.writeAll buf) s vs (fun o _ vs' => o ≠ .panic ∧ vs' = vs) :=
  Post.writeAll ⟨nofun, rfl⟩ (fun _ => ⟨nofun, rfl⟩)

theorem Plain.client_tame :
    Tame Plain.client (fun _ => 0) (fun _ => 0) (· = 0) (fun _ => False) False := by
  intro E hE env henv input s vs
  have h0 : E earlyReturn := hE _ nofun
  have hN : ∀ p, E (.callbackError (.noCallback p)) := fun p => hE _ nofun
  have hw : ∀ {α : Type} (f : Unit → M Unit α) (Q : Outcome α → Unit → List Provider → Prop) b,
      (Post (f ()) s vs Q) → (∀ e, E e → Q (.err e) s vs) →
      Post (M.writeAll b >>= f) s vs Q := fun f Q b h1 h2 =>
    Post.bind (Post.writeAll h1 (fun e => h2 _ (hE _ nofun)))
  have herr : ∀ e, E e → TameQ E (fun _ : Unit => 0) (fun _ => 0) (· = 0) (fun _ => False) False
    input s vs (.err e) s vs := fun e he => .error he (Nat.le_refl _)
  show Post (Plain.clientStep env input) s vs _
  unfold Plain.clientStep
  have hrest := hw (fun _ => do
      needWith env .authId .empty Plain.clientAuthid
      M.writeAll [0]
      needWith env .password .empty Plain.clientPassword
      pure (.finished .yes)) (TameQ E (fun _ : Unit => 0) (fun _ => 0) (· = 0) (fun _ => False)
        False input s vs) [0] (by
    refine Post.bind (Post.needWith h0 hN henv (Plain.clientAuthid_fails hE) herr
      (fun v => Post.unitClosure' ?_ (fun g => ?_) herr))
    · unfold Plain.clientAuthid
      split
      · exact Post.fail ⟨nofun, rfl⟩
      · split
        · exact Post.fail ⟨nofun, rfl⟩
        · exact Post.quietWrite _
    · refine hw _ _ _ ?_ herr
      refine Post.bind (Post.needWith h0 hN henv (Plain.clientPassword_fails hE) herr
        (fun v => Post.unitClosure' ?_ (fun g => ?_) herr))
      · unfold Plain.clientPassword
        split
        · exact Post.fail ⟨nofun, rfl⟩
        · split
          · exact Post.fail ⟨nofun, rfl⟩
          · exact Post.quietWrite _
      · exact Post.pure (.done (Nat.le_refl _) 0 rfl rfl)) herr
  refine Post.bind (Post.maybeNeedWith h0 henv (Plain.clientAuthzid_fails hE) hrest herr
    (fun v => Post.unitClosure ?_ (fun g => hrest) herr))
  unfold Plain.clientAuthzid
  split
  · exact Post.fail ⟨nofun, rfl⟩
  · exact Post.quietWrite _

theorem Plain.server_tame (prep : Str → Option Str) :
    Tame (Plain.server prep) (fun _ => 0) (fun _ => 0) (· = 1) (fun _ => True) False := by
  intro E hE env henv input s vs
  have herr : ∀ e vs', e ≠ .inputDataRequired → TameQ E (fun _ : Unit => 0) (fun _ => 0) (· = 1)
    (fun _ => True) False input s vs (.err e) s vs' := fun e _ he => .error (hE e he) (Nat.le_refl _)
  have hval : ∀ ctx, Post (do validate env ctx; pure (.finished .no)) s vs
      (TameQ E (fun _ : Unit => 0) (fun _ => 0) (· = 1) (fun _ => True) False input s vs) :=
    fun ctx => Post.bind (Post.validate (Post.pure (.done (Nat.le_refl _) 1 rfl (by simp)))
      (fun e => herr _ _ nofun))
  show Post (Plain.serverStep prep env input) s vs _
  unfold Plain.serverStep
  refine Post.bind (Post.okOr (fun a ha => ?_) (fun hn => .needed hn trivial (Nat.le_refl _)))
  show Post _ _ _ _
  split
  · exact Post.fail (herr _ _ nofun)
  · split
    · refine Post.bind (Post.okOr (fun _ _ => ?_) (fun _ => herr _ _ nofun))
      refine Post.bind (Post.okOr (fun _ _ => ?_) (fun _ => herr _ _ nofun))
      refine Post.bind (Post.okOr (fun _ _ => ?_) (fun _ => herr _ _ nofun))
      show Post _ _ _ _
      split
      · exact Post.fail (herr _ _ nofun)
      · split
        · refine Post.bind (Post.okOr (fun _ _ => ?_) (fun _ => herr _ _ nofun))
          show Post _ _ _ _
          split
          · exact Post.fail (herr _ _ nofun)
          · exact hval _
        · split
          · exact Post.fail (herr _ _ nofun)
          · exact hval _
    · exact Post.fail (herr _ _ nofun)

theorem External.client_tame :
    Tame External.client (fun _ => 0) (fun _ => 0) (· = 0) (fun _ => False) False := by
  intro E hE env henv input s vs
  have herr : ∀ e, E e → TameQ E (fun _ : Unit => 0) (fun _ => 0) (· = 0) (fun _ => False) False
    input s vs (.err e) s vs := fun e he => .error he (Nat.le_refl _)
  have hok : ∀ g : Option Unit, Seq (fun _ => (pure (.finished .yes) : M Unit State))
      (TameQ E (fun _ : Unit => 0) (fun _ => 0) (· = 0) (fun _ => False) False input s vs)
      (.ok g) s vs := fun g => Post.pure (.done (Nat.le_refl _) 0 rfl rfl)
  exact Post.bind (Post.maybeNeedWith (hE _ nofun) henv
    (fun v => Fails.writeAll (fun _ => hE _ nofun) _) (hok _) herr
    (fun v => Post.unitClosure (Post.quietWrite _) (fun g => hok g) herr))

theorem Anonymous.client_tame :
    Tame Anonymous.client (fun _ => 0) (fun _ => 0) (· = 0) (fun _ => False) False := by
  intro E hE env henv input s vs
  have herr : ∀ e, E e → TameQ E (fun _ : Unit => 0) (fun _ => 0) (· = 0) (fun _ => False) False
    input s vs (.err e) s vs := fun e he => .error he (Nat.le_refl _)
  have hok : ∀ g : Option Unit, Seq (fun _ => (pure (.finished .yes) : M Unit State))
      (TameQ E (fun _ : Unit => 0) (fun _ => 0) (· = 0) (fun _ => False) False input s vs)
      (.ok g) s vs := fun g => Post.pure (.done (Nat.le_refl _) 0 rfl rfl)
  exact Post.bind (Post.maybeNeedWith (hE _ nofun) henv
    (fun v => Fails.writeAll (fun _ => hE _ nofun) _) (hok _) herr
    (fun v => Post.unitClosure (Post.quietWrite _) (fun g => hok g) herr))

theorem External.server_tame :
    Tame External.server (fun _ => 0) (fun _ => 0) (· = 1) (fun _ => False) False := by
  intro E hE env henv input s vs
  exact Post.bind (Post.okOr (fun _ _ => Post.bind (Post.validate
      (Post.pure (.done (Nat.le_refl _) 1 rfl (by simp)))
      (fun e => .error (hE _ nofun) (Nat.le_refl _))))
    (fun _ => .error (hE _ nofun) (Nat.le_refl _)))

theorem Anonymous.server_tame :
    Tame Anonymous.server (fun _ => 0) (fun _ => 0) (· = 1) (fun _ => False) False := by
  intro E hE env henv input s vs
  exact Post.bind (Post.okOr (fun _ _ => Post.bind (Post.validate
      (Post.pure (.done (Nat.le_refl _) 1 rfl (by simp)))
      (fun e => .error (hE _ nofun) (Nat.le_refl _))))
    (fun _ => .error (hE _ nofun) (Nat.le_refl _)))

/-! ## LOGIN -/

def Login.CState.rank : Login.CState → Nat
  | .authid => 1
  | _ => 0

def Login.SState.rank : Login.SState → Nat
  | .new => 2
  | .waitingForUsername => 1
  | _ => 0

def Login.SState.needs : Login.SState → Prop
  | .waitingForUsername => True
  | .waitingForPassword _ => True
  | _ => False

theorem Login.client_tame :
    Tame Login.client Login.CState.rank (fun _ => 0) (· = 0) (fun _ => False) False := by
  intro E hE env henv input s vs
  have h0 : E earlyReturn := hE _ nofun
  have hN : ∀ p, E (.callbackError (.noCallback p)) := fun p => hE _ nofun
  have herr : ∀ e, E e → TameQ E Login.CState.rank (fun _ => 0) (· = 0) (fun _ => False) False
    input s vs (.err e) s vs := fun e he => .error he (Nat.le_refl _)
  show Post (Login.clientStep env input) s vs _
  unfold Login.clientStep
  refine Post.bind (Post.get ?_)
  show Post _ _ _ _
  cases s with
  | authid =>
    refine Post.bind (Post.needWith h0 hN henv (fun v => Fails.writeAll (fun _ => hE _ nofun) _) herr
      (fun v => Post.writeAll ⟨?_, herr⟩ (fun e => herr)))
    exact Post.bind (Post.set (Post.pure (.run (by decide) rfl)))
  | password =>
    refine Post.bind (Post.needWith h0 hN henv (fun v => Fails.writeAll (fun _ => hE _ nofun) _) herr
      (fun v => Post.writeAll ⟨?_, herr⟩ (fun e => herr)))
    exact Post.bind (Post.set (Post.pure (.done (by decide) 0 rfl rfl)))
  | done => exact Post.fail (herr _ (hE _ nofun))

theorem Login.server_tame :
    Tame Login.server Login.SState.rank (fun _ => 0) (· = 1) Login.SState.needs False := by
  intro E hE env henv input s vs
  have herr : ∀ e vs', e ≠ .inputDataRequired → TameQ E Login.SState.rank (fun _ => 0) (· = 1)
    Login.SState.needs False input s vs (.err e) s vs' :=
    fun e _ he => .error (hE e he) (Nat.le_refl _)
  show Post (Login.serverStep env input) s vs _
  unfold Login.serverStep
  refine Post.bind (Post.get ?_)
  show Post _ _ _ _
  cases s with
  | new =>
    exact Post.bind (Post.writeAll (Post.bind (Post.set (Post.pure (.run (by decide) rfl))))
      (fun e => herr _ _ nofun))
  | waitingForUsername =>
    cases input with
    | none => exact Post.fail (.needed rfl trivial (Nat.le_refl _))
    | some input =>
      exact Post.bind (Post.okOr (fun u _ => Post.bind (Post.writeAll
        (Post.bind (Post.set (Post.pure (.run (Nat.lt_succ_self _) rfl)))) (fun e => herr _ _ nofun)))
        (fun _ => herr _ _ nofun))
  | waitingForPassword u =>
    cases input with
    | none => exact Post.fail (.needed rfl trivial (Nat.le_refl _))
    | some input =>
      exact Post.bind (Post.validate
        (Post.bind (Post.set (Post.pure (.done (Nat.le_refl _) 1 rfl (by simp)))))
        (fun e => herr _ _ nofun))
  | done => exact Post.fail (herr _ _ nofun)

/-! ## XOAUTH2, OAUTHBEARER -/

def OAuthCState.rank : OAuthCState → Nat
  | .initial => 1
  | _ => 0

def OAuthSState.rank : OAuthSState → Nat
  | .initial => 1
  | .errored => 0

def OAuthSState.count : OAuthSState → Nat
  | .initial => 0
  | .errored => 1

theorem OAuthCState.rank_done (s : OAuthCState) : OAuthCState.rank .done ≤ s.rank :=
  Nat.zero_le _

theorem XOAuth2.client_tame :
    Tame XOAuth2.client OAuthCState.rank (fun _ => 0) (· = 0) (fun _ => False) False := by
  intro E hE env henv input s vs
  have h0 : E earlyReturn := hE _ nofun
  have hN : ∀ p, E (.callbackError (.noCallback p)) := fun p => hE _ nofun
  have hio : ∀ e, E (.io e) := fun p => hE _ nofun
  have herr : ∀ e, E e → TameQ E OAuthCState.rank (fun _ => 0) (· = 0) (fun _ => False) False
    input s vs (.err e) s vs := fun e he => .error he (Nat.le_refl _)
  have herr' : ∀ e, E e → TameQ E OAuthCState.rank (fun _ => 0) (· = 0) (fun _ => False) False
    input s vs (.err e) .done vs := fun e he => .error he (Nat.zero_le _)
  show Post (XOAuth2.clientStep env input) s vs _
  unfold XOAuth2.clientStep
  refine Post.bind (Post.get ?_)
  show Post _ _ _ _
  cases s with
  | initial =>
    refine Post.bind (Post.needWith h0 hN henv (fun v => Fails.writeVectored hio _) herr
      (fun v => Post.writeVectored ⟨?_, herr⟩ (fun e => herr)))
    refine Post.bind (Post.needWith h0 hN henv (fun v => Fails.writeVectored hio _) herr
      (fun v => Post.writeVectored ⟨?_, herr⟩ (fun e => herr)))
    exact Post.bind (Post.set (Post.pure (.run (by decide) rfl)))
  | waitingServerResponse =>
    refine Post.bind (Post.set ?_)
    show Post _ _ _ _
    simp only
    split
    · exact Post.pure (.done (Nat.zero_le _) 0 rfl rfl)
    · refine Post.bind (Post.okOr (fun _ _ => ?_) (fun _ => herr' _ (hE _ nofun)))
      exact Post.bind (Post.action hN henv (Post.pure (.done (Nat.zero_le _) 0 rfl rfl)) herr')
  | done => exact Post.fail (herr _ (hE _ nofun))

theorem XOAuth2.onResult_fails {E : SessionError → Prop} (hE : Std E) (v : Except Str Unit) :
    Fails E (XOAuth2.onResult v) := by
  cases v with
  | ok u => exact Fails.pure _
  | error e =>
    exact Fails.bind (Fails.writeAll (fun _ => hE _ nofun) _)
      (fun _ => Fails.bind (Fails.set _) (fun _ => Fails.pure _))

/-- The common shape of the two servers' first step. -/
theorem oauthServer_post {E : SessionError → Prop} (hE : Std E) {env : Env} (henv : env.Errs E)
    {p : Property} {ctx : Provider} {f : p.Value → M OAuthSState State}
    (hf : ∀ v, Fails E (f v)) {vs : List Provider} {input : Option Bytes}
    (hp : ∀ v, Post (f v) .initial vs (fun o s' vs' => o ≠ .panic ∧ vs' = vs ∧
      (o = .ok .running → s' = .errored) ∧
      ∀ k, o = .ok (.finished k) → s' = .initial)) :
    Post (do let st ← needWith env p ctx f; validate env ctx; pure st) .initial vs
      (TameQ E OAuthSState.rank OAuthSState.count (· = 1) (fun s => s = .initial) False input
        .initial vs) := by
  have hN : ∀ p, E (.callbackError (.noCallback p)) := fun p => hE _ nofun
  have hr : ∀ s : OAuthSState, s.rank ≤ OAuthSState.rank .initial := by
    intro s; cases s <;> decide
  refine Post.bind (Post.needWith (hE _ nofun) hN henv hf (fun e he => .error he (hr _))
    (fun v => (hp v).mono ?_))
  rintro o s' vs' ⟨h1, rfl, h2, h3⟩
  cases o with
  | ok st =>
    refine ⟨?_, fun e he => .error he (hr _)⟩
    refine Post.bind (Post.validate ?_ (fun e => .error (hE _ nofun) (hr _)))
    cases st with
    | running => cases h2 rfl; exact Post.pure (.run (by decide) (by simp [OAuthSState.count]))
    | finished k =>
      cases h3 k rfl; exact Post.pure (.done (Nat.le_refl _) 1 rfl (by simp [OAuthSState.count]))
  | err e => exact fun e he => .error he (hr _)
  | panic => exact absurd rfl h1

theorem XOAuth2.server_tame :
    Tame XOAuth2.server OAuthSState.rank OAuthSState.count (· = 1) (fun s => s = .initial)
      False := by
  intro E hE env henv input s vs
  show Post (XOAuth2.serverStep env input) s vs _
  unfold XOAuth2.serverStep
  refine Post.bind (Post.get ?_)
  show Post _ _ _ _
  cases s with
  | errored => exact Post.pure (.done (Nat.le_refl _) 1 rfl rfl)
  | initial =>
    refine Post.bind (Post.okOr (fun _ _ => ?_) (fun hn => .needed hn rfl (Nat.le_refl _)))
    refine Post.bind (Post.lift (fun at' _ => ?_) (fun e he => .error (hE _ ?_) (Nat.le_refl _)))
    · obtain ⟨a, t⟩ := at'
      refine oauthServer_post hE henv (XOAuth2.onResult_fails hE) (fun v => ?_)
      cases v with
      | ok u => exact Post.pure ⟨nofun, rfl, nofun, fun _ _ => rfl⟩
      | error e =>
        refine Post.bind (Post.writeAll ?_ (fun e => ⟨nofun, rfl, nofun, nofun⟩))
        refine Seq.ok (Post.bind (Post.set (Seq.ok ?_)))
        exact Post.pure ⟨nofun, rfl, fun _ => rfl, nofun⟩
    · rintro rfl
      unfold XOAuth2.parse at he
      repeat' first
        | (cases he; done)
        | split at he
        | (dsimp only at he; split at he)

theorem OAuthBearer.writeKVs_post {S : Type} {s : S} {vs : List Provider} (kvs : List (Str × Str)) :
    Post (OAuthBearer.writeKVs kvs) s vs (fun o s' vs' => o ≠ .panic ∧ s' = s ∧ vs' = vs) := by
  induction kvs with
  | nil => exact Post.pure ⟨nofun, rfl, rfl⟩
  | cons kv kvs ih =>
    exact Post.bind (Post.writeVectored ih (fun e => ⟨nofun, rfl, rfl⟩))

theorem OAuthBearer.writeKVs_fails {S : Type} {E : SessionError → Prop} (hE : Std E)
    (kvs : List (Str × Str)) : Fails E (OAuthBearer.writeKVs kvs : M S Unit) := by
  induction kvs with
  | nil => exact Fails.pure _
  | cons kv kvs ih => exact Fails.bind (Fails.writeVectored (fun _ => hE _ nofun) _) (fun _ => ih)

theorem OAuthBearer.client_tame (json : OAuthBearer.Json) :
    Tame (OAuthBearer.client json) OAuthCState.rank (fun _ => 0) (· = 0) (fun _ => False)
      False := by
  intro E hE env henv input s vs
  have h0 : E earlyReturn := hE _ nofun
  have hN : ∀ p, E (.callbackError (.noCallback p)) := fun p => hE _ nofun
  have hio : ∀ e, E (.io e) := fun p => hE _ nofun
  have herr : ∀ e, E e → TameQ E OAuthCState.rank (fun _ => 0) (· = 0) (fun _ => False) False
    input s vs (.err e) s vs := fun e he => .error he (Nat.le_refl _)
  have herr' : ∀ e, E e → TameQ E OAuthCState.rank (fun _ => 0) (· = 0) (fun _ => False) False
    input s vs (.err e) .done vs := fun e he => .error he (Nat.zero_le _)
  show Post (OAuthBearer.clientStep json env input) s vs _
  unfold OAuthBearer.clientStep
  refine Post.bind (Post.get ?_)
  show Post _ _ _ _
  cases s with
  | initial =>
    have h3 : Post (do
        needWith env .oauthBearerToken .empty (fun token =>
          M.writeVectored [XOAuth2.authPrefix, Str.bytes token, XOAuth2.endMark])
        M.set OAuthCState.waitingServerResponse
        pure .running : M OAuthCState State) .initial vs (TameQ E OAuthCState.rank (fun _ => 0)
          (· = 0) (fun _ => False) False input .initial vs) := by
      refine Post.bind (Post.needWith h0 hN henv (fun v => Fails.writeVectored hio _) herr
        (fun v => Post.writeVectored ⟨?_, herr⟩ (fun e => herr)))
      exact Post.bind (Post.set (Post.pure (.run (by decide) rfl)))
    have h2 : Post (do
        let _ ← maybeNeedWith env .oauthBearerKV .empty OAuthBearer.writeKVs
        needWith env .oauthBearerToken .empty (fun token =>
          M.writeVectored [XOAuth2.authPrefix, Str.bytes token, XOAuth2.endMark])
        M.set OAuthCState.waitingServerResponse
        pure .running : M OAuthCState State) .initial vs (TameQ E OAuthCState.rank (fun _ => 0)
          (· = 0) (fun _ => False) False input .initial vs) := by
      refine Post.bind (Post.maybeNeedWith h0 henv (OAuthBearer.writeKVs_fails hE) h3 herr
        (fun v => (OAuthBearer.writeKVs_post v).mono ?_))
      rintro o s' vs' ⟨h1, rfl, rfl⟩
      cases o with
      | ok g => exact ⟨h3, h3, herr⟩
      | err e => exact ⟨h3, herr⟩
      | panic => exact absurd rfl h1
    have h1 : Post (M.writeAll (b!",") >>= fun _ => (do
        let _ ← maybeNeedWith env .oauthBearerKV .empty OAuthBearer.writeKVs
        needWith env .oauthBearerToken .empty (fun token =>
          M.writeVectored [XOAuth2.authPrefix, Str.bytes token, XOAuth2.endMark])
        M.set OAuthCState.waitingServerResponse
        pure .running : M OAuthCState State)) .initial vs (TameQ E OAuthCState.rank (fun _ => 0)
          (· = 0) (fun _ => False) False input .initial vs) := by
      refine Post.bind (Post.writeAll ?_ (fun e => herr _ (hio e)))
      exact h2
    refine Post.bind (Post.writeAll ?_ (fun e => herr _ (hio e)))
    refine Post.bind (Post.maybeNeedWith h0 henv (fun v => Fails.bind (Fails.writeAll hio _)
      (fun _ => Fails.writeAll hio _)) h1 herr (fun v => ?_))
    exact Post.bind (Post.writeAll (Post.writeAll ⟨h1, h1, herr⟩ (fun _ => ⟨h1, herr⟩))
      (fun _ => ⟨h1, herr⟩))
  | waitingServerResponse =>
    refine Post.bind (Post.set ?_)
    show Post _ _ _ _
    simp only
    split
    · exact Post.pure (.done (Nat.zero_le _) 0 rfl rfl)
    · refine Post.bind (Post.okOr (fun _ _ => ?_) (fun _ => herr' _ (hE _ nofun)))
      exact Post.bind (Post.action hN henv (Post.pure (.done (Nat.zero_le _) 0 rfl rfl)) herr')
  | done => exact Post.fail (herr _ (hE _ nofun))

theorem OAuthBearer.writeJson_post {S : Type} {s : S} {vs : List Provider} (ps : List Bytes) :
    Post (OAuthBearer.writeJson ps) s vs (fun o s' vs' => o ≠ .panic ∧ s' = s ∧ vs' = vs) := by
  induction ps with
  | nil => exact Post.pure ⟨nofun, rfl, rfl⟩
  | cons p ps ih =>
    refine Post.bind (Post.attempt (Post.writeAll ih (fun e => ?_)))
    exact Seq.ok (Post.fail ⟨nofun, rfl, rfl⟩)

theorem OAuthBearer.writeJson_fails {S : Type} {E : SessionError → Prop} (hE : Std E)
    (ps : List Bytes) : Fails E (OAuthBearer.writeJson ps : M S Unit) := by
  induction ps with
  | nil => exact Fails.pure _
  | cons p ps ih =>
    refine Fails.bind (Fails.attempt _) (fun a => ?_)
    cases a with
    | ok u => exact ih
    | error e => exact Fails.fail (hE _ nofun)

theorem OAuthBearer.server_tame (json : OAuthBearer.Json) :
    Tame (OAuthBearer.server json) OAuthSState.rank OAuthSState.count (· = 1)
      (fun s => s = .initial) False := by
  intro E hE env henv input s vs
  show Post (OAuthBearer.serverStep json env input) s vs _
  unfold OAuthBearer.serverStep
  refine Post.bind (Post.get ?_)
  show Post _ _ _ _
  cases s with
  | errored => exact Post.pure (.done (Nat.le_refl _) 1 rfl rfl)
  | initial =>
    refine Post.bind (Post.okOr (fun i _ => ?_) (fun hn => .needed hn rfl (Nat.le_refl _)))
    show Post _ _ _ _
    split
    · exact Post.fail (.error (hE _ nofun) (Nat.le_refl _))
    · refine oauthServer_post hE henv (fun v => ?_) (fun v => ?_)
      · cases v with
        | ok u => exact Fails.pure _
        | error e =>
          exact Fails.bind (OAuthBearer.writeJson_fails hE _)
            (fun _ => Fails.bind (Fails.set _) (fun _ => Fails.pure _))
      · cases v with
        | ok u => exact Post.pure ⟨nofun, rfl, nofun, fun _ _ => rfl⟩
        | error e =>
          refine Post.bind ((OAuthBearer.writeJson_post _).mono ?_)
          rintro o s' vs' ⟨h1, rfl, rfl⟩
          cases o with
          | ok g =>
            refine Seq.ok (Post.bind (Post.set (Seq.ok ?_)))
            exact Post.pure ⟨nofun, rfl, fun _ => rfl, nofun⟩
          | err e => exact ⟨nofun, rfl, nofun, nofun⟩
          | panic => exact absurd rfl h1

end Rsasl

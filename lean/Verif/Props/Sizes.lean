/-
C113: how much a server sends.
-/
import Verif.Proofs.Pays
import Verif.Proofs.ScramParse
import Verif.Spec.Sizes
import Verif.Props.ScramGrammar

namespace Rsasl

open Spec

variable {wt : Event → Nat} {env : Env}

/-! ## Step by step -/

namespace Plain

theorem server_pays (prep : Str → Option Str) (input : Option Bytes) :
    Pays wt (fun _ => 0) (input.getD []).length (fun _ => 0) (serverStep prep env input) := by
  unfold serverStep
  refine Pays.bind (Pays.okOr _ _) fun i => ?_
  have hv : ∀ p, Pays wt (fun _ => 0) (input.getD []).length (fun _ => 0)
      (do validate env p; pure (.finished .no) : M Unit State) := fun p =>
    Pays.bind Pays.validate fun _ => .pure (Nat.zero_le _)
  split
  · exact .fail _
  · split
    · refine Pays.bind (Pays.okOr _ _) fun _ => Pays.bind (Pays.okOr _ _) fun _ => Pays.bind (Pays.okOr _ _) fun _ => ?_
      split
      · exact .fail _
      · split
        · refine Pays.bind (Pays.okOr _ _) fun _ => ?_
          split
          · exact .fail _
          · exact hv _
        · split
          · exact .fail _
          · exact hv _
    · exact .fail _

end Plain

theorem External.server_pays (input : Option Bytes) :
    Pays wt (fun _ => 0) (input.getD []).length (fun _ => 0) (External.serverStep env input) := by
  unfold External.serverStep
  exact Pays.bind (Pays.okOr _ _) fun _ => Pays.bind Pays.validate fun _ => .pure (Nat.zero_le _)

theorem Anonymous.server_pays (input : Option Bytes) :
    Pays wt (fun _ => 0) (input.getD []).length (fun _ => 0) (Anonymous.serverStep env input) := by
  unfold Anonymous.serverStep
  exact Pays.bind (Pays.okOr _ _) fun _ => Pays.bind Pays.validate fun _ => .pure (Nat.zero_le _)

namespace Login

/-- The prompts not yet sent. -/
def toSend : SState → Nat
  | .new => 19
  | .waitingForUsername => 9
  | _ => 0

theorem server_cheap : Cheap server wt toSend (again .login) := by
  intro env input s w
  have hp : userPrompt.length = 10 := rfl
  have hq : passwordPrompt.length = 9 := rfl
  have key : ∀ (b : Bytes) (s s' : SState) (n : Nat), b.length ≤ 10 → b.length + toSend s' ≤ toSend s →
      let x := (do M.writeAll b; M.set s'; pure .running : M SState State) s w
      x.2.2.wr.out.length + toSend x.2.1 + weigh wt w.log ≤
        w.wr.out.length + n + toSend s + again .login x.1 + weigh wt x.2.2.log := by
    intro b s s' n h10 hb
    obtain ⟨i, sc, hi, -, h | ⟨e, h⟩⟩ := M.writeAll_cases b s w
    · rw [M.bind_ok h]
      show (w.wr.out ++ b).length + toSend s' + weigh wt w.log ≤
        w.wr.out.length + n + toSend s + 0 + weigh wt w.log
      rw [List.length_append]
      omega
    · rw [M.bind_err h]
      show (w.wr.out ++ b.take i).length + toSend s + weigh wt w.log ≤
        w.wr.out.length + n + toSend s + 10 + weigh wt w.log
      rw [List.length_append, List.length_take]
      omega
  have fails : ∀ (e : SessionError) (s : SState) (n : Nat),
      let x := (M.fail e : M SState State) s w
      x.2.2.wr.out.length + toSend x.2.1 + weigh wt w.log ≤
        w.wr.out.length + n + toSend s + again .login x.1 + weigh wt x.2.2.log := by
    intro e s n
    show w.wr.out.length + toSend s + weigh wt w.log ≤
        w.wr.out.length + n + toSend s + again .login (.err e) + weigh wt w.log
    omega
  show (serverStep env input s w).2.2.wr.out.length + toSend (serverStep env input s w).2.1 + weigh wt w.log ≤ _
  show _ ≤ w.wr.out.length + (input.getD []).length + toSend s + again .login (serverStep env input s w).1 +
    weigh wt (serverStep env input s w).2.2.log
  cases s with
  | new => exact key userPrompt .new .waitingForUsername _ (by decide) (by decide)
  | waitingForUsername =>
    cases input with
    | none => exact fails _ .waitingForUsername _
    | some i =>
      cases hu : fromUtf8 i with
      | none =>
        have : serverStep env (some i) .waitingForUsername w =
            (M.fail (.mechanismError .loginUtf8) : M SState State) .waitingForUsername w := by
          show (M.okOr _ (fromUtf8 i) >>= _ : M SState State) _ _ = _
          rw [hu]; rfl
        rw [this]
        exact fails _ .waitingForUsername _
      | some u =>
        have : serverStep env (some i) .waitingForUsername w =
            (do M.writeAll passwordPrompt; M.set (.waitingForPassword u); pure .running : M SState State)
              .waitingForUsername w := by
          show (M.okOr _ (fromUtf8 i) >>= _ : M SState State) _ _ = _
          rw [hu]; rfl
        rw [this]
        exact key passwordPrompt .waitingForUsername (.waitingForPassword u) _ (by decide)
          (Nat.le_refl 9)
  | waitingForPassword u =>
    cases input with
    | none => exact fails _ (.waitingForPassword u) _
    | some i =>
      have h : Pays wt toSend 0 (fun _ => 0)
          (do validate env (provider u i); M.set .done; pure (.finished .no) : M SState State) :=
        Pays.bind Pays.validate fun _ => Pays.bind (Pays.set (n := 0) (s' := SState.done)) fun _ => .pure (Nat.le_refl _)
      have := h.on (.waitingForPassword u) w
      show ((do validate env (provider u i); M.set .done; pure (.finished .no) : M SState State)
        (.waitingForPassword u) w).2.2.wr.out.length + _ + _ ≤ _
      refine Nat.le_trans ?_ (Nat.le_trans this ?_)
      · exact Nat.le_trans (Nat.le_refl _) (Nat.add_le_add_right (Nat.add_le_add_right (Nat.le_add_right _ _) _) _)
      · show _ ≤ _ + _ + _ + _ + weigh wt ((do validate env (provider u i); M.set .done; pure (.finished .no) : M SState State)
          (.waitingForPassword u) w).2.2.log
        omega
  | done => exact fails _ .done _

end Login

theorem XOAuth2.server_pays (json : OAuthBearer.Json) (input : Option Bytes) :
    Pays (answerSize json) (fun _ => 0) (input.getD []).length (fun _ => 0) (XOAuth2.serverStep env input) := by
  unfold XOAuth2.serverStep
  refine Pays.bind Pays.get fun st => ?_
  split
  · refine Pays.bind (Pays.okOr _ _) fun i => Pays.bind (Pays.lift _) fun x => ?_
    dsimp only
    refine Pays.bind (Pays.needWith (p := .xoauth2Validate) (c := fun _ => 0) fun v => ?_) fun _ => Pays.bind Pays.validate fun _ =>
      .pure (Nat.zero_le _)
    unfold XOAuth2.onResult
    split
    · next e =>
      exact Pays.bind (Pays.writeAll (k := 0) _) fun _ => Pays.bind (Pays.set (n := 0) (φ := fun _ => 0)) fun _ => .pure (Nat.le_refl _)
    · exact .pure (Nat.zero_le _)
  · exact .pure (Nat.zero_le _)

theorem OAuthBearer.writeJson_pays {S : Type} {φ : S → Nat} (ps : List Bytes) :
    Pays wt φ ps.flatten.length (fun _ => 0) (OAuthBearer.writeJson ps : M S Unit) := by
  induction ps with
  | nil => exact .pure (Nat.zero_le _)
  | cons p ps ih =>
    unfold OAuthBearer.writeJson
    rw [List.flatten_cons, List.length_append]
    refine Pays.bind (Pays.attempt (Pays.writeAll p)) fun r => ?_
    cases r with
    | ok u => exact ih
    | error e => exact .fail _

theorem OAuthBearer.server_pays (json : OAuthBearer.Json) (input : Option Bytes) :
    Pays (answerSize json) (fun _ => 0) (input.getD []).length (fun _ => 0) (OAuthBearer.serverStep json env input) := by
  unfold OAuthBearer.serverStep
  refine Pays.bind Pays.get fun st => ?_
  split
  · refine Pays.bind (Pays.okOr _ _) fun i => ?_
    split
    · exact .fail _
    · refine Pays.bind (Pays.needWith (p := .oauthBearerValidate) (c := fun _ => 0) fun v => ?_) fun _ => Pays.bind Pays.validate fun _ =>
        .pure (Nat.zero_le _)
      unfold OAuthBearer.onResult
      split
      · exact Pays.bind (OAuthBearer.writeJson_pays _) fun _ => Pays.bind (Pays.set (n := 0) (φ := fun _ => 0)) fun _ => .pure (Nat.le_refl _)
      · exact .pure (Nat.zero_le _)
  · exact .pure (Nat.zero_le _)

namespace Scram

/-- The last message has at most these many bytes. -/
def lastSize (d : Digest) : Nat := max (2 + base64Size d.outLen) 29

/-- The messages not yet sent. -/
def toSend (d : Digest) : SS → Nat
  | some (.waitingClientFirst _) => 73 + lastSize d
  | some (.waitingClientFinal _) => lastSize d
  | _ => 0

theorem ClientFirst.parse_size {i : Bytes} {m : ClientFirst} (h : ClientFirst.parse i = .ok m) :
    m.nonce.length + 8 ≤ i.length := by
  obtain ⟨flag, az, user, nonce⟩ := m
  obtain ⟨start, exts, ⟨ft, azt, hf, -, -, rfl⟩, -, -, -, rfl⟩ := (C53_client_first_partial ..).1 h
  have : 1 ≤ ft.length := by
    cases hf <;> simp
  simp
  omega

/-- The size of the last message. -/
def finalSize : Except ServerErrorValue (FinalInner × Bytes) → Nat
  | .ok (_, sig) => 2 + base64Size sig.length
  | .error e => 2 + e.bytes.length

theorem judge_size {d : Digest} {data : Option FinalInner} {m : ClientFinal}
    {r : Except ServerErrorValue (FinalInner × Bytes)} (h : judge d data m = .ok r) : finalSize r ≤ lastSize d := by
  have he : ∀ e : ServerErrorValue, e.bytes.length ≤ 27 → finalSize (.error e) ≤ lastSize d := by
    intro e h
    simp only [finalSize, lastSize]
    omega
  unfold judge at h
  repeat' first
    | (cases h; done)
    | (cases h; exact he _ (by decide))
    | split at h
  next hc =>
  cases hc
  dsimp only at h
  split at h
  · cases h
    simp only [finalSize, lastSize, d.hmac_length]
    omega
  · cases h
    exact he _ (by decide)

theorem handleClientFinal_pays (d : Digest) (data : Option FinalInner) (input : Bytes) :
    Pays wt (toSend d) (lastSize d) (fun _ => 0) (handleClientFinal d env data input) := by
  unfold handleClientFinal
  refine Pays.bind (Pays.liftOutcome _) fun m => ?_
  cases hj : judge d data m with
  | error e => exact .fail_bind
  | ok r =>
    refine Pays.pure_bind ?_
    have hr := judge_size hj
    rcases r with e | ⟨f, sig⟩
    · exact (Pays.writeVectored (k := 0) _).weaken (by
        simp [ServerFinal.ioslices, finalSize] at hr ⊢
        omega) fun _ => Nat.le_refl _
    · refine Pays.bind (c := fun _ => 0) ((Pays.writeVectored (k := 0) _).weaken ?_ fun _ => Nat.le_refl _) fun _ =>
        Pays.validate
      simp [ServerFinal.ioslices, Base64.length_encode, base64Size, finalSize] at hr ⊢
      omega

/-- What a stored password has beyond a made-up one. -/
def beyond (p : Params) : Nat := p.salt.length + p.iterations.length - 49

theorem handleClientFirst_pays (d : Digest) (json : OAuthBearer.Json) (canCb : Bool) (msg : ClientFirst) :
    Pays (answerSize json) (fun x : Hdr => toSend d x.1) (msg.nonce.length + 81 + lastSize d)
      (fun new => toSend d (some new))      (handleClientFirst d nonceLen env canCb msg) := by
  unfold handleClientFirst
  dsimp only
  refine Pays.bind (c := fun _ => msg.nonce.length + 81 + lastSize d) ?_ fun _ =>
    Pays.bind (Pays.ask (p := .scramStoredPassword) (c := beyond) fun v => ?_) fun params => ?_
  · unfold serverCb
    split
    · split
      · exact .fail _
      · exact .pure (Nat.le_refl _)
    · exact .pure (Nat.le_refl _)
    · exact Pays.needCbData fun k v => Pays.modify fun s => Nat.le_refl _
  · unfold useStored
    split
    · exact .fail _
    · refine .pure ?_
      simp [beyond, answerSize, decimal, base64Size, Base64.length_encode]
  · have hn : ∀ (f : Bytes → M Hdr SState) (k : Nat) (h : ∀ b, b.length = 24 →
        Pays (answerSize json) (fun x : Hdr => toSend d x.1) k (fun new => toSend d (some new)) (f b)),
        Pays (answerSize json) (fun x : Hdr => toSend d x.1) k (fun new => toSend d (some new)) (generateNonce nonceLen >>= f) := by
      intro f k h
      exact ⟨fun s w => (h (((List.range 24).map w.rng).map nonceChar) (by simp)).on s
        { w with rng := fun i => w.rng (i + 24) }⟩
    refine hn _ _ fun nonce hl => ?_
    split
    · next p =>
      refine Pays.bind (c := fun _ => lastSize d) ((Pays.writeVectored (k := lastSize d) _).weaken ?_ fun _ => Nat.le_refl _) fun _ =>
        Pays.bind Pays.get fun _ => .pure (Nat.le_refl _)
      simp [ServerFirst.ioslices, hl, beyond]
      omega
    · refine Pays.draw_bind fun l hs => ?_
      refine Pays.bind (c := fun _ => lastSize d) ((Pays.writeVectored (k := lastSize d) _).weaken ?_ fun _ => Nat.le_refl _) fun _ =>
        .pure (Nat.le_refl _)
      simp [ServerFirst.ioslices, hl, Base64.length_encode, hs, defaultSaltLen, defaultIterations]

theorem server_pays (d : Digest) (json : OAuthBearer.Json) (input : Option Bytes) :
    Pays (answerSize json) (toSend d) (input.getD []).length (fun _ => 0) (serverStep d nonceLen env input) := by
  unfold serverStep
  refine Pays.take rfl fun st => ?_
  split
  · next canCb =>
    cases input with
    | none => exact .fail_bind
    | some i =>
      refine Pays.pure_bind ?_
      cases hp : ClientFirst.parse i with
      | err e => exact .fail_bind
      | panic => exact .panic_bind
      | ok msg =>
        refine Pays.pure_bind ?_
        have hs := ClientFirst.parse_size hp
        have h := Pays.withLocal (l := msg.gs2Header)
          (handleClientFirst_pays (env := env) d json canCb msg)
        refine Pays.bind (h.weaken ?_ fun _ => Nat.le_refl _) fun new => ?_
        · simp [toSend]
          omega
        · exact Pays.bind (c := fun _ => 0) ((Pays.set (n := 0) (s' := some new)).weaken
            (Nat.le_of_eq (Nat.zero_add _)) fun _ => Nat.le_refl _) fun _ => .pure (Nat.le_refl _)
  · next data =>
    cases input with
    | none => exact .fail_bind
    | some i =>
      refine Pays.pure_bind (Pays.bind (c := fun _ => 0)
        ((handleClientFinal_pays d data i).weaken ?_ fun _ => Nat.le_refl _) fun _ =>
        Pays.bind (Pays.set (n := 0) (s' := some SState.finished)) fun _ => .pure (Nat.le_refl _))
      simp [toSend]
  · exact .fail _
  · exact .panic

end Scram

namespace Gssapi

variable {lib : Lib}

/-- The tokens not yet sent, if each token of the library has at most `t` bytes, and what it wraps at most `k`. -/
def toSend (t k : Nat) : SState lib → Nat
  | .initial => t + k
  | .pending _ => t + k
  | .installed _ _ => k
  | _ => 0

theorem server_pays {t k : Nat} (ht : ∀ ctx i tok, (lib.serverStep ctx i).1 = .ok (some tok) → tok.length ≤ t)
    (hk : ∀ ctx e i b, (lib.wrap ctx e i).1 = .ok b → b.length ≤ k) (input : Option Bytes) :
    Pays wt (toSend t k) 0 (fun _ => 0) (serverStep lib env input) := by
  have h0 : ∀ n ctx l, Pays wt (toSend t k) (n + k) (fun _ => 0) (serverInstalled lib ctx l) := by
    intro n ctx l
    unfold serverInstalled
    extract_lets out
    dsimp only
    cases hw : (lib.wrap ctx false out).1 with
    | error e => exact .fail_bind
    | ok b =>
      have := hk _ _ _ _ hw
      refine Pays.pure_bind (Pays.bind (c := fun _ => 0) ((Pays.writeAll (k := 0) _).weaken (by omega) fun _ => Nat.le_refl _)
        fun _ => Pays.bind (c := fun _ => 0) ?_ fun _ => .pure (Nat.le_refl _))
      exact Pays.set (n := 0) (φ := toSend t k) (s' := SState.final _ _)
  have h : ∀ ctx, Pays wt (toSend t k) (t + k) (fun _ => 0) (serverPending lib env ctx input) := by
    intro ctx
    unfold serverPending
    refine Pays.bind (Pays.okOr _ _) fun i => ?_
    dsimp only
    cases hs : (lib.serverStep ctx i).1 with
    | error e => exact .fail_bind
    | ok tok =>
      refine Pays.pure_bind ?_
      split
      · refine Pays.bind (Pays.ask (p := .gssSecurityLayer) (c := fun _ => 0) fun _ => .pure (Nat.zero_le _)) fun _ =>
          Pays.bind (c := fun _ => t + k) ((Pays.liftGss (n := t + k) _).weaken (by split <;> omega) fun _ => Nat.le_refl _)
            fun _ => ?_
        generalize serverRestrict _ _ = acc
        split
        · exact .fail _
        · cases tok with
          | some tok =>
            have := ht _ _ _ hs
            exact Pays.bind (Pays.set (n := t) (φ := toSend t k) (s' := SState.installed _ acc)) fun _ =>
              Pays.bind (c := fun _ => 0) ((Pays.writeAll (k := 0) _).weaken (by omega) fun _ => Nat.le_refl _) fun _ =>
                .pure (Nat.le_refl _)
          | none =>
            exact ⟨(Pays.bind (Pays.set (n := t + k) (φ := toSend t k) (s' := SState.errored)) fun _ => h0 t _ acc).on⟩
      · split
        · next tok =>
          have := ht _ _ _ hs
          exact Pays.bind ((Pays.writeAll (k := 0) _).weaken (by omega) fun _ => Nat.le_refl _) fun _ =>
            .pure (Nat.le_refl _)
        · exact .fail _
  unfold serverStep
  refine Pays.take rfl fun st => ?_
  split
  · exact Pays.bind (Pays.liftGss _) fun _ => (h _).weaken (Nat.le_of_eq (Nat.zero_add _).symm) fun _ => Nat.le_refl _
  · exact (h _).weaken (Nat.le_of_eq (Nat.zero_add _).symm) fun _ => Nat.le_refl _
  · exact h0 _ _ _
  · refine Pays.bind (Pays.okOr _ _) fun _ => ?_
    dsimp only
    refine Pays.bind (Pays.liftGss _) fun _ => Pays.bind (Pays.lift _) fun _ => ?_
    split
    · exact Pays.bind (Pays.set (n := 0) (φ := toSend t k) (s' := SState.done _)) fun _ => .pure (Nat.le_refl _)
    · exact .fail _
  · exact .fail _
  · exact .fail _

end Gssapi

/-! ## C113: whole sessions -/

theorem cheap_zero {wt : Event → Nat} (a : Auth) {m : Mech} {φ : m.S → Nat} (h : ∀ env input,
    Pays wt φ (input.getD []).length (fun _ => 0) (m.step env input)) : Cheap m wt φ (again a) := Pays.cheap h

/-- In any session with any client a server sends no more than it was sent, what its application told it to say, and a fixed
number of bytes. GSSAPI sends what its library has it send. -/
theorem C113_bounded (deps : Deps) (a : Auth) (ha : a ≠ .gssapi) (srv : Started) (h : a.startServer deps = some srv)
    (rng : Nat → Nat) (env : Env) (calls : List Call) :
    totalOut ((srv.session rng).run srv.mech env calls).1 ≤
      allowance deps a + totalIn calls + answersSize deps.json ((srv.session rng).run srv.mech env calls).2.log +
        inVain a ((srv.session rng).run srv.mech env calls).1 := by
  have key : ∀ (φ : srv.mech.S → Nat), Cheap srv.mech (answerSize deps.json) φ (again a) → φ srv.init = allowance deps a →
      totalOut ((srv.session rng).run srv.mech env calls).1 ≤
      allowance deps a + totalIn calls + answersSize deps.json ((srv.session rng).run srv.mech env calls).2.log +
        inVain a ((srv.session rng).run srv.mech env calls).1 := by
    intro φ hc h0
    have := hc.run env calls (srv.session rng)
    have hl : (srv.session rng).log = [] := rfl
    have hs : (srv.session rng).st = srv.init := rfl
    rw [hl, hs, h0] at this
    simp only [totalOut, totalIn, answersSize, inVain, weigh] at this ⊢
    simp only [List.map_nil, List.sum_nil] at this
    omega
  cases a <;> cases h
  case gssapi => exact absurd rfl ha
  case plain => exact key (fun _ => 0) (cheap_zero _ fun env i => Plain.server_pays _ i) rfl
  case login => exact key Login.toSend Login.server_cheap rfl
  case external => exact key (fun _ => 0) (cheap_zero _ fun env i => External.server_pays i) rfl
  case anonymous => exact key (fun _ => 0) (cheap_zero _ fun env i => Anonymous.server_pays i) rfl
  case xoauth2 => exact key (fun _ => 0) (cheap_zero _ fun env i => XOAuth2.server_pays _ i) rfl
  case oauthbearer => exact key (fun _ => 0) (cheap_zero _ fun env i => OAuthBearer.server_pays _ i) rfl
  case scramServer =>
    exact key (Scram.toSend (deps.digest _)) (cheap_zero _ fun env i => Scram.server_pays _ _ i) rfl
  case scramServerPlus =>
    exact key (Scram.toSend (deps.digest _)) (cheap_zero _ fun env i => Scram.server_pays _ _ i) rfl

/-- GSSAPI sends one token of its library and one wrapped message. -/
theorem C113_gssapi (lib : Gssapi.Lib) {t k : Nat}
    (ht : ∀ ctx i tok, (lib.serverStep ctx i).1 = .ok (some tok) → tok.length ≤ t)
    (hk : ∀ ctx e i b, (lib.wrap ctx e i).1 = .ok b → b.length ≤ k) (rng : Nat → Nat) (env : Env) (calls : List Call) :
    totalOut ((⟨Gssapi.server lib, .initial⟩ : Started).session rng |>.run (Gssapi.server lib) env calls).1 ≤ t + k := by
  have hc : ∀ env i s w, ((Gssapi.server lib).step env i s w).2.2.wr.out.length +
      Gssapi.toSend t k ((Gssapi.server lib).step env i s w).2.1 ≤ w.wr.out.length + Gssapi.toSend t k s := by
    intro env i s w
    have := (Gssapi.server_pays (wt := fun _ => 0) (env := env) ht hk i).on s w
    have hz : ∀ l, weigh (fun _ => 0) l = 0 := by intro l; induction l <;> simp_all
    simp only [hz] at this
    show (Gssapi.serverStep lib env i s w).2.2.wr.out.length + Gssapi.toSend t k (Gssapi.serverStep lib env i s w).2.1 ≤ _
    omega
  have : ∀ ses : Session (Gssapi.server lib).S, totalOut (ses.run (Gssapi.server lib) env calls).1 ≤ Gssapi.toSend t k ses.st := by
    induction calls with
    | nil => intro ses; exact Nat.zero_le _
    | cons c cs ih =>
      intro ses
      have h1 := ih (ses.step (Gssapi.server lib) env c).2
      have h2 := hc env c.input ses.st ⟨⟨[], c.sched⟩, ses.rng, ses.slot, ses.log⟩
      rcases hm : (Gssapi.server lib).step env c.input ses.st ⟨⟨[], c.sched⟩, ses.rng, ses.slot, ses.log⟩ with ⟨o, s', w'⟩
      rw [hm] at h2
      rw [run_cons]
      rw [step_of hm] at h1 ⊢
      simp only [totalOut, List.map_cons, List.sum_cons, List.length_nil] at *
      omega
  exact this _

/-! ## The bounds are met -/

/-- For a user who is not known SCRAM answers a short message with 73 bytes more. -/
example : ((⟨Scram.server toyDigest, Scram.serverNew false⟩ : Started).session (fun _ => 0) |>.run (Scram.server toyDigest)
    (exampleEnv []) [⟨some (b!"n,,n=,r="), []⟩]).1.map (fun r => r.out.length) = [8 + 73] := by
  decide +kernel

/-- A token is refused with a long text. -/
example : totalOut ((⟨XOAuth2.server, .initial⟩ : Started).session (fun _ => 0) |>.run XOAuth2.server
    (exampleEnv [⟨.xoauth2Validate, .error (c!"a long text why not")⟩])
    [⟨some (b!"user=u\x01auth=Bearer t\x01\x01"), []⟩]).1 = 19 := by
  decide +kernel

/-- LOGIN writes its two prompts. -/
example : totalOut ((⟨Login.server, .new⟩ : Started).session (fun _ => 0) |>.run Login.server (exampleEnv [])
    [⟨none, []⟩, ⟨some (b!"u"), []⟩, ⟨some (b!"p"), []⟩]).1 = 19 := by
  decide +kernel

/-- A library whose wrapped messages have four bytes. -/
example : totalOut ((⟨Gssapi.server { toyGss with wrap := fun _ _ b => (.ok (b.take 4), ()) }, .initial⟩ : Started).session
    (fun _ => 0) |>.run (Gssapi.server { toyGss with wrap := fun _ _ b => (.ok (b.take 4), ()) }) (exampleEnv [])
    [⟨some [], []⟩, ⟨some [1, 0, 0, 0], []⟩, ⟨some [], []⟩]).1 ≤ 0 + 4 := by
  refine C113_gssapi _ ?_ ?_ _ _ _
  · intro ctx i tok h
    cases h
  · intro ctx e i b h
    cases h
    exact List.length_take_le _ _

/-- The last term of `C113_bounded` is needed: whoever tries again after a failure has LOGIN write its prompt again, though
nothing was sent to it. -/
theorem C113_login_again (n : Nat) (rng : Nat → Nat) (env : Env) :
    totalOut ((⟨Login.server, .new⟩ : Started).session rng |>.run Login.server env
      (List.replicate n ⟨none, [.accept 9, .fail (.other 5)]⟩)).1 = 9 * n := by
  induction n with
  | zero => rfl
  | succ n ih =>
    rw [List.replicate_succ, run_cons]
    have h : Session.step Login.server env ((⟨Login.server, .new⟩ : Started).session rng)
        ⟨none, [.accept 9, .fail (.other 5)]⟩ =
        (⟨.err (.io (.other 5)), b!"User Name"⟩, (⟨Login.server, .new⟩ : Started).session rng) := rfl
    have e : ((⟨Login.server, .new⟩ : Started).session rng).step Login.server env
        ⟨none, [.accept 9, .fail (.other 5)]⟩ = _ := h
    simp only [totalOut, List.map_cons, List.sum_cons] at ih ⊢
    erw [e]
    have : (b!"User Name").length = 9 := rfl
    simp only [this]
    exact (congrArg (9 + ·) ih).trans (by omega)

end Rsasl

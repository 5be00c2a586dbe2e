/-
C10 LOGIN, C11 EXTERNAL and ANONYMOUS.
-/
import Verif.Model.Mech.Simple
import Verif.Proofs.Bytes
import Verif.Proofs.Exec
import Verif.Proofs.Validate

namespace Rsasl

/-! ## C10 -/

/-- What a LOGIN server offers to validate. -/
def Spec.loginOffer (authid : Str) (password : Bytes) : (p : Property) → Option p.Value
  | .authId => some authid
  | .password => some password
  | _ => none

/-- C10: client and server connected to each other exchange prompt, user name, prompt, password;
then the server calls validate once, offering exactly the client's values. -/
theorem C10_exchange (cenv senv : Env) (authid : Str) (password : Bytes)
    (ha : cenv.Gives .authId authid) (hp : cenv.Gives .password password)
    (client : Session Login.CState) (server : Session Login.SState)
    (hc : client.st = .authid) (hs : server.st = .new)
    (in₁ in₂ in₃ : Option Bytes) (w₁ w₂ w₃ w₄ w₅ : List WResp) (h₁ : Patient w₁) (h₂ : Patient w₂)
    (h₃ : Patient w₃) (h₄ : Patient w₄) :
    let s₁ := server.step Login.server senv ⟨in₁, w₁⟩
    let c₁ := client.step Login.client cenv ⟨in₂, w₂⟩
    let s₂ := s₁.2.step Login.server senv ⟨some c₁.1.out, w₃⟩
    let c₂ := c₁.2.step Login.client cenv ⟨in₃, w₄⟩
    let s₃ := s₂.2.step Login.server senv ⟨some c₂.1.out, w₅⟩
    (s₁.1.res = .ok .running ∧ s₁.1.out = b!"User Name\x00") ∧
    (c₁.1.res = .ok .running ∧ c₁.1.out = Str.bytes authid) ∧
    (s₂.1.res = .ok .running ∧ s₂.1.out = b!"Password\x00") ∧
    (c₂.1.res = .ok (.finished .yes) ∧ c₂.1.out = password) ∧
    s₂.2.log = server.log ∧ s₂.2.slot = server.slot ∧
    ∃ ctx : Provider, ctx.Exactly (Spec.loginOffer authid password) ∧
      EndsValidated senv s₂.2 ctx (.finished .no) [] s₃ ∧
      (s₃.1.res = .ok (.finished .no) → s₃.2.st = .done) ∧ c₂.2.st = .done := by
  have hC := patient_closed
  have d1 : Does Patient (Login.serverStep senv in₁) server.st .running .waitingForUsername
      Login.userPrompt := by
    unfold Login.serverStep
    rw [hs]
    refine Does.bind' hC (Does.get _ _) (o₂ := Login.userPrompt) ?_ rfl
    exact Does.bind' hC (Does.writeAll _ _) (Does.bind hC (Does.set _ _ _) (Does.pure _ _ _))
      (by simp)
  have e1 : ∀ sched, Patient sched → server.exec (Login.serverStep senv in₁) sched =
      (⟨.ok .running, Login.userPrompt⟩, { server with st := .waitingForUsername }) := by
    intro sched hsc
    unfold Session.exec Login.serverStep
    rw [hs]
    obtain ⟨sc, _, h⟩ := M.writeAll_patient (S := Login.SState) Login.userPrompt .new
      ⟨⟨[], sched⟩, server.rng, server.slot, server.log⟩ hsc
    rw [M.bind_ok (M.get_apply ..)]
    simp only
    rw [M.bind_ok h]
    rfl
  have d2 : Does Patient (Login.clientStep cenv in₂) client.st .running .password
      (Str.bytes authid) := by
    unfold Login.clientStep
    rw [hc]
    refine Does.bind' hC (Does.get _ _) (o₂ := Str.bytes authid) ?_ rfl
    exact Does.bind' hC (Does.need ha _ (Does.writeAll _ _)) (Does.bind hC (Does.set _ _ _)
      (Does.pure _ _ _)) (by simp)
  have d4 : Does Patient (Login.clientStep cenv in₃) .password (.finished .yes) .done
      password := by
    unfold Login.clientStep
    refine Does.bind' hC (Does.get _ _) (o₂ := password) ?_ rfl
    exact Does.bind' hC (Does.need hp _ (Does.writeAll _ _)) (Does.bind hC (Does.set _ _ _)
      (Does.pure _ _ _)) (by simp)
  have e1 : server.step Login.server senv ⟨in₁, w₁⟩ = _ := e1 w₁ h₁
  obtain ⟨ces, _, e2⟩ := d2.exec (ses := client) h₂
  have e2 : client.step Login.client cenv ⟨in₂, w₂⟩ = _ := e2
  have e3 : Session.step Login.server senv { server with st := Login.SState.waitingForUsername }
      ⟨some (Str.bytes authid), w₃⟩ = (⟨.ok .running, Login.passwordPrompt⟩,
        { server with st := .waitingForPassword authid }) := by
    unfold Session.step Session.exec
    simp only [Login.server]
    unfold Login.serverStep
    obtain ⟨sc, _, h⟩ := M.writeAll_patient (S := Login.SState) Login.passwordPrompt
      .waitingForUsername ⟨⟨[], w₃⟩, server.rng, server.slot, server.log⟩ h₃
    rw [M.bind_ok (M.get_apply ..)]
    simp only [fromUtf8_bytes]
    rw [M.bind_ok (M.okOr_some ..), M.bind_ok h]
    rfl
  obtain ⟨ces', _, e4⟩ := Does.exec (ses := { client with st := Login.CState.password, log := client.log ++ ces })
    d4 h₄
  have e4 : Session.step Login.client cenv
    { client with st := Login.CState.password, log := client.log ++ ces } ⟨in₃, w₄⟩ = _ := e4
  have e5 := endsValidated (env := senv) (ses := { server with st := .waitingForPassword authid })
    (ctx := Login.provider authid password) (st := .finished .no) (s' := .done)
    (m := Login.serverStep senv (some password)) (sched := w₅) (sched' := w₅)
    (by intro w hw; subst hw; rfl)
  simp only [e1, e2]
  erw [e3, e4]
  refine ⟨⟨trivial, rfl⟩, ⟨trivial, trivial⟩, ⟨rfl, rfl⟩, ⟨rfl, rfl⟩, rfl, rfl, _, ?_,
    e5.1, e5.2.1, rfl⟩
  intro p
  cases p <;> rfl

/-- C10: once finished, either side answers every further step with `MechanismDone` and changes
nothing. -/
theorem C10_done (env : Env) (client : Session Login.CState) (server : Session Login.SState)
    (hc : client.st = .done) (hs : server.st = .done) (c : Call) :
    client.step Login.client env c = (⟨.err .mechanismDone, []⟩, client) ∧
    server.step Login.server env c = (⟨.err .mechanismDone, []⟩, server) := by
  obtain ⟨_, _, _, _⟩ := client
  obtain ⟨_, _, _, _⟩ := server
  simp only at hc hs
  subst hc hs
  exact ⟨rfl, rfl⟩

/-- C10: strict sequence. Whatever is sent, a server session runs at most its three steps before
it is done: every successful step moves forward, and an unsuccessful one stays. -/
theorem C10_sequence (env : Env) (server : Session Login.SState) (c : Call) (st : State)
    (h : (server.step Login.server env c).1.res = .ok st) :
    (server.st = .new ∧ (server.step Login.server env c).2.st = .waitingForUsername ∧
      st = .running) ∨
    (∃ u, server.st = .waitingForUsername ∧
      (server.step Login.server env c).2.st = .waitingForPassword u ∧
      c.input = some (Str.bytes u) ∧ st = .running) ∨
    (∃ u, server.st = .waitingForPassword u ∧ (server.step Login.server env c).2.st = .done ∧
      st = .finished .no) := by
  unfold Session.step Session.exec at h ⊢
  simp only [Login.server] at h ⊢
  rcases hr : Login.serverStep env c.input server.st
    ⟨⟨[], c.sched⟩, server.rng, server.slot, server.log⟩ with ⟨o, st', w'⟩
  rw [hr] at h
  simp only at h ⊢
  subst h
  unfold Login.serverStep at hr
  rw [M.bind_ok (M.get_apply ..)] at hr
  cases hst : server.st with
  | new =>
    rw [hst] at hr
    obtain ⟨_, _, _, h1, hr⟩ := M.bind_eq_ok hr
    obtain ⟨_, _, _, h2, hr⟩ := M.bind_eq_ok hr
    cases h2
    cases hr
    exact .inl ⟨rfl, rfl, rfl⟩
  | waitingForUsername =>
    rw [hst] at hr
    cases hi : c.input with
    | none => rw [hi] at hr; cases hr
    | some input =>
      rw [hi] at hr
      obtain ⟨u, _, _, h1, hr⟩ := M.bind_eq_ok hr
      obtain ⟨_, _, _, h2, hr⟩ := M.bind_eq_ok hr
      obtain ⟨_, _, _, h3, hr⟩ := M.bind_eq_ok hr
      cases h3
      cases hr
      cases hu : fromUtf8 input with
      | none => rw [hu] at h1; cases h1
      | some u' =>
        rw [hu] at h1
        cases h1
        exact .inr (.inl ⟨_, rfl, rfl, by rw [bytes_of_fromUtf8 _ _ hu], rfl⟩)
  | waitingForPassword u =>
    rw [hst] at hr
    cases hi : c.input with
    | none => rw [hi] at hr; cases hr
    | some input =>
      rw [hi] at hr
      obtain ⟨_, _, _, h1, hr⟩ := M.bind_eq_ok hr
      obtain ⟨_, _, _, h2, hr⟩ := M.bind_eq_ok hr
      cases h2
      cases hr
      exact .inr (.inr ⟨u, rfl, rfl, rfl⟩)
  | done => rw [hst] at hr; cases hr

/-- The credentials callback of the crate's tests meets the hypotheses of `C10_exchange`. -/
example : let cenv : Env := ⟨fun _ _ _ => answerAll [⟨.authId, c!"testuser"⟩, ⟨.password, b!"secret"⟩],
      fun _ _ _ => .ret (.ok ()), fun _ => none, 0, ⟨⟨b!"LOGIN", 200, .server⟩, .client⟩⟩
    cenv.Gives .authId (c!"testuser") ∧ cenv.Gives .password (b!"secret") :=
  ⟨fun _ _ => answers_answerAll _ [] _ rfl (by simp), fun _ _ =>
    answers_answerAll _ [⟨.authId, _⟩] [] rfl (by simp)⟩

/-! ## C11 -/

/-- Only `p` is offered, with value `v`. -/
def Spec.only (p : Property) (v : p.Value) (q : Property) : Option q.Value :=
  if h : p = q then some (h ▸ v) else none

theorem this_exactly (p : Property) (v : p.Value) :
    (Provider.this ⟨p, v⟩).Exactly (Spec.only p v) := by
  intro q
  by_cases h : p = q
  · subst h
    simp [Provider.getRef, Provider.provide, demandProvide, Spec.only]
  · simp [Provider.getRef, Provider.provide, demandProvide, Spec.only, h]

/-- C11, EXTERNAL: the authorization id of the client (empty if none) is what the server offers. -/
theorem C11_external (cenv senv : Env) (authzid : Option Str) (hz : cenv.Offers .authzId authzid)
    (client server : Session Unit) (input : Option Bytes) (sched sched' : List WResp)
    (hs : Patient sched) :
    let r := client.step External.client cenv ⟨input, sched⟩
    r.1.res = .ok (.finished .yes) ∧
    ∃ ctx : Provider, ctx.Exactly (Spec.only .authzId (authzid.getD [])) ∧
      EndsValidated senv server ctx (.finished .no) []
        (server.step External.server senv ⟨some r.1.out, sched'⟩) := by
  have hC := patient_closed
  have hd : Does Patient (External.clientStep cenv input) client.st (.finished .yes) ()
      (Str.bytes (authzid.getD [])) := by
    unfold External.clientStep
    cases authzid with
    | none => exact Does.bind' hC (Does.maybeNeed_none hz _ _ _) (Does.pure _ _ _) rfl
    | some z =>
      exact Does.bind' hC (Does.maybeNeed_some hz _ (Does.writeAll _ _)) (Does.pure _ _ _)
        (by simp)
  obtain ⟨es, _, he⟩ := hd.exec hs
  have he : client.step External.client cenv ⟨input, sched⟩ = _ := he
  simp only [he]
  refine ⟨trivial, _, this_exactly _ _, (endsValidated (s' := ()) (sched' := sched') ?_).1⟩
  intro w _
  show External.serverStep senv (some (Str.bytes (authzid.getD []))) _ _ = _
  unfold External.serverStep External.orEmpty
  rw [fromUtf8_bytes, M.bind_ok (M.okOr_some ..)]
  subst w
  rfl

/-- C11, EXTERNAL: what the server does with any input; an absent one is the empty string. -/
theorem C11_external_server (env : Env) (server : Session Unit) (c : Call) :
    (∃ authzid : Str, c.input.getD [] = Str.bytes authzid ∧
      ∃ ctx : Provider, ctx.Exactly (Spec.only .authzId authzid) ∧
        EndsValidated env server ctx (.finished .no) [] (server.step External.server env c)) ∨
    ((∀ authzid, c.input.getD [] ≠ Str.bytes authzid) ∧
      server.step External.server env c = (⟨.err (.mechanismError .externalUtf8), []⟩, server)) := by
  have ho : External.orEmpty c.input = c.input.getD [] := by cases c.input <;> rfl
  cases hf : fromUtf8 (c.input.getD []) with
  | some z =>
    refine .inl ⟨z, (bytes_of_fromUtf8 _ _ hf).symm, _, this_exactly _ _,
      (endsValidated (s' := ()) (sched' := c.sched) ?_).1⟩
    intro w _
    show External.serverStep env c.input _ _ = _
    unfold External.serverStep
    rw [ho, hf, M.bind_ok (M.okOr_some ..)]
    subst w
    rfl
  | none =>
    refine .inr ⟨fun z hz => ?_, ?_⟩
    · rw [hz, fromUtf8_bytes] at hf; cases hf
    · unfold Session.step Session.exec
      simp only [External.server]
      unfold External.serverStep
      rw [ho, hf]
      rfl

/-- C11, ANONYMOUS: the token of the client (empty if none) is what the server offers. -/
theorem C11_anonymous (cenv senv : Env) (token : Option Str)
    (hz : cenv.Offers .anonymousToken token)
    (client server : Session Unit) (input : Option Bytes) (sched sched' : List WResp)
    (hs : Patient sched) :
    let r := client.step Anonymous.client cenv ⟨input, sched⟩
    r.1.res = .ok (.finished .yes) ∧
    ∃ ctx : Provider, ctx.Exactly (Spec.only .anonymousToken (token.getD [])) ∧
      EndsValidated senv server ctx (.finished .no) []
        (server.step Anonymous.server senv ⟨some r.1.out, sched'⟩) := by
  have hC := patient_closed
  have hd : Does Patient (Anonymous.clientStep cenv input) client.st (.finished .yes) ()
      (Str.bytes (token.getD [])) := by
    unfold Anonymous.clientStep
    cases token with
    | none => exact Does.bind' hC (Does.maybeNeed_none hz _ _ _) (Does.pure _ _ _) rfl
    | some z =>
      exact Does.bind' hC (Does.maybeNeed_some hz _ (Does.writeAll _ _)) (Does.pure _ _ _)
        (by simp)
  obtain ⟨es, _, he⟩ := hd.exec hs
  have he : client.step Anonymous.client cenv ⟨input, sched⟩ = _ := he
  simp only [he]
  refine ⟨trivial, _, this_exactly _ _, (endsValidated (s' := ()) (sched' := sched') ?_).1⟩
  intro w _
  show Anonymous.serverStep senv (some (Str.bytes (token.getD []))) _ _ = _
  unfold Anonymous.serverStep External.orEmpty
  rw [fromUtf8_bytes, M.bind_ok (M.okOr_some ..)]
  subst w
  rfl

/-- C11, ANONYMOUS: what the server does with any input. -/
theorem C11_anonymous_server (env : Env) (server : Session Unit) (c : Call) :
    (∃ token : Str, c.input.getD [] = Str.bytes token ∧
      ∃ ctx : Provider, ctx.Exactly (Spec.only .anonymousToken token) ∧
        EndsValidated env server ctx (.finished .no) [] (server.step Anonymous.server env c)) ∨
    ((∀ token, c.input.getD [] ≠ Str.bytes token) ∧
      server.step Anonymous.server env c =
        (⟨.err (.mechanismError .anonymousUtf8), []⟩, server)) := by
  have ho : External.orEmpty c.input = c.input.getD [] := by cases c.input <;> rfl
  cases hf : fromUtf8 (c.input.getD []) with
  | some z =>
    refine .inl ⟨z, (bytes_of_fromUtf8 _ _ hf).symm, _, this_exactly _ _,
      (endsValidated (s' := ()) (sched' := c.sched) ?_).1⟩
    intro w _
    show Anonymous.serverStep env c.input _ _ = _
    unfold Anonymous.serverStep
    rw [ho, hf, M.bind_ok (M.okOr_some ..)]
    subst w
    rfl
  | none =>
    refine .inr ⟨fun z hz => ?_, ?_⟩
    · rw [hz, fromUtf8_bytes] at hf; cases hf
    · unfold Session.step Session.exec
      simp only [Anonymous.server]
      unfold Anonymous.serverStep
      rw [ho, hf]
      rfl

example : (⟨fun _ _ _ => answerAll [⟨.anonymousToken, c!"sirhc"⟩], fun _ _ _ => .ret (.ok ()),
    fun _ => none, 0, ⟨⟨b!"ANONYMOUS", 100, .client⟩, .client⟩⟩ : Env).Offers .anonymousToken
      (some (c!"sirhc")) :=
  fun _ _ => answers_answerAll _ [] _ rfl (by simp)

end Rsasl

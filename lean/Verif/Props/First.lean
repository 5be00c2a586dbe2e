/-
C23 and C48: `step64`, and which side may step first.
-/
import Verif.Proofs.Run
import Verif.Proofs.Base64
import Verif.Props.Selection
import Verif.Props.Basics
import Verif.Spec.Examples

namespace Rsasl

/-! ## C23 -/

theorem Spec.Base64.unique {b t₁ t₂ : Bytes} (h₁ : Spec.Base64 b t₁) (h₂ : Spec.Base64 b t₂) :
    t₁ = t₂ := by
  induction h₁ generalizing t₂ with
  | nil => cases h₂; rfl
  | one a s0 s1 h0 h1 =>
    cases h₂ with
    | one _ s0' s1' h0' h1' =>
      rw [h0] at h0'; rw [h1] at h1'
      cases h0'; cases h1'; rfl
  | two a b s0 s1 s2 h0 h1 h2 =>
    cases h₂ with
    | two _ _ s0' s1' s2' h0' h1' h2' =>
      rw [h0] at h0'; rw [h1] at h1'; rw [h2] at h2'
      cases h0'; cases h1'; cases h2'; rfl
  | group a b c s0 s1 s2 s3 rest text h0 h1 h2 h3 hrest ih =>
    cases h₂ with
    | group _ _ _ s0' s1' s2' s3' _ text' h0' h1' h2' h3' hrest' =>
      rw [h0] at h0'; rw [h1] at h1'; rw [h2] at h2'; rw [h3] at h3'
      cases h0'; cases h1'; cases h2'; cases h3'
      rw [ih hrest']

/-- C23: on the base64 encoding (RFC 4648) of some bytes, `step64` does what `step` does on the
bytes; the output is the base64 encoding of the output of `step`. -/
theorem C23_step64 (m : Mech) (env : Env) (ses : Session m.S) (text bytes : Bytes)
    (sched : List WResp) (h : Spec.Base64 bytes text) :
    (ses.step64 m env ⟨some text, sched⟩).1.res = (ses.step m env ⟨some bytes, sched⟩).1.res ∧
    Spec.Base64 (ses.step m env ⟨some bytes, sched⟩).1.out
      (ses.step64 m env ⟨some text, sched⟩).1.out ∧
    (ses.step64 m env ⟨some text, sched⟩).2 = (ses.step m env ⟨some bytes, sched⟩).2 := by
  have h : text = Base64.encode bytes := (Spec.Base64.unique h (C24_rfc4648 bytes))
  subst h
  have e : ses.step64 m env ⟨some (Base64.encode bytes), sched⟩ =
      (⟨(ses.step m env ⟨some bytes, sched⟩).1.res,
        Base64.encode (ses.step m env ⟨some bytes, sched⟩).1.out⟩,
        (ses.step m env ⟨some bytes, sched⟩).2) := by
    simp only [Session.step64, Base64.decode_encode]
  rw [e]
  exact ⟨rfl, C24_rfc4648 _, rfl⟩

/-- C23: the same without input. -/
theorem C23_step64_none (m : Mech) (env : Env) (ses : Session m.S) (sched : List WResp) :
    (ses.step64 m env ⟨none, sched⟩).1.res = (ses.step m env ⟨none, sched⟩).1.res ∧
    Spec.Base64 (ses.step m env ⟨none, sched⟩).1.out (ses.step64 m env ⟨none, sched⟩).1.out ∧
    (ses.step64 m env ⟨none, sched⟩).2 = (ses.step m env ⟨none, sched⟩).2 :=
  ⟨rfl, C24_rfc4648 _, rfl⟩

/-- C23: anything that is not the encoding of some bytes is refused; the session is as before
and nothing is written. -/
theorem C23_refused (m : Mech) (env : Env) (ses : Session m.S) (text : Bytes)
    (sched : List WResp) (h : ¬ ∃ bytes, Spec.Base64 bytes text) :
    ses.step64 m env ⟨some text, sched⟩ = (⟨.err .base64, []⟩, ses) := by
  have : Base64.decode text = none := by
    cases hd : Base64.decode text with
    | none => rfl
    | some b => exact absurd ⟨b, C24_canonical _ _ hd ▸ C24_rfc4648 b⟩ h
  simp only [Session.step64, this]

/-- An accepted and a refused text. -/
example : Spec.Base64 (b!"hi") (b!"aGk=") ∧ ¬ ∃ bytes, Spec.Base64 bytes (b!"aGl=") := by
  refine ⟨C24_rfc4648 (b!"hi"), ?_⟩
  rintro ⟨b, hb⟩
  have hb : b!"aGl=" = Base64.encode b := Spec.Base64.unique hb (C24_rfc4648 b)
  have hd : Base64.decode (b!"aGl=") = none := by decide
  rw [hb, Base64.decode_encode] at hd
  cases hd

/-! ## C48 -/

theorem first_step_no_need {m : Mech} {rank count : m.S → Nat} {fin : Nat → Prop}
    {needs : m.S → Prop} {pan : Prop} (h : Tame m rank count fin needs pan) (init : m.S)
    (hn : ¬ needs init) {env : Env} (henv : Spec.NoInventedIDR env) (rng : Nat → Nat)
    (sched : List WResp) :
    (((⟨m, init⟩ : Started).session rng).step m env ⟨none, sched⟩).1.res ≠
      .err .inputDataRequired := by
  intro he
  rcases (h.step std_ne henv _ ⟨none, sched⟩).err _ he with hne | ⟨_, _, hn'⟩
  · exact hne rfl
  · exact hn hn'

/-- C48, client side: the first step of a client never asks for input (not even if the server
is the one who goes first). -/
theorem C48_client (deps : Deps) (st : Started) (hst : Spec.BuiltinClient deps st) (env : Env)
    (henv : Spec.NoInventedIDR env) (rng : Nat → Nat) (sched : List WResp) :
    ((st.session rng).step st.mech env ⟨none, sched⟩).1.res ≠ .err .inputDataRequired := by
  obtain ⟨a, hst⟩ := hst
  cases a with
  | plain => cases hst; exact first_step_no_need Plain.client_tame _ (fun h => h) henv rng sched
  | login => cases hst; exact first_step_no_need Login.client_tame _ (fun h => h) henv rng sched
  | external =>
    cases hst; exact first_step_no_need External.client_tame _ (fun h => h) henv rng sched
  | anonymous =>
    cases hst; exact first_step_no_need Anonymous.client_tame _ (fun h => h) henv rng sched
  | xoauth2 =>
    cases hst; exact first_step_no_need XOAuth2.client_tame _ (fun h => h) henv rng sched
  | oauthbearer =>
    cases hst; exact first_step_no_need (OAuthBearer.client_tame _) _ (fun h => h) henv rng sched
  | gssapi =>
    cases hst
    intro he
    rcases ((Gssapi.clientStep_post std_ne henv none (.initial : Gssapi.CState deps.gss)
      (validations [])).exec (ses := (⟨Gssapi.client deps.gss, .initial⟩ : Started).session rng)
        sched).err _ he with hne | ⟨_, _, hn'⟩
    · exact hne rfl
    · exact hn'
  | scramClient x b =>
    cases hst
    refine first_step_no_need (Scram.client_tame _) _ (fun h => ?_) henv rng sched
    exact h
  | scramClientPlus x =>
    cases hst
    refine first_step_no_need (Scram.client_tame _) _ (fun h => ?_) henv rng sched
    exact h
  | scramServer x b => cases hst
  | scramServerPlus x => cases hst
  | custom n => cases hst

/-- The mechanism and implementation of a server session belong together. -/
theorem serverStart_ok {c : Config} (hc : ∀ m ∈ c.mechs, m ∈ Spec.crateMechs) {selected : Bytes}
    {a : Auth} {m : Mechanism} (h : c.serverStart selected = .ok (a, m)) :
    (a = .login ↔ m.first = .server) := by
  unfold Config.serverStart at h
  split at h
  · cases h
  · next mech hf =>
    have hm : mech ∈ c.mechs := (List.mem_filter.1 (List.mem_of_find?_eq_some hf)).1
    have := hc mech hm
    simp only [Spec.crateMechs, builtinMechs, List.cons_append, List.nil_append, List.mem_cons,
      List.not_mem_nil, or_false] at this
    rcases this with rfl | rfl | rfl | rfl | rfl | rfl | rfl | rfl | rfl | rfl | rfl | rfl | rfl <;>
      (cases h; constructor <;> intro h' <;> first | rfl | cases h')

/-- C48, server side: a server told to go first can. -/
theorem C48_server_first (deps : Deps) (c : Config) (hc : ∀ m ∈ c.mechs, m ∈ Spec.crateMechs)
    (selected : Bytes) (a : Auth) (m : Mechanism) (h : c.serverStart selected = .ok (a, m))
    (st : Started) (hst : a.startServer deps = some st) (env : Env)
    (hsd : env.sd.mech = m.desc ∧ env.sd.side = .server) (henv : Spec.NoInventedIDR env)
    (hfirst : env.areWeFirst = true) (rng : Nat → Nat) (sched : List WResp) :
    ((st.session rng).step st.mech env ⟨none, sched⟩).1.res ≠ .err .inputDataRequired := by
  have hm : m.first = .server := by
    simp only [Env.areWeFirst, hsd.1, hsd.2, Mechanism.desc, beq_iff_eq] at hfirst
    exact hfirst.symm
  have ha := (serverStart_ok hc h).2 hm
  subst ha
  cases hst
  refine first_step_no_need Login.server_tame _ (fun h => ?_) henv rng sched
  exact h

/-- C48, server side: a server told to wait refuses a first step without input, or takes it for
an empty message; it never reports `Running`. -/
theorem C48_server_second (deps : Deps) (c : Config) (hc : ∀ m ∈ c.mechs, m ∈ Spec.crateMechs)
    (selected : Bytes) (a : Auth) (m : Mechanism) (h : c.serverStart selected = .ok (a, m))
    (st : Started) (hst : a.startServer deps = some st) (env : Env)
    (hsd : env.sd.mech = m.desc ∧ env.sd.side = .server)
    (hfirst : env.areWeFirst = false) (rng : Nat → Nat) (sched : List WResp) :
    (((st.session rng).step st.mech env ⟨none, sched⟩).1.res = .err .inputDataRequired ∨
      (st.session rng).step st.mech env ⟨none, sched⟩ =
        (st.session rng).step st.mech env ⟨some [], sched⟩) ∧
    ((st.session rng).step st.mech env ⟨none, sched⟩).1.res ≠ .ok .running := by
  have hm : m.first ≠ .server := by
    simp only [Env.areWeFirst, hsd.1, hsd.2, Mechanism.desc, beq_eq_false_iff_ne] at hfirst
    exact fun h => hfirst h.symm
  have ha : a ≠ .login := fun h' => hm ((serverStart_ok hc h).1 h')
  cases a with
  | plain => cases hst; exact ⟨.inl rfl, nofun⟩
  | login => exact absurd rfl ha
  | external =>
    cases hst
    refine ⟨.inr rfl, fun h => ?_⟩
    exact absurd ((External.server_tame.step std_true env.errs_true _ _).running h).1
      (Nat.not_lt_zero _)
  | anonymous =>
    cases hst
    refine ⟨.inr rfl, fun h => ?_⟩
    exact absurd ((Anonymous.server_tame.step std_true env.errs_true _ _).running h).1
      (Nat.not_lt_zero _)
  | xoauth2 => cases hst; exact ⟨.inl rfl, nofun⟩
  | oauthbearer => cases hst; exact ⟨.inl rfl, nofun⟩
  | gssapi =>
    cases hst
    have e : ∀ input, ((⟨Gssapi.server deps.gss, .initial⟩ : Started).session rng).step
        (Gssapi.server deps.gss) env ⟨input, sched⟩ =
        Session.exec ⟨(.errored : Gssapi.SState deps.gss), none, rng, []⟩
          (Gssapi.liftGss deps.gss.newServer >>= fun ctx =>
            Gssapi.serverPending deps.gss env ctx input) sched := fun _ => rfl
    show (((Session.step (Gssapi.server deps.gss) env _ _).1.res = _) ∨
      Session.step (Gssapi.server deps.gss) env _ _ =
        Session.step (Gssapi.server deps.gss) env _ _) ∧
      (Session.step (Gssapi.server deps.gss) env _ _).1.res ≠ _
    rw [e, e]
    cases deps.gss.newServer with
    | ok ctx => exact ⟨.inl rfl, nofun⟩
    | error n => exact ⟨.inr rfl, nofun⟩
  | scramClient x b => cases hst
  | scramClientPlus x => cases hst
  | scramServer x b => cases hst; exact ⟨.inl rfl, nofun⟩
  | scramServerPlus x => cases hst; exact ⟨.inl rfl, nofun⟩
  | custom n => cases hst

/-- Both cases exist. -/
example : (⟨builtinMechs, false, defaultPrefer⟩ : Config).serverStart (b!"LOGIN") =
    .ok (.login, LOGIN) ∧
    (⟨builtinMechs, false, defaultPrefer⟩ : Config).serverStart (b!"EXTERNAL") =
    .ok (.external, EXTERNAL) := ⟨rfl, rfl⟩

end Rsasl

/-
C22: a step that returns `Ok` has written its whole message.
-/
import Verif.Proofs.Whole
import Verif.Spec.Examples

namespace Rsasl

variable {S α : Type}

/-! ## Specification -/

/-- A step with the given writer. -/
abbrev stepWith (st : Started) (env : Env) (ses : Session st.mech.S) (input : Option Bytes)
    (sched : List WResp) : Reply State × Session st.mech.S :=
  ses.step st.mech env ⟨input, sched⟩

/-- The full property: with any writer, a step that returns `Ok` has written and done exactly
what it does with a writer that takes everything. -/
def Spec.WritesWhole : Prop :=
  ∀ (deps : Deps) (st : Started), Spec.BuiltinServer deps st ∨ Spec.BuiltinClient deps st →
    ∀ (env : Env) (ses : Session st.mech.S) (input : Option Bytes) (sched : List WResp) (r : State),
      (stepWith st env ses input sched).1.res = .ok r →
      stepWith st env ses input sched = stepWith st env ses input []

/-- Mechanisms that write with `write_all` only. -/
def Spec.Unvectored (deps : Deps) (st : Started) : Prop :=
  (∃ a : Auth, a.isScram = false ∧ a.startServer deps = some st) ∨
  (∃ a : Auth, a ∈ [.plain, .login, .external, .anonymous, .gssapi] ∧ a.startClient deps = some st)

/-- C92, the full property: what a writer has taken of a step, whether the step succeeded or not,
is the beginning of the message a writer that takes everything gets, and the callbacks that were
contacted are the first ones of those contacted then. -/
def Spec.SendsBeginning : Prop :=
  ∀ (deps : Deps) (st : Started), Spec.BuiltinServer deps st ∨ Spec.BuiltinClient deps st →
    ∀ (env : Env) (ses : Session st.mech.S) (input : Option Bytes) (sched : List WResp),
      (stepWith st env ses input sched).1.out <+: (stepWith st env ses input []).1.out ∧
      (stepWith st env ses input sched).2.log <+: (stepWith st env ses input []).2.log

/-! ## Which writers and errors are fine -/

theorem fair_cooperative : Fair True Cooperative (fun _ => False) where
  suffix _ _ h hs := h.suffix hs
  io b s out h e he := by
    obtain ⟨sc, -, h1⟩ := Writer.writeAll_patient (w := ⟨out, s⟩) h.patient b
    rw [h1] at he; cases he
  vectored _ bs s out h := by
    obtain ⟨n, h1, h2, h3, h4, h5, h6⟩ := writeAllVectored_spec (VectoredWriter.new bs) ⟨out, s⟩
    have hr : (VectoredWriter.new bs).rest = bs.flatten := by
      simp [VectoredWriter.rest, VectoredWriter.new]
    obtain ⟨h6, h7⟩ := h6 h
    right
    rw [h6, h7, hr]
  early := id
  noValue := id

theorem fair_patient : Fair False Patient (fun _ => False) where
  suffix _ _ h hs := h.suffix hs
  io b s out h e he := by
    obtain ⟨sc, -, h1⟩ := Writer.writeAll_patient (w := ⟨out, s⟩) h b
    rw [h1] at he; cases he
  vectored h := h.elim
  early := id
  noValue := id

theorem fromWriter_io (e : IoErr) : FromWriter (.io e) ∧ FromWriter (.mechanismError .oauthSerde) :=
  ⟨.inl ⟨e, rfl⟩, .inr rfl⟩

theorem fair_neverZero : Fair True NeverZero FromWriter where
  suffix _ _ h hs := h.suffix hs
  io b s out h e he := fromWriter_io e
  vectored _ bs s out h := by
    have hr : (VectoredWriter.new bs).rest = bs.flatten := by
      simp [VectoredWriter.rest, VectoredWriter.new]
    rcases writeAllVectored_full (VectoredWriter.new bs) ⟨out, s⟩ h with h | ⟨e, h⟩
    · right; rw [h, hr]
    · left; exact ⟨e, h, .inl ⟨e, rfl⟩⟩
  early := by rintro (⟨i, h⟩ | h) <;> cases h
  noValue := by rintro (⟨i, h⟩ | h) <;> cases h

theorem fair_any : Fair False (fun _ => True) FromWriter where
  suffix _ _ h hs := h
  io b s out h e he := fromWriter_io e
  vectored h := h.elim
  early := by rintro (⟨i, h⟩ | h) <;> cases h
  noValue := by rintro (⟨i, h⟩ | h) <;> cases h

theorem handsOn_none (prog : CbProg) : prog.HandsOn (fun _ => False) := by
  induction prog with
  | ret r => trivial
  | satisfy q v k ih => exact ⟨nofun, ih⟩
  | satisfyWith q v k ih => exact ⟨nofun, ih⟩
  | getAction q k ih => exact ih
  | is q k ih => exact ih

theorem env_handsOn_none (env : Env) : env.HandsOn (fun _ => False) := fun _ _ _ => handsOn_none _

/-! ## Sessions -/

theorem Whole.exec_behind {C : List WResp → Prop} {E : SessionError → Prop} {m : M S α}
    (h : Whole C E m) (ses : Session S) {sched : List WResp} (hC : C sched) :
    (∃ e, (ses.exec m sched).1.res = .err e ∧ E e ∧
      (ses.exec m sched).1.out <+: (ses.exec m []).1.out ∧
      (ses.exec m sched).2.log <+: (ses.exec m []).2.log) ∨
    ses.exec m sched = ses.exec m [] := by
  unfold Session.exec
  rcases h ses.st ⟨⟨[], sched⟩, ses.rng, ses.slot, ses.log⟩ ⟨⟨[], []⟩, ses.rng, ses.slot, ses.log⟩
    ⟨rfl, sched, hC, rfl⟩ with ⟨e, s', w', h1, h2, h3⟩ | ⟨o, s', w', w₀', h1, h2, h0, sc, h3, rfl⟩
  · rw [h1]; exact .inl ⟨e, rfl, h2, h3.out, h3.log⟩
  · rw [h1, h2]; exact .inr rfl

theorem Whole.exec {C : List WResp → Prop} {E : SessionError → Prop} {m : M S α}
    (h : Whole C E m) (ses : Session S) {sched : List WResp} (hC : C sched) :
    (∃ e, (ses.exec m sched).1.res = .err e ∧ E e) ∨ ses.exec m sched = ses.exec m [] := by
  rcases h.exec_behind ses hC with ⟨e, h1, h2, -⟩ | h
  · exact .inl ⟨e, h1, h2⟩
  · exact .inr h

theorem unvectored_code {deps : Deps} {st : Started} (h : Spec.Unvectored deps st) (env : Env)
    (input : Option Bytes) : Code False env (st.mech.step env input) := by
  rcases h with ⟨a, ha, h⟩ | ⟨a, ha, h⟩
  · cases a <;> cases ha <;> cases h
    · exact Plain.server_code _ input
    · exact Login.server_code input
    · exact External.server_code input
    · exact Anonymous.server_code input
    · exact XOAuth2.server_code input
    · exact OAuthBearer.server_code _ input
    · exact Gssapi.server_code _ input
  · simp only [List.mem_cons, List.not_mem_nil, or_false] at ha
    rcases ha with rfl | rfl | rfl | rfl | rfl <;> cases h
    · exact Plain.client_code input
    · exact Login.client_code input
    · exact External.client_code input
    · exact Anonymous.client_code input
    · exact Gssapi.client_code _ input

/-- C22, partial: the property holds for every built-in mechanism if the writer never answers
`Ok(0)` and the callback does not swallow the error it gets when the writer fails; the result is
then the one of the perfect writer or an error of the writer. Missing: without these conditions it
is false, see `C22_zero_false` and `C22_swallow_false`. -/
theorem C22_partial {deps : Deps} {st : Started}
    (h : Spec.BuiltinServer deps st ∨ Spec.BuiltinClient deps st) (env : Env)
    (henv : env.HandsOn FromWriter) (ses : Session st.mech.S) (input : Option Bytes)
    (sched : List WResp) (hs : NeverZero sched) :
    (∃ e, (stepWith st env ses input sched).1.res = .err e ∧ FromWriter e) ∨
      stepWith st env ses input sched = stepWith st env ses input [] :=
  (((builtin_code h env).1 input).whole fair_neverZero henv).exec ses hs

/-- C22, partial: mechanisms that do not use the vectored writer cope with `Ok(0)` as well. -/
theorem C22_unvectored_partial {deps : Deps} {st : Started} (h : Spec.Unvectored deps st)
    (env : Env) (henv : env.HandsOn FromWriter) (ses : Session st.mech.S) (input : Option Bytes)
    (sched : List WResp) :
    (∃ e, (stepWith st env ses input sched).1.res = .err e ∧ FromWriter e) ∨
      stepWith st env ses input sched = stepWith st env ses input [] :=
  ((unvectored_code h env input).whole fair_any henv).exec ses trivial

/-- C22: short writes alone, however short, make no difference at all, whatever the callback
does. -/
theorem C22_short_writes {deps : Deps} {st : Started}
    (h : Spec.BuiltinServer deps st ∨ Spec.BuiltinClient deps st) (env : Env)
    (ses : Session st.mech.S) (input : Option Bytes) (sched : List WResp)
    (hs : Cooperative sched) :
    stepWith st env ses input sched = stepWith st env ses input [] := by
  rcases (((builtin_code h env).1 input).whole fair_cooperative (env_handsOn_none env)).exec ses hs
    with ⟨e, -, h⟩ | h
  · exact h.elim
  · exact h

/-- C22: nor do interruptions, for mechanisms that do not use the vectored writer. -/
theorem C22_interruptions {deps : Deps} {st : Started} (h : Spec.Unvectored deps st)
    (env : Env) (ses : Session st.mech.S) (input : Option Bytes)
    (sched : List WResp) (hs : Patient sched) :
    stepWith st env ses input sched = stepWith st env ses input [] := by
  rcases ((unvectored_code h env input).whole fair_patient (env_handsOn_none env)).exec ses hs
    with ⟨e, -, h⟩ | h
  · exact h.elim
  · exact h

/-- C92, partial: for every built-in mechanism, with any writer that never answers `Ok(0)` and any
callback that does not swallow the errors of the writer. Missing: without these conditions it is
false, see `C92_zero_false` and `C92_swallow_false`. -/
theorem C92_partial {deps : Deps} {st : Started}
    (h : Spec.BuiltinServer deps st ∨ Spec.BuiltinClient deps st) (env : Env)
    (henv : env.HandsOn FromWriter) (ses : Session st.mech.S) (input : Option Bytes)
    (sched : List WResp) (hs : NeverZero sched) :
    (stepWith st env ses input sched).1.out <+: (stepWith st env ses input []).1.out ∧
    (stepWith st env ses input sched).2.log <+: (stepWith st env ses input []).2.log := by
  rcases (((builtin_code h env).1 input).whole fair_neverZero henv).exec_behind ses hs with
    ⟨e, -, -, h⟩ | h
  · exact h
  · unfold stepWith Session.step
    rw [h]
    exact ⟨List.prefix_rfl, List.prefix_rfl⟩

/-- C92, partial: with any writer at all, for mechanisms that do not use the vectored writer. -/
theorem C92_unvectored_partial {deps : Deps} {st : Started} (h : Spec.Unvectored deps st)
    (env : Env) (henv : env.HandsOn FromWriter) (ses : Session st.mech.S) (input : Option Bytes)
    (sched : List WResp) :
    (stepWith st env ses input sched).1.out <+: (stepWith st env ses input []).1.out ∧
    (stepWith st env ses input sched).2.log <+: (stepWith st env ses input []).2.log := by
  rcases ((unvectored_code h env input).whole fair_any henv).exec_behind (sched := sched) ses trivial
    with ⟨e, -, -, h⟩ | h
  · exact h
  · unfold stepWith Session.step
    rw [h]
    exact ⟨List.prefix_rfl, List.prefix_rfl⟩

/-! ## Counterexamples -/

/-- A callback that answers every request for an authzid and ignores the result. -/
def swallowEnv : Env :=
  { exampleEnv [] with
    callback := fun _ _ _ => CbProg.satisfy .authzId (c!"me") fun _ => CbProg.ret (.ok ()) }

/-- C22 is false with a writer that answers `Ok(0)`: the XOAUTH2 client reports `Running` having
written nothing. -/
theorem C22_zero_false : ¬ Spec.WritesWhole := by
  intro h
  have := h toyDeps ⟨XOAuth2.client, .initial⟩ (.inr ⟨.xoauth2, rfl⟩)
    (exampleEnv [⟨.authId, c!"u"⟩, ⟨.oauthBearerToken, c!"t"⟩]) { st := .initial, rng := fun _ => 0 }
    none [.accept 0, .accept 0] .running (by decide +kernel)
  have := congrArg (fun r => r.1.out) this
  revert this
  decide +kernel

/-- C22 is false with a failing writer and a callback that ignores the error `satisfy` returns:
the EXTERNAL client reports `Finished(Yes)` having written nothing. -/
theorem C22_swallow_false : ¬ Spec.WritesWhole := by
  intro h
  have := h toyDeps ⟨External.client, ()⟩ (.inr ⟨.external, rfl⟩)
    swallowEnv { st := (), rng := fun _ => 0 } none [.fail (.other 5)] (.finished .yes)
    (by decide +kernel)
  have := congrArg (fun r => r.1.out) this
  revert this
  decide +kernel

/-- C92 is false with a writer that answers `Ok(0)` once: the XOAUTH2 client goes on, and the token
is sent without the user. -/
theorem C92_zero_false : ¬ Spec.SendsBeginning := by
  intro h
  have := (h toyDeps ⟨XOAuth2.client, .initial⟩ (.inr ⟨.xoauth2, rfl⟩)
    (exampleEnv [⟨.authId, c!"u"⟩, ⟨.oauthBearerToken, c!"t"⟩]) { st := .initial, rng := fun _ => 0 }
    none [.accept 0]).1
  revert this
  decide +kernel

/-- C92 is false with a writer that fails once and a callback that ignores the error `satisfy`
returns: the OAUTHBEARER client goes on, and claims to act for nobody in particular. -/
theorem C92_swallow_false : ¬ Spec.SendsBeginning := by
  intro h
  have := (h toyDeps ⟨OAuthBearer.client toyDeps.json, .initial⟩ (.inr ⟨.oauthbearer, rfl⟩)
    swallowEnv { st := .initial, rng := fun _ => 0 } none [.accept 2, .fail (.other 5)]).1
  revert this
  decide +kernel

/-! ## Examples -/

/-- `answerAll` hands errors on. -/
theorem answerAll_handsOn (E : SessionError → Prop) (pvs : List PV) :
    (answerAll pvs).HandsOn E := by
  induction pvs with
  | nil => trivial
  | cons pv pvs ih =>
    refine ⟨fun _ _ => rfl, fun r => ?_⟩
    cases r with
    | error e => trivial
    | ok u => exact ih

/-- A callback and a writer as in `C22_partial`. -/
example : (exampleEnv [⟨.authId, c!"u"⟩, ⟨.oauthBearerToken, c!"t"⟩]).HandsOn FromWriter ∧
    NeverZero [.accept 3, .fail .interrupted, .accept 2, .fail (.other 5)] := by
  refine ⟨fun _ _ _ => answerAll_handsOn _ _, ?_⟩
  intro r hr
  simp only [List.mem_cons, List.not_mem_nil, or_false] at hr
  rcases hr with rfl | rfl | rfl | rfl <;> nofun

/-- An XOAUTH2 client's first step. -/
def writersStep (sched : List WResp) : Reply State :=
  (stepWith ⟨XOAuth2.client, .initial⟩
    (exampleEnv [⟨.authId, c!"u"⟩, ⟨.oauthBearerToken, c!"t"⟩])
    { st := .initial, rng := fun _ => 0 } none sched).1

/-- A case of `C92_partial`: the writer fails in the middle of the message. -/
example : writersStep [.accept 3, .fail (.other 5)] = ⟨.err (.io (.other 5)), b!"use"⟩ ∧
    (writersStep []).out = b!"user=u\x01auth=Bearer t\x01\x01" := ⟨rfl, rfl⟩

/-- The whole message in spite of short writes; an error when the writer fails. -/
example : writersStep [.accept 3, .accept 1, .accept 7] =
      ⟨.ok .running, b!"user=u\x01auth=Bearer t\x01\x01"⟩ ∧
    writersStep [.accept 3, .fail (.other 5)] = ⟨.err (.io (.other 5)), b!"use"⟩ := ⟨rfl, rfl⟩

end Rsasl

/-
C16 for whole sessions: what `Session::validation` returns.
-/
import Verif.Proofs.Code
import Verif.Proofs.Validate
import Verif.Spec.Reads
import Verif.Spec.Examples

namespace Rsasl

variable {S α G : Type}

theorem firstSet_append (env : Env) (h a b : List Event) :
    Spec.firstSet env h (a ++ b) =
      (Spec.firstSet env h a).or (Spec.firstSet env (h ++ a) b) := by
  induction a generalizing h with
  | nil => simp [Spec.firstSet]
  | cons e a ih =>
    cases e <;> simp [Spec.firstSet, ih, Option.or_assoc]

theorem firstSet_of_no_validate (env : Env) (h : List Event) {es : List Event}
    (hes : ∀ e ∈ es, ∀ ctx, e ≠ .validated ctx) : Spec.firstSet env h es = none := by
  induction es generalizing h with
  | nil => rfl
  | cons e es ih =>
    have := ih (h ++ [e]) (fun e' he' => hes e' (List.mem_cons_of_mem _ he'))
    cases e with
    | validated ctx => exact absurd rfl (hes _ (List.mem_cons_self ..) ctx)
    | _ => exact this

/-- The code changes the slot by validate calls alone, and these fill it if it is free. -/
def Fills (env : Env) (m : M S α) : Prop :=
  ∀ s w, ∃ es, (m s w).2.2.log = w.log ++ es ∧
    (m s w).2.2.slot = w.slot.or (Spec.firstSet env w.log es)

theorem Fills.plain {env : Env} {m : M S α}
    (h : ∀ s w, ∃ es, (m s w).2.2.log = w.log ++ es ∧ (m s w).2.2.slot = w.slot ∧
      ∀ e ∈ es, ∀ ctx, e ≠ .validated ctx) : Fills env m := by
  intro s w
  obtain ⟨es, h1, h2, h3⟩ := h s w
  exact ⟨es, h1, by rw [h2, firstSet_of_no_validate env _ h3, Option.or_none]⟩

theorem Fills.same {env : Env} {m : M S α}
    (h : ∀ s w, (m s w).2.2.log = w.log ∧ (m s w).2.2.slot = w.slot) : Fills env m :=
  .plain fun s w => ⟨[], by simp [h s w], (h s w).2, nofun⟩

theorem writeJson_same (bs : List Bytes) (s : S) (w : World) :
    (OAuthBearer.writeJson bs s w).2.2.log = w.log ∧
      (OAuthBearer.writeJson bs s w).2.2.slot = w.slot := by
  induction bs generalizing w with
  | nil => exact ⟨rfl, rfl⟩
  | cons b bs ih =>
    unfold OAuthBearer.writeJson
    rw [M.bind_apply]
    unfold M.attempt
    obtain ⟨n, sc, -, -, h | ⟨e, h⟩⟩ := M.writeAll_cases b s w
    · rw [h]; exact ih _
    · rw [h]; exact ⟨rfl, rfl⟩

theorem Code.fills {vec : Prop} {env : Env} {m : M S α} (h : Code vec env m) : Fills env m := by
  induction h with
  | pure a => exact .same fun _ _ => ⟨rfl, rfl⟩
  | fail e => exact .same fun _ _ => ⟨rfl, rfl⟩
  | panic => exact .same fun _ _ => ⟨rfl, rfl⟩
  | get => exact .same fun _ _ => ⟨rfl, rfl⟩
  | set s => exact .same fun _ _ => ⟨rfl, rfl⟩
  | modify f => exact .same fun _ _ => ⟨rfl, rfl⟩
  | draw n => exact .same fun _ _ => ⟨rfl, rfl⟩
  | writeAll b =>
    refine .same fun s w => ?_
    obtain ⟨n, sc, -, -, h | ⟨e, h⟩⟩ := M.writeAll_cases b s w <;> rw [h] <;> exact ⟨rfl, rfl⟩
  | writeVectored _ bs =>
    refine .same fun s w => ?_
    obtain ⟨n, sc, -, -, h | ⟨e, h⟩⟩ := M.writeVectored_cases bs s w <;> rw [h] <;> exact ⟨rfl, rfl⟩
  | writeJson bs => exact .same fun s w => writeJson_same bs s w
  | @bind S α β m f _ _ ih1 ih2 =>
    intro s w
    obtain ⟨es, h1, h2⟩ := ih1 s w
    rcases hm : m s w with ⟨o, s', w'⟩
    rw [hm] at h1 h2
    cases o with
    | ok a =>
      rw [M.bind_ok hm]
      obtain ⟨es', h3, h4⟩ := ih2 a s' w'
      refine ⟨es ++ es', by rw [h3, h1, List.append_assoc], ?_⟩
      rw [h4, h2, h1, firstSet_append, Option.or_assoc]
    | err e => rw [M.bind_err hm]; exact ⟨es, h1, h2⟩
    | panic => rw [M.bind_panic hm]; exact ⟨es, h1, h2⟩
  | @withLocal S T α t m _ ih =>
    intro s w
    obtain ⟨es, h1, h2⟩ := ih (s, t) w
    exact ⟨es, h1, h2⟩
  | @ask S G p ctx f _ ih =>
    intro s w
    have hq : ∀ {es : List Event}, Quiet es → ∀ e ∈ es, ∀ ctx, e ≠ .validated ctx := by
      intro es hq e he ctx
      obtain ⟨q, rfl⟩ := hq e he
      nofun
    have key : ∀ v es es' o s' w', Quiet es → Quiet es' →
        f v s (w.addLog (.asked p ctx :: es ++ [.answered p v])) = (o, s', w') →
        ∃ es'', (w'.addLog es').log = w.log ++ es'' ∧
          (w'.addLog es').slot = w.slot.or (Spec.firstSet env w.log es'') := by
      intro v es es' o s' w' h1 h2 h
      obtain ⟨es2, h3, h4⟩ := ih v s (w.addLog (.asked p ctx :: es ++ [.answered p v]))
      rw [h] at h3 h4
      have hn : ∀ e ∈ .asked p ctx :: es ++ [Event.answered p v], ∀ ctx, e ≠ .validated ctx := by
        intro e he
        simp only [List.cons_append, List.mem_cons, List.mem_append, List.not_mem_nil,
          or_false] at he
        rcases he with rfl | he | rfl
        · nofun
        · exact hq h1 e he
        · nofun
      refine ⟨(.asked p ctx :: es ++ [.answered p v]) ++ es2 ++ es', ?_, ?_⟩
      · show w'.log ++ es' = _
        rw [h3]; simp [World.addLog]
      · show w'.slot = _
        rw [h4, firstSet_append, firstSet_append, firstSet_of_no_validate env _ hn,
          firstSet_of_no_validate env _ (hq h2)]
        simp [World.addLog]
    have hr := maybeNeedWith_run env p ctx f s w
    generalize Rsasl.maybeNeedWith env p ctx f s w = x at hr
    cases hr with
    | none o es h1 h2 =>
      refine ⟨_, rfl, ?_⟩
      rw [firstSet_of_no_validate env _ (by
        intro e he
        rcases List.mem_cons.1 he with rfl | he
        · nofun
        · exact hq h1 e he), Option.or_none]
      rfl
    | ok v es es' g s' w' o h1 h2 hf => exact key v es es' _ s' w' h1 h2 hf
    | err v es es' e s' w' o h1 h2 hf => exact key v es es' _ s' w' h1 h2 hf
    | panic v es s' w' h1 hf =>
      have := key v es [] _ s' w' h1 nofun hf
      simpa using this
  | action p ctx v =>
    refine .plain fun s w => ?_
    obtain ⟨o, es, h1, -, h2⟩ := action_log env p ctx v s w
    rw [h1]
    refine ⟨_, rfl, rfl, ?_⟩
    rcases h2 with rfl | rfl <;> simp
  | tryAction p ctx v =>
    refine .plain fun s w => ?_
    obtain ⟨o, es, h1, -, h2⟩ := action_log env p ctx v s w
    unfold M.attempt
    rw [h1]
    refine ⟨.notified p ctx :: es, ?_, ?_, ?_⟩
    · cases o <;> rfl
    · cases o <;> rfl
    · rcases h2 with rfl | rfl <;> simp
  | validate ctx =>
    intro s w
    obtain ⟨es, hq, h⟩ := validate_eq env ctx s w
    rw [h]
    refine ⟨_, rfl, ?_⟩
    have : Spec.firstSet env (w.log ++ [.validated ctx]) es = none :=
      firstSet_of_no_validate env _ (by
        intro e he ctx
        obtain ⟨t, rfl⟩ := hq e he
        nofun)
    simp only [Spec.firstSet, this, Option.or_none]
    cases w.slot <;> rfl

theorem Fills.exec {env : Env} {m : M S α} (h : Fills env m) (ses : Session S)
    (sched : List WResp) :
    ∃ es, (ses.exec m sched).2.log = ses.log ++ es ∧
      (ses.exec m sched).2.slot = ses.slot.or (Spec.firstSet env ses.log es) :=
  h ses.st ⟨⟨[], sched⟩, ses.rng, ses.slot, ses.log⟩

theorem perform_fills {deps : Deps} {st : Started}
    (h : Spec.BuiltinServer deps st ∨ Spec.BuiltinClient deps st) (env : Env)
    (ses : Session st.mech.S) (op : Op) (hop : op ≠ .validation) :
    ∃ es, (ses.perform st.mech env op).2.log = ses.log ++ es ∧
      (ses.perform st.mech env op).2.slot = ses.slot.or (Spec.firstSet env ses.log es) := by
  obtain ⟨h1, h2, h3⟩ := builtin_code h env
  cases op with
  | step c => exact (h1 c.input).fills.exec ses c.sched
  | encode i sched => exact (h2 i).fills.exec ses sched
  | decode i sched => exact (h3 i).fills.exec ses sched
  | validation => exact absurd rfl hop
  | step64 c =>
    show ∃ es, (ses.step64 st.mech env c).2.log = _ ∧ (ses.step64 st.mech env c).2.slot = _
    unfold Session.step64
    split
    · split
      · exact ⟨[], by simp, by simp [Spec.firstSet]⟩
      · exact (h1 _).fills.exec ses c.sched
    · exact (h1 c.input).fills.exec ses c.sched

theorem afterAll_fills {deps : Deps} {st : Started}
    (h : Spec.BuiltinServer deps st ∨ Spec.BuiltinClient deps st) (env : Env)
    (ses : Session st.mech.S) (ops : List Op) (hops : ∀ op ∈ ops, op ≠ .validation) :
    ∃ es, (ses.afterAll st.mech env ops).log = ses.log ++ es ∧
      (ses.afterAll st.mech env ops).slot = ses.slot.or (Spec.firstSet env ses.log es) := by
  induction ops generalizing ses with
  | nil => exact ⟨[], (List.append_nil _).symm, Option.or_none.symm⟩
  | cons op ops ih =>
    obtain ⟨es, h1, h2⟩ := perform_fills h env ses op (hops _ (List.mem_cons_self ..))
    obtain ⟨es', h3, h4⟩ := ih (ses.perform st.mech env op).2
      fun op' hop' => hops op' (List.mem_cons_of_mem _ hop')
    refine ⟨es ++ es', ?_, ?_⟩
    · show (Session.afterAll st.mech env (ses.perform st.mech env op).2 ops).log = _
      rw [h3, h1, List.append_assoc]
    · show (Session.afterAll st.mech env (ses.perform st.mech env op).2 ops).slot = _
      rw [h4, h2, h1, firstSet_append, Option.or_assoc]

/-- C16: however a fresh session of a built-in mechanism was used, `validation` returns the first
value set under the protocol's `Validation` type, in the order of the validate calls. -/
theorem C16_session {deps : Deps} {st : Started}
    (h : Spec.BuiltinServer deps st ∨ Spec.BuiltinClient deps st) (env : Env) (rng : Nat → Nat)
    (ops : List Op) (hops : ∀ op ∈ ops, op ≠ .validation) :
    ((st.session rng).afterAll st.mech env ops).validation.1 =
      Spec.firstSet env [] ((st.session rng).afterAll st.mech env ops).log := by
  obtain ⟨es, h1, h2⟩ := afterAll_fills h env (st.session rng) ops hops
  have h1 : ((st.session rng).afterAll st.mech env ops).log = es := h1
  rw [h1]
  exact h2

/-- C16: asked again, it returns `None`. -/
theorem C16_read_once (ses : Session S) : ses.validation.2.validation.1 = none := rfl

/-- C16: reading changes nothing else. -/
theorem C16_read_only (ses : Session S) :
    ses.validation.2.st = ses.st ∧ ses.validation.2.log = ses.log ∧
      ses.validation.2.rng = ses.rng := ⟨rfl, rfl, rfl⟩

/-- C16: after a read only values set since then count. -/
theorem C16_read_later {deps : Deps} {st : Started}
    (h : Spec.BuiltinServer deps st ∨ Spec.BuiltinClient deps st) (env : Env)
    (ses : Session st.mech.S) (ops : List Op) (hops : ∀ op ∈ ops, op ≠ .validation) :
    ∃ es, (ses.validation.2.afterAll st.mech env ops).log = ses.log ++ es ∧
      (ses.validation.2.afterAll st.mech env ops).validation.1 = Spec.firstSet env ses.log es := by
  obtain ⟨es, h1, h2⟩ := afterAll_fills h env ses.validation.2 ops hops
  exact ⟨es, h1, by rw [show ses.validation.2.slot = none from rfl, Option.none_or] at h2; exact h2⟩

/-- How many `with` closures a validate callback gets evaluated; `free` says whether the slot is
free. Those of other `Validation` types and those coming too late are not evaluated. -/
def Spec.evaluations (vtag : Nat) : Bool → ValProg → Nat
  | _, .ret _ => 0
  | free, .finalize t _ k => evaluations vtag (free && t != vtag) k
  | free, .with t f k =>
    if free && t == vtag then
      match f with
      | .ok _ => 1 + evaluations vtag false (k (.ok ()))
      | .error e => 1 + evaluations vtag true (k (.error e))
    else evaluations vtag free (k (.ok ()))
  | free, .is t k => evaluations vtag free (k (decide (t = vtag)))

theorem runVal_evaluations (vtag : Nat) (prog : ValProg) (s : S) (w : World) :
    (runVal vtag prog s w).2.2.log =
      w.log ++ List.replicate (Spec.evaluations vtag w.slot.isNone prog) (.vEvaluated vtag) := by
  induction prog generalizing w with
  | ret r => simp [runVal, Spec.evaluations, Pure.pure, M.pure]
  | finalize t v k ih =>
    unfold runVal Spec.evaluations
    refine (ih _).trans ?_
    by_cases ht : t = vtag
    · cases hs : w.slot <;> simp [ht, hs]
    · have : (t != vtag) = true := by simpa using ht
      simp [ht, this]
  | «with» t f k ih =>
    unfold runVal Spec.evaluations
    by_cases ht : t = vtag
    · subst ht
      cases hs : w.slot with
      | none =>
        simp only [and_self, if_true]
        cases f with
        | ok v =>
          refine (ih _ _).trans ?_
          simp [Nat.add_comm 1, List.replicate_succ]
        | error e =>
          refine (ih _ _).trans ?_
          simp [Nat.add_comm 1, List.replicate_succ]
      | some v =>
        simp only [reduceCtorEq, and_false, if_false]
        rw [ih]
        simp [hs]
    · simp only [ht, false_and, if_false]
      rw [ih]
      simp [ht]
  | is t k ih => exact ih _ w

/-- C16: exactly which `with` closures are evaluated: those of the session's `Validation` type,
called while there is no value yet. -/
theorem C16_with_evaluated (env : Env) (ctx : Provider) (s : S) (w : World) :
    (validate env ctx s w).2.2.log = w.log ++ .validated ctx ::
      List.replicate (Spec.evaluations env.vtag w.slot.isNone (env.validate w.log env.sd ctx))
        (.vEvaluated env.vtag) := by
  have h := runVal_evaluations env.vtag (env.validate w.log env.sd ctx) s
    (w.addLog [.validated ctx])
  unfold validate
  rw [M.bind_ok (M.history_apply ..), M.bind_ok (M.note_apply ..), M.bind_apply]
  obtain ⟨r, slot, es, h1, h2, h3⟩ :=
    runVal_run env.vtag (env.validate w.log env.sd ctx) s (w.addLog [.validated ctx])
  rw [h1] at h ⊢
  have h : w.log ++ [.validated ctx] ++ es = _ := h
  have he : es = List.replicate (Spec.evaluations env.vtag w.slot.isNone
      (env.validate w.log env.sd ctx)) (.vEvaluated env.vtag) := List.append_cancel_left h
  rw [← he]
  rcases r with e | u
  · simp [M.fail, World.addLog]
  · simp [Pure.pure, M.pure, World.addLog]

/-- A validate callback for the examples: a value of another type, a failing closure, then two
values of the session's type 0. -/
def readsEnv : Env :=
  { exampleEnv [] with
    validate := fun _ _ _ => .finalize 3 [1] (.with 0 (.error (.boxed 5))
      fun _ => .finalize 0 [2] (.with 0 (.ok [9]) fun _ => .ret (.ok ()))) }

/-- An EXTERNAL server after two steps. -/
def readsSession : Session Unit :=
  Session.afterAll External.server readsEnv { st := (), rng := fun _ => 0 }
    [.step ⟨some (b!"me"), []⟩, .step64 ⟨some (b!"!"), []⟩]

/-- The value set first is returned, once; it can be set again later. -/
example : readsSession.validation.1 = some [2] ∧
    readsSession.validation.2.validation.1 = none ∧
    (Session.afterAll External.server readsEnv readsSession
      [.validation, .step ⟨none, []⟩]).validation.1 = some [2] ∧
    validations readsSession.log = [.this ⟨.authzId, c!"me"⟩] ∧
    Spec.firstSet readsEnv [] readsSession.log = some [2] :=
  ⟨rfl, rfl, rfl, rfl, rfl⟩

example : Spec.BuiltinServer toyDeps ⟨External.server, ()⟩ := ⟨.external, rfl⟩

example : Spec.evaluations 0 true (readsEnv.validate [] readsEnv.sd .empty) = 1 := rfl

end Rsasl

/-
A small program logic: what holds of result, mechanism state and validate calls after running
mechanism code, for all writers, random streams and callbacks.
-/
import Verif.Proofs.Exec
import Verif.Proofs.Validate
import Verif.Spec.Errs

namespace Rsasl

variable {S T α β G : Type}

/-! ## Errors of callbacks -/

theorem runSat_errs {E : SessionError → Prop} (hE : E earlyReturn) {p : Property}
    {f : p.Value → M S G} (hf : ∀ v s w e, (f v s w).1 = .err e → E e) {prog : CbProg}
    (hp : prog.Errs E) (cr : CR G) (s : S) (w : World) (r : Except SessionError Unit) (cr' : CR G)
    (h : (runSat p f prog cr s w).1 = .ok (r, cr')) : ∀ e, r = .error e → E e := by
  have hafter : ∀ r : Except SessionError Unit, (∀ e, r = .error e → E e) →
      ∀ e, afterSatisfy r = .error e → E e := by
    intro r hr e he
    cases r with
    | ok u => cases he; exact hE
    | error e' => cases he; exact hr e rfl
  have hsat : ∀ (v : p.Value) (cr : CR G) (s : S) (w : World) r cr' s' w',
      CR.satisfy p f v cr s w = (.ok (r, cr'), s', w') → ∀ e, r = .error e → E e := by
    intro v cr s w r cr' s' w' h e he
    cases cr with
    | «open» =>
      simp only [CR.satisfy] at h
      rw [M.bind_ok (M.note_apply ..), M.bind_apply, M.attempt_apply] at h
      have hfv := hf v s (w.addLog [.answered p v])
      generalize f v s (w.addLog [.answered p v]) = x at h hfv
      rcases x with ⟨g | e' | _, s₁, w₁⟩
      · cases h; cases he
      · cases h; cases he; exact hfv _ rfl
      · cases h
    | satisfied g => cases h; cases he
    | gone => cases h; cases he
  have hcont : ∀ (r' : Except SessionError Unit) (cr'' : CR G) (v : p.Value) (k : Except SessionError Unit → CbProg) (cr : CR G) (s : S) (w : World),
      (∀ r, (∀ e, r = .error e → E e) → ∀ cr s w, (runSat p f (k r) cr s w).1 = .ok (r', cr'') →
        ∀ e, r' = .error e → E e) →
      ((do
        let (r, cr) ← CR.satisfy p f v cr
        runSat p f (k (afterSatisfy r)) cr : M S _) s w).1 = .ok (r', cr'') →
      ∀ e, r' = .error e → E e := by
    intro r' cr'' v k cr s w ih h
    rw [M.bind_apply] at h
    have hs := hsat v cr s w
    generalize CR.satisfy p f v cr s w = x at h hs
    rcases x with ⟨⟨r, cr⟩ | _ | _, s₁, w₁⟩
    · exact ih _ (hafter r (hs r cr s₁ w₁ rfl)) _ _ _ h
    · cases h
    · cases h
  induction prog generalizing cr s w with
  | ret r' => cases h; exact hp
  | satisfy q v k ih =>
    unfold runSat at h
    split at h
    · next hq =>
      subst hq
      exact hcont _ _ v k cr s w (fun r hr cr s w h => ih r (hp r hr) cr s w h) h
    · exact ih _ (hp _ (by simp)) _ _ _ h
  | satisfyWith q g k ih =>
    unfold runSat at h
    split at h
    · next hq =>
      subst hq
      rw [M.bind_ok (M.note_apply ..)] at h
      cases g with
      | error e' => exact ih _ (hp.2 _ (by intro e h; cases h; exact hp.1 _ rfl)) _ _ _ h
      | ok v => exact hcont _ _ v k cr s _ (fun r hr cr s w h => ih r (hp.2 r hr) cr s w h) h
    · exact ih _ (hp.2 _ (by simp)) _ _ _ h
  | getAction q k ih => exact ih _ (hp _) _ _ _ h
  | is q k ih => exact ih _ (hp _) _ _ _ h

theorem maybeNeedWith_errs {E : SessionError → Prop} (hE : E earlyReturn) {env : Env}
    (henv : env.Errs E) {p : Property} {ctx : Provider} {f : p.Value → M S G}
    (hf : ∀ v s w e, (f v s w).1 = .err e → E e) (s : S) (w : World) (e : SessionError)
    (h : (maybeNeedWith env p ctx f s w).1 = .err e) : E e := by
  unfold maybeNeedWith at h
  rw [M.bind_ok (M.history_apply ..), M.bind_ok (M.note_apply ..), M.bind_apply] at h
  have hr := runSat_errs hE hf (henv w.log ctx) .open s (w.addLog [.asked p ctx])
  have ho := runSat_open p f (env.callback w.log env.sd ctx) s (w.addLog [.asked p ctx])
  generalize runSat p f (env.callback w.log env.sd ctx) .open s (w.addLog [.asked p ctx]) = x
    at h hr ho
  rcases x with ⟨⟨r, cr⟩ | e' | _, s₁, w₁⟩
  · have hr := hr r cr rfl
    simp only at h
    rw [M.bind_apply] at h
    cases r with
    | ok u => cases h
    | error e' =>
      have := hr e' rfl
      cases hx : filterNoValue (filterEarly (.error e')) with
      | ok u => rw [hx] at h; cases h
      | error e'' =>
        rw [hx] at h
        cases h
        have : e' = e := by
          unfold filterEarly at hx
          split at hx
          · cases hx
          · cases hx
          · next h2 =>
            cases h2
            unfold filterNoValue at hx
            split at hx
            · cases hx
            · cases hx
            · next h3 => cases h3; cases hx; rfl
        subst this
        assumption
  · cases ho
  · cases h

theorem runAct_errs {E : SessionError → Prop} {p : Property} {prog : CbProg}
    (hp : prog.Errs E) (cur : Option p.Value) (s : S) (w : World) :
    ∃ r cur' es, runAct p prog cur s w = (.ok (r, cur'), s, w.addLog es) ∧
      validations es = [] ∧ ∀ e, r = .error e → E e := by
  induction prog generalizing cur w with
  | ret r => exact ⟨r, cur, [], by simp [runAct], rfl, hp⟩
  | satisfy q v k ih => exact ih _ (hp _ (by simp)) cur w
  | satisfyWith q v k ih => exact ih _ (hp.2 _ (by simp)) cur w
  | getAction q k ih =>
    unfold runAct
    split
    · next hq =>
      subst hq
      cases cur with
      | none =>
        obtain ⟨r, c, es, h1, h2, h3⟩ := ih none (hp _) none w
        exact ⟨r, c, es, h1, h2, h3⟩
      | some v =>
        obtain ⟨r, c, es, h1, h2, h3⟩ := ih (some v) (hp _) none (w.addLog [.delivered q v])
        refine ⟨r, c, [.delivered q v] ++ es, ?_, by rw [validations_append, h2]; rfl, h3⟩
        simp only
        rw [M.bind_ok (M.note_apply ..)]
        simpa using h1
    · exact ih _ (hp _) cur w
  | is q k ih => exact ih _ (hp _) cur w

/-! ## The logic -/

/-- After running `m` from `s` with validate calls `vs` so far, the result, the state and the
validate calls satisfy `Q`, whatever writer and random stream. -/
def Post (m : M S α) (s : S) (vs : List Provider)
    (Q : Outcome α → S → List Provider → Prop) : Prop :=
  ∀ w : World, validations w.log = vs → Q (m s w).1 (m s w).2.1 (validations (m s w).2.2.log)

/-- What has to hold after the first half of a sequence. -/
def Seq (f : α → M S β) (Q : Outcome β → S → List Provider → Prop) :
    Outcome α → S → List Provider → Prop
  | .ok a, s, vs => Post (f a) s vs Q
  | .err e, s, vs => Q (.err e) s vs
  | .panic, s, vs => Q .panic s vs

theorem Seq.ok {f : α → M S β} {Q : Outcome β → S → List Provider → Prop} {a : α} {s : S}
    {vs : List Provider} (h : Post (f a) s vs Q) : Seq f Q (.ok a) s vs := h

variable {s : S} {vs : List Provider}

theorem Post.mono {m : M S α} {Q R : Outcome α → S → List Provider → Prop} (h : Post m s vs Q)
    (hQ : ∀ o s vs, Q o s vs → R o s vs) : Post m s vs R := fun w hw => hQ _ _ _ (h w hw)

theorem Post.and {m : M S α} {Q R : Outcome α → S → List Provider → Prop} (h : Post m s vs Q)
    (h' : Post m s vs R) : Post m s vs (fun o s vs => Q o s vs ∧ R o s vs) :=
  fun w hw => ⟨h w hw, h' w hw⟩

theorem Post.bind {m : M S α} {f : α → M S β} {Q : Outcome β → S → List Provider → Prop}
    (h : Post m s vs (Seq f Q)) : Post (m >>= f) s vs Q := by
  intro w hw
  have h := h w hw
  rw [M.bind_apply]
  generalize m s w = x at h
  rcases x with ⟨a | e | _, s', w'⟩
  · exact h w' rfl
  · exact h
  · exact h

theorem Post.pure {a : α} {Q : Outcome α → S → List Provider → Prop} (h : Q (.ok a) s vs) :
    Post (Pure.pure a) s vs Q := fun w hw => by subst hw; exact h

theorem Post.fail {e : SessionError} {Q : Outcome α → S → List Provider → Prop}
    (h : Q (.err e) s vs) : Post (M.fail e) s vs Q := fun w hw => by subst hw; exact h

theorem Post.panic {Q : Outcome α → S → List Provider → Prop}
    (h : Q .panic s vs) : Post M.panic s vs Q := fun w hw => by subst hw; exact h

theorem Post.get {Q : Outcome S → S → List Provider → Prop} (h : Q (.ok s) s vs) :
    Post M.get s vs Q := fun w hw => by subst hw; exact h

theorem Post.set {s' : S} {Q : Outcome Unit → S → List Provider → Prop} (h : Q (.ok ()) s' vs) :
    Post (M.set s') s vs Q := fun w hw => by subst hw; exact h

theorem Post.modify {f : S → S} {Q : Outcome Unit → S → List Provider → Prop}
    (h : Q (.ok ()) (f s) vs) : Post (M.modify f) s vs Q := fun w hw => by subst hw; exact h

theorem Post.okOr {e : SessionError} {o : Option α} {Q : Outcome α → S → List Provider → Prop}
    (hs : ∀ a, o = some a → Q (.ok a) s vs) (hn : o = none → Q (.err e) s vs) :
    Post (M.okOr e o) s vs Q := by
  cases o with
  | none => exact Post.fail (hn rfl)
  | some a => exact Post.pure (hs a rfl)

theorem Post.lift {r : Except SessionError α} {Q : Outcome α → S → List Provider → Prop}
    (hs : ∀ a, r = .ok a → Q (.ok a) s vs) (hn : ∀ e, r = .error e → Q (.err e) s vs) :
    Post (M.lift r) s vs Q := by
  cases r with
  | error e => exact Post.fail (hn e rfl)
  | ok a => exact Post.pure (hs a rfl)

theorem Post.liftOutcome {r : Outcome α} {Q : Outcome α → S → List Provider → Prop}
    (h : Q r s vs) : Post (M.liftOutcome r) s vs Q := by
  intro w hw
  rw [M.liftOutcome_apply]
  subst hw
  exact h

theorem Post.draw {n : Nat} {Q : Outcome (List Nat) → S → List Provider → Prop}
    (h : ∀ l, Q (.ok l) s vs) : Post (M.draw n) s vs Q := fun w hw => by subst hw; exact h _

theorem Post.writeAll {buf : Bytes} {Q : Outcome Unit → S → List Provider → Prop}
    (hs : Q (.ok ()) s vs) (hn : ∀ e, Q (.err (.io e)) s vs) : Post (M.writeAll buf) s vs Q := by
  intro w hw
  subst hw
  obtain ⟨n, sc, _, _, h | ⟨e, h⟩⟩ := M.writeAll_cases buf s w
  · rw [h]; exact hs
  · rw [h]; exact hn e

theorem Post.writeVectored {bufs : List Bytes} {Q : Outcome Unit → S → List Provider → Prop}
    (hs : Q (.ok ()) s vs) (hn : ∀ e, Q (.err (.io e)) s vs) :
    Post (M.writeVectored bufs) s vs Q := by
  intro w hw
  subst hw
  obtain ⟨n, sc, _, _, h | ⟨e, h⟩⟩ := M.writeVectored_cases bufs s w
  · rw [h]; exact hs
  · rw [h]; exact hn e

/-- What has to hold after the closure of a request ran, `E` being the errors a callback may
come up with. -/
def Closure (E : SessionError → Prop) (Q : Outcome (Option G) → S → List Provider → Prop) :
    Outcome G → S → List Provider → Prop
  | .ok g, s, vs => Q (.ok (some g)) s vs ∧ Q (.ok none) s vs ∧ ∀ e, E e → Q (.err e) s vs
  | .err _, s, vs => Q (.ok none) s vs ∧ ∀ e, E e → Q (.err e) s vs
  | .panic, s, vs => Q .panic s vs

theorem validations_asked' (p : Property) (ctx : Provider) {es : List Event} (h : Quiet es) :
    validations (.asked p ctx :: es) = [] := by
  have := h.validations
  unfold validations at this ⊢
  simp [this]

theorem Post.maybeNeedWith {E : SessionError → Prop} (hE : E earlyReturn) {env : Env}
    (henv : env.Errs E) {p : Property} {ctx : Provider} {f : p.Value → M S G}
    (hf : ∀ v s w e, (f v s w).1 = .err e → E e)
    {Q : Outcome (Option G) → S → List Provider → Prop}
    (hn : Q (.ok none) s vs) (he : ∀ e, E e → Q (.err e) s vs)
    (hc : ∀ v, Post (f v) s vs (Closure E Q)) : Post (maybeNeedWith env p ctx f) s vs Q := by
  intro w hw
  have hr := maybeNeedWith_run env p ctx f s w
  have herr := maybeNeedWith_errs (ctx := ctx) hE henv hf s w
  generalize Rsasl.maybeNeedWith env p ctx f s w = x at hr herr
  have hval : ∀ es, validations (w.addLog es).log = vs ++ validations es := by
    intro es
    rw [World.addLog_log, validations_append, hw]
  cases hr with
  | none o es hq ho =>
    simp only at herr ⊢
    rw [hval, validations_asked' p ctx hq, List.append_nil]
    rcases ho with rfl | ⟨e, rfl⟩
    · exact hn
    · exact he e (herr e rfl)
  | ok v es es' g s' w' o hq hq' hf' ho =>
    have := hc v (w.addLog (.asked p ctx :: es ++ [.answered p v]))
      (by rw [hval, validations_asked p ctx hq v, List.append_nil])
    rw [hf'] at this
    simp only at herr ⊢
    rw [World.addLog_log, validations_append, hq'.validations, List.append_nil]
    rcases ho with rfl | rfl | ⟨e, rfl⟩
    · exact this.1
    · exact this.2.1
    · exact this.2.2 e (herr e rfl)
  | err v es es' e s' w' o hq hq' hf' ho =>
    have := hc v (w.addLog (.asked p ctx :: es ++ [.answered p v]))
      (by rw [hval, validations_asked p ctx hq v, List.append_nil])
    rw [hf'] at this
    simp only at herr ⊢
    rw [World.addLog_log, validations_append, hq'.validations, List.append_nil]
    rcases ho with rfl | ⟨e, rfl⟩
    · exact this.1
    · exact this.2 e (herr e rfl)
  | panic v es s' w' hq hf' =>
    have := hc v (w.addLog (.asked p ctx :: es ++ [.answered p v]))
      (by rw [hval, validations_asked p ctx hq v, List.append_nil])
    rw [hf'] at this
    exact this

/-- As `Closure`, for required requests. -/
def Closure' (E : SessionError → Prop) (Q : Outcome G → S → List Provider → Prop) :
    Outcome G → S → List Provider → Prop
  | .ok g, s, vs => Q (.ok g) s vs ∧ ∀ e, E e → Q (.err e) s vs
  | .err _, s, vs => ∀ e, E e → Q (.err e) s vs
  | .panic, s, vs => Q .panic s vs

theorem Post.needWith {E : SessionError → Prop} (hE : E earlyReturn)
    (hE' : ∀ p, E (.callbackError (.noCallback p))) {env : Env}
    (henv : env.Errs E) {p : Property} {ctx : Provider} {f : p.Value → M S G}
    (hf : ∀ v s w e, (f v s w).1 = .err e → E e)
    {Q : Outcome G → S → List Provider → Prop} (he : ∀ e, E e → Q (.err e) s vs)
    (hc : ∀ v, Post (f v) s vs (Closure' E Q)) : Post (needWith env p ctx f) s vs Q := by
  unfold Rsasl.needWith
  refine Post.bind (Post.maybeNeedWith hE henv hf ?_ ?_ ?_)
  · exact Post.fail (he _ (hE' p))
  · exact he
  · intro v
    refine (hc v).mono ?_
    intro o s vs h
    cases o with
    | ok g => exact ⟨Post.pure h.1, Post.fail (h.2 _ (hE' p)), h.2⟩
    | err e => exact ⟨Post.fail (h _ (hE' p)), h⟩
    | panic => exact h

theorem Post.action {E : SessionError → Prop} (hE' : ∀ p, E (.callbackError (.noCallback p)))
    {env : Env} (henv : env.Errs E) {p : Property} {ctx : Provider} {v : p.Value}
    {Q : Outcome Unit → S → List Provider → Prop} (hs : Q (.ok ()) s vs)
    (he : ∀ e, E e → Q (.err e) s vs) : Post (action env p ctx v) s vs Q := by
  intro w hw
  obtain ⟨r, cur, es, h1, h2, h3⟩ := runAct_errs (henv w.log ctx) (some v) s
    (w.addLog [.notified p ctx])
  have hval : validations ((w.addLog [.notified p ctx]).addLog es).log = vs := by
    simp only [World.addLog_log, validations_append, h2, hw]
    simp [validations]
  unfold Rsasl.action
  rw [M.bind_ok (M.history_apply ..), M.bind_ok (M.note_apply ..), M.bind_ok h1]
  simp only
  cases hr : filterEarly r with
  | error e =>
    rw [M.bind_err (M.lift_error ..)]
    simp only [hval]
    refine he e (h3 e ?_)
    unfold filterEarly at hr
    split at hr
    · cases hr
    · cases hr
    · exact hr
  | ok u =>
    rw [M.bind_ok (M.lift_ok ..)]
    cases cur with
    | none => simp only [M.pure_apply, hval]; exact hs
    | some v => simp only [M.fail_apply, hval]; exact he _ (hE' p)

theorem Post.validate {env : Env} {ctx : Provider} {Q : Outcome Unit → S → List Provider → Prop}
    (hs : Q (.ok ()) s (vs ++ [ctx])) (he : ∀ e, Q (.err (.validationError e)) s (vs ++ [ctx])) :
    Post (validate env ctx) s vs Q := by
  intro w hw
  obtain ⟨es, hq, h⟩ := validate_eq env ctx s w
  rw [h]
  have : validations (w.log ++ .validated ctx :: es) = vs ++ [ctx] := by
    rw [validations_append, hw]
    have := hq.validations
    unfold validations at this ⊢
    simp [this]
  simp only [this]
  generalize Spec.returned env.vtag w.slot.isNone (env.validate w.log env.sd ctx) = x
  rcases x with e | u
  · exact he e
  · exact hs

theorem Post.attempt {m : M S α} {Q : Outcome (Except SessionError α) → S → List Provider → Prop}
    (h : Post m s vs (fun o s vs => match o with
      | .ok a => Q (.ok (.ok a)) s vs
      | .err e => Q (.ok (.error e)) s vs
      | .panic => Q .panic s vs)) : Post (M.attempt m) s vs Q := by
  intro w hw
  have h := h w hw
  rw [M.attempt_apply]
  generalize m s w = x at h
  rcases x with ⟨_ | _ | _, s', w'⟩ <;> exact h

theorem Post.withLocal {t : T} {m : M (S × T) α} {Q : Outcome α → S → List Provider → Prop}
    (h : Post m (s, t) vs (fun o st vs => Q o st.1 vs)) : Post (M.withLocal t m) s vs Q :=
  fun w hw => h w hw

/-- Using it on a session. -/
theorem Post.exec {m : M S α} {ses : Session S} {Q : Outcome α → S → List Provider → Prop}
    (h : Post m ses.st (validations ses.log) Q) (sched : List WResp) :
    Q (ses.exec m sched).1.res (ses.exec m sched).2.st (validations (ses.exec m sched).2.log) :=
  h ⟨⟨[], sched⟩, ses.rng, ses.slot, ses.log⟩ rfl

/-- A sequence of whose first part nothing is known. -/
theorem Post.skip {m : M S α} {f : α → M S β} {Q : Outcome β → S → List Provider → Prop}
    (h1 : ∀ a s vs, Post (f a) s vs Q) (h2 : ∀ e s vs, Q (.err e) s vs) (h3 : ∀ s vs, Q .panic s vs) :
    Post (m >>= f) s vs Q := by
  intro w hw
  rw [M.bind_apply]
  generalize m s w = x
  rcases x with ⟨a | e | _, s', w'⟩
  · exact h1 a s' _ w' rfl
  · exact h2 _ _ _
  · exact h3 _ _

/-! ## Errors of mechanism code -/

/-- All errors of `m` are in `E`. -/
def Fails (E : SessionError → Prop) (m : M S α) : Prop := ∀ s w e, (m s w).1 = .err e → E e

section Fails

variable {E : SessionError → Prop}

theorem Fails.pure (a : α) : Fails E (Pure.pure a : M S α) := fun _ _ _ h => nomatch h
theorem Fails.panic : Fails E (M.panic : M S α) := fun _ _ _ h => nomatch h
theorem Fails.set (s : S) : Fails E (M.set s) := fun _ _ _ h => nomatch h
theorem Fails.get : Fails E (M.get : M S S) := fun _ _ _ h => nomatch h
theorem Fails.modify (f : S → S) : Fails E (M.modify f) := fun _ _ _ h => nomatch h

theorem Fails.fail {e : SessionError} (h : E e) : Fails E (M.fail e : M S α) :=
  fun _ _ _ he => by cases he; exact h

theorem Fails.bind {m : M S α} {f : α → M S β} (hm : Fails E m) (hf : ∀ a, Fails E (f a)) :
    Fails E (m >>= f) := by
  intro s w e h
  rw [M.bind_apply] at h
  have hm := hm s w
  generalize m s w = x at h hm
  rcases x with ⟨a | e' | _, s', w'⟩
  · exact hf a _ _ _ h
  · cases h; exact hm e rfl
  · cases h

theorem Fails.writeAll (hio : ∀ e, E (.io e)) (buf : Bytes) :
    Fails E (M.writeAll buf : M S Unit) := by
  intro s w e h
  obtain ⟨n, sc, _, _, h1 | ⟨e', h1⟩⟩ := M.writeAll_cases buf s w
  · rw [h1] at h; cases h
  · rw [h1] at h; cases h; exact hio _

theorem Fails.writeVectored (hio : ∀ e, E (.io e)) (bufs : List Bytes) :
    Fails E (M.writeVectored bufs : M S Unit) := by
  intro s w e h
  obtain ⟨n, sc, _, _, h1 | ⟨e', h1⟩⟩ := M.writeVectored_cases bufs s w
  · rw [h1] at h; cases h
  · rw [h1] at h; cases h; exact hio _

theorem Fails.attempt (m : M S α) : Fails E (M.attempt m) := by
  intro s w e h
  rw [M.attempt_apply] at h
  generalize m s w = x at h
  rcases x with ⟨_ | _ | _, _, _⟩ <;> cases h

end Fails

end Rsasl

/-
Running mechanism code, and what callbacks can do to it.
-/
import Verif.Spec.Callback
import Verif.Spec.Validate
import Verif.Proofs.Io

namespace Rsasl

/-! ## Running `M` -/

namespace M

variable {S α β : Type}

theorem bind_apply (m : M S α) (f : α → M S β) (s : S) (w : World) :
    (m >>= f) s w =
      match m s w with
      | (.ok a, s, w) => f a s w
      | (.err e, s, w) => (.err e, s, w)
      | (.panic, s, w) => (.panic, s, w) := rfl

theorem bind_assoc {γ : Type} (m : M S α) (f : α → M S β) (g : β → M S γ) :
    (m >>= f) >>= g = m >>= fun a => f a >>= g := by
  funext s w
  show M.bind (M.bind m f) g s w = M.bind m (fun a => M.bind (f a) g) s w
  unfold M.bind
  rcases m s w with ⟨_ | _ | _, _, _⟩ <;> rfl

theorem bind_ok {m : M S α} {f : α → M S β} {s s' : S} {w w' : World} {a : α}
    (h : m s w = (.ok a, s', w')) : (m >>= f) s w = f a s' w' := by
  rw [bind_apply, h]

theorem bind_err {m : M S α} {f : α → M S β} {s s' : S} {w w' : World} {e : SessionError}
    (h : m s w = (.err e, s', w')) : (m >>= f) s w = (.err e, s', w') := by
  rw [bind_apply, h]

theorem bind_panic {m : M S α} {f : α → M S β} {s s' : S} {w w' : World}
    (h : m s w = (.panic, s', w')) : (m >>= f) s w = (.panic, s', w') := by
  rw [bind_apply, h]

/-- How a sequence can end well. -/
theorem bind_eq_ok {m : M S α} {f : α → M S β} {s s' : S} {w w' : World} {b : β}
    (h : (m >>= f) s w = (.ok b, s', w')) :
    ∃ a s₁ w₁, m s w = (.ok a, s₁, w₁) ∧ f a s₁ w₁ = (.ok b, s', w') := by
  rw [bind_apply] at h
  rcases hm : m s w with ⟨_ | _ | _, s₁, w₁⟩
  · rw [hm] at h; exact ⟨_, _, _, rfl, h⟩
  · rw [hm] at h; cases h
  · rw [hm] at h; cases h

@[simp] theorem pure_apply (a : α) (s : S) (w : World) :
    (Pure.pure a : M S α) s w = (.ok a, s, w) := rfl

@[simp] theorem fail_apply (e : SessionError) (s : S) (w : World) :
    (M.fail e : M S α) s w = (.err e, s, w) := rfl

@[simp] theorem panic_apply (s : S) (w : World) :
    (M.panic : M S α) s w = (.panic, s, w) := rfl

@[simp] theorem get_apply (s : S) (w : World) : (M.get : M S S) s w = (.ok s, s, w) := rfl

@[simp] theorem set_apply (s' s : S) (w : World) : M.set s' s w = (.ok (), s', w) := rfl

@[simp] theorem note_apply (e : Event) (s : S) (w : World) :
    M.note e s w = (.ok (), s, w.addLog [e]) := rfl

@[simp] theorem history_apply (s : S) (w : World) :
    (M.history : M S _) s w = (.ok w.log, s, w) := rfl

@[simp] theorem okOr_some (e : SessionError) (a : α) (s : S) (w : World) :
    M.okOr e (some a) s w = (.ok a, s, w) := rfl

@[simp] theorem okOr_none (e : SessionError) (s : S) (w : World) :
    (M.okOr e none : M S α) s w = (.err e, s, w) := rfl

@[simp] theorem lift_ok (a : α) (s : S) (w : World) :
    M.lift (.ok a) s w = (.ok a, s, w) := rfl

@[simp] theorem lift_error (e : SessionError) (s : S) (w : World) :
    (M.lift (.error e) : M S α) s w = (.err e, s, w) := rfl

@[simp] theorem liftOutcome_apply (o : Outcome α) (s : S) (w : World) :
    M.liftOutcome o s w = (o, s, w) := by
  cases o <;> rfl

theorem attempt_apply (m : M S α) (s : S) (w : World) :
    M.attempt m s w =
      match m s w with
      | (.ok a, s, w) => (.ok (.ok a), s, w)
      | (.err e, s, w) => (.ok (.error e), s, w)
      | (.panic, s, w) => (.panic, s, w) := rfl

theorem modify_apply (f : S → S) (s : S) (w : World) : M.modify f s w = (.ok (), f s, w) := rfl

theorem draw_apply (n : Nat) (s : S) (w : World) :
    M.draw n s w =
      (.ok ((List.range n).map w.rng), s, { w with rng := fun i => w.rng (i + n) }) := rfl

end M

@[simp] theorem World.addLog_nil (w : World) : w.addLog [] = w := by
  simp [World.addLog]

@[simp] theorem World.addLog_addLog (w : World) (a b : List Event) :
    (w.addLog a).addLog b = w.addLog (a ++ b) := by
  simp [World.addLog]

@[simp] theorem World.addLog_log (w : World) (a : List Event) : (w.addLog a).log = w.log ++ a := rfl
@[simp] theorem World.addLog_wr (w : World) (a : List Event) : (w.addLog a).wr = w.wr := rfl
@[simp] theorem World.addLog_rng (w : World) (a : List Event) : (w.addLog a).rng = w.rng := rfl
@[simp] theorem World.addLog_slot (w : World) (a : List Event) : (w.addLog a).slot = w.slot := rfl

theorem Quiet.nil : Quiet [] := fun _ h => nomatch h

theorem Quiet.append {a b : List Event} (ha : Quiet a) (hb : Quiet b) : Quiet (a ++ b) := by
  intro e he
  rcases List.mem_append.1 he with h | h
  · exact ha e h
  · exact hb e h

theorem Quiet.single (p : Property) : Quiet [.evaluated p] := by
  intro e he
  simp at he
  exact ⟨p, he⟩

theorem Quiet.validations {es : List Event} (h : Quiet es) : validations es = [] := by
  unfold Rsasl.validations
  rw [List.filterMap_eq_nil_iff]
  intro e he
  obtain ⟨p, rfl⟩ := h e he
  rfl

theorem Quiet.askedProps {es : List Event} (h : Quiet es) : askedProps es = [] := by
  unfold Rsasl.askedProps
  rw [List.filterMap_eq_nil_iff]
  intro e he
  obtain ⟨p, rfl⟩ := h e he
  rfl

theorem validations_append (a b : List Event) :
    validations (a ++ b) = validations a ++ validations b := List.filterMap_append ..

theorem askedProps_append (a b : List Event) :
    askedProps (a ++ b) = askedProps a ++ askedProps b := List.filterMap_append ..

/-! ## Arbitrary callbacks on a satisfiable request -/

section

variable {S G : Type}

/-- After the closure ran (or was dropped) the callback can only change the log. -/
theorem runSat_closed (p : Property) (f : p.Value → M S G) (prog : CbProg) (cr : CR G)
    (hcr : cr ≠ .open) (s : S) (w : World) :
    ∃ r cr' es, runSat p f prog cr s w = (.ok (r, cr'), s, w.addLog es) ∧ Quiet es ∧
      (cr' = cr ∨ cr' = .gone) := by
  induction prog generalizing cr w with
  | ret r => exact ⟨r, cr, [], by simp [runSat], Quiet.nil, .inl rfl⟩
  | satisfy q v k ih =>
    unfold runSat
    split
    · next hq =>
      subst hq
      have hs : cr.satisfy q f v = (pure (.ok (), .gone) : M S _) := by
        cases cr with
        | «open» => exact absurd rfl hcr
        | satisfied g => rfl
        | gone => rfl
      obtain ⟨r, cr', es, h, hq, hc⟩ := ih (afterSatisfy (.ok ())) .gone (by simp) w
      refine ⟨r, cr', es, ?_, hq, .inr (by rcases hc with h | h <;> exact h)⟩
      simp only [hs]
      exact h
    · exact ih _ cr hcr w
  | satisfyWith q g k ih =>
    unfold runSat
    split
    · next hq =>
      subst hq
      cases g with
      | error e =>
        obtain ⟨r, cr', es, h, hq, hc⟩ := ih (.error e) cr hcr (w.addLog [.evaluated q])
        refine ⟨r, cr', [.evaluated q] ++ es, ?_, (Quiet.single q).append hq, hc⟩
        rw [M.bind_ok (M.note_apply ..)]
        simpa using h
      | ok v =>
        have hs : cr.satisfy q f v = (pure (.ok (), .gone) : M S _) := by
          cases cr with
          | «open» => exact absurd rfl hcr
          | satisfied g => rfl
          | gone => rfl
        obtain ⟨r, cr', es, h, hq, hc⟩ :=
          ih (afterSatisfy (.ok ())) .gone (by simp) (w.addLog [.evaluated q])
        refine ⟨r, cr', [.evaluated q] ++ es, ?_, (Quiet.single q).append hq,
          .inr (by rcases hc with h | h <;> exact h)⟩
        rw [M.bind_ok (M.note_apply ..)]
        simp only [hs]
        rw [M.bind_ok (M.pure_apply ..)]
        simpa using h
    · exact ih _ cr hcr w
  | getAction q k ih => unfold runSat; exact ih _ cr hcr w
  | is q k ih => unfold runSat; exact ih _ cr hcr w

/-- How the mechanism's closure `f` ended up being run: the state and world it was run in, and
what is left of them in the end. -/
inductive SatRun (p : Property) (f : p.Value → M S G) (s : S) (w : World) :
    Outcome (Except SessionError Unit × CR G) × S × World → Prop where
  /-- never -/
  | none (r es) (hq : Quiet es) : SatRun p f s w (.ok (r, .open), s, w.addLog es)
  /-- once, it succeeded -/
  | ok (v es es' g s' w' r cr) (hq : Quiet es) (hq' : Quiet es')
      (hf : f v s (w.addLog (es ++ [.answered p v])) = (.ok g, s', w'))
      (hcr : cr = .satisfied g ∨ cr = .gone) :
      SatRun p f s w (.ok (r, cr), s', w'.addLog es')
  /-- once, it failed -/
  | err (v es es' e s' w' r) (hq : Quiet es) (hq' : Quiet es')
      (hf : f v s (w.addLog (es ++ [.answered p v])) = (.err e, s', w')) :
      SatRun p f s w (.ok (r, .gone), s', w'.addLog es')
  /-- once, it panicked -/
  | panic (v es s' w') (hq : Quiet es)
      (hf : f v s (w.addLog (es ++ [.answered p v])) = (.panic, s', w')) :
      SatRun p f s w (.panic, s', w')

theorem SatRun.prepend {p : Property} {f : p.Value → M S G} {s : S} {w : World} {es : List Event}
    {x : Outcome (Except SessionError Unit × CR G) × S × World} (hq : Quiet es)
    (h : SatRun p f s (w.addLog es) x) : SatRun p f s w x := by
  cases h with
  | none r es2 hq2 =>
    rw [World.addLog_addLog]
    exact .none r _ (hq.append hq2)
  | ok v es2 es' g s' w' r cr hq2 hq' hf hcr =>
    rw [World.addLog_addLog, ← List.append_assoc] at hf
    exact .ok v _ es' g s' w' r cr (hq.append hq2) hq' hf hcr
  | err v es2 es' e s' w' r hq2 hq' hf =>
    rw [World.addLog_addLog, ← List.append_assoc] at hf
    exact .err v _ es' e s' w' r (hq.append hq2) hq' hf
  | panic v es2 s' w' hq2 hf =>
    rw [World.addLog_addLog, ← List.append_assoc] at hf
    exact .panic v _ s' w' (hq.append hq2) hf

/-- Satisfying an open request runs the closure once, and never again. -/
theorem SatRun.of_satisfy (p : Property) (f : p.Value → M S G) (v : p.Value)
    (k : Except SessionError Unit → CbProg) (s : S) (w : World) :
    SatRun p f s w ((do
      let (r, cr) ← CR.satisfy p f v .open
      runSat p f (k (afterSatisfy r)) cr) s w) := by
  rcases hf : f v s (w.addLog ([] ++ [.answered p v])) with ⟨g | e | _, s', w'⟩
  · have h1 : CR.satisfy p f v .open s w = (.ok (.ok (), .satisfied g), s', w') := by
      simp only [CR.satisfy]
      rw [M.bind_ok (M.note_apply ..), M.bind_apply, M.attempt_apply]
      simp only [List.nil_append] at hf
      rw [hf]; rfl
    rw [M.bind_ok h1]
    obtain ⟨r, cr', es, h, hq, hc⟩ :=
      runSat_closed p f (k (afterSatisfy (.ok ()))) (.satisfied g) (by simp) s' w'
    simp only [h]
    exact .ok v [] es g s' w' r cr' Quiet.nil hq hf hc
  · have h1 : CR.satisfy p f v .open s w = (.ok (.error e, .gone), s', w') := by
      simp only [CR.satisfy]
      rw [M.bind_ok (M.note_apply ..), M.bind_apply, M.attempt_apply]
      simp only [List.nil_append] at hf
      rw [hf]; rfl
    rw [M.bind_ok h1]
    obtain ⟨r, cr', es, h, hq, hc⟩ :=
      runSat_closed p f (k (afterSatisfy (.error e))) .gone (by simp) s' w'
    have hc : cr' = .gone := by rcases hc with h | h <;> exact h
    subst hc
    simp only [h]
    exact .err v [] es e s' w' r Quiet.nil hq hf
  · have h1 : CR.satisfy p f v .open s w = (.panic, s', w') := by
      simp only [CR.satisfy]
      rw [M.bind_ok (M.note_apply ..), M.bind_apply, M.attempt_apply]
      simp only [List.nil_append] at hf
      rw [hf]
    rw [M.bind_panic h1]
    exact .panic v [] s' w' Quiet.nil hf

/-- For every callback the closure is run at most once. -/
theorem runSat_open (p : Property) (f : p.Value → M S G) (prog : CbProg) (s : S) (w : World) :
    SatRun p f s w (runSat p f prog .open s w) := by
  induction prog generalizing w with
  | ret r =>
    have := SatRun.none (f := f) (s := s) (w := w) r [] Quiet.nil
    simpa [runSat] using this
  | satisfy q v k ih =>
    unfold runSat
    split
    · next hq => subst hq; exact SatRun.of_satisfy q f v k s w
    · exact ih _ w
  | satisfyWith q g k ih =>
    unfold runSat
    split
    · next hq =>
      subst hq
      rw [M.bind_ok (M.note_apply ..)]
      cases g with
      | error e => exact (ih _ _).prepend (Quiet.single q)
      | ok v => exact (SatRun.of_satisfy q f v k s _).prepend (Quiet.single q)
    · exact ih _ w
  | getAction q k ih => unfold runSat; exact ih _ w
  | is q k ih => unfold runSat; exact ih _ w

/-- What a request with an arbitrary callback amounts to. -/
inductive ReqRun (p : Property) (ctx : Provider) (f : p.Value → M S G) (s : S) (w : World) :
    Outcome (Option G) × S × World → Prop where
  /-- nothing consumed -/
  | none (o es) (hq : Quiet es) (ho : o = .ok none ∨ ∃ e, o = .err e) :
      ReqRun p ctx f s w (o, s, w.addLog (.asked p ctx :: es))
  /-- one answer consumed with success; the callback may still fail the request, or lose the
  answer by answering again -/
  | ok (v es es' g s' w' o) (hq : Quiet es) (hq' : Quiet es')
      (hf : f v s (w.addLog (.asked p ctx :: es ++ [.answered p v])) = (.ok g, s', w'))
      (ho : o = .ok (some g) ∨ o = .ok none ∨ ∃ e, o = .err e) :
      ReqRun p ctx f s w (o, s', w'.addLog es')
  /-- one answer consumed, the closure failed; the callback may hide that -/
  | err (v es es' e s' w' o) (hq : Quiet es) (hq' : Quiet es')
      (hf : f v s (w.addLog (.asked p ctx :: es ++ [.answered p v])) = (.err e, s', w'))
      (ho : o = .ok none ∨ ∃ e, o = .err e) :
      ReqRun p ctx f s w (o, s', w'.addLog es')
  | panic (v es s' w') (hq : Quiet es)
      (hf : f v s (w.addLog (.asked p ctx :: es ++ [.answered p v])) = (.panic, s', w')) :
      ReqRun p ctx f s w (.panic, s', w')

theorem maybeNeedWith_run (env : Env) (p : Property) (ctx : Provider) (f : p.Value → M S G)
    (s : S) (w : World) : ReqRun p ctx f s w (maybeNeedWith env p ctx f s w) := by
  have h := runSat_open p f (env.callback w.log env.sd ctx) s (w.addLog [.asked p ctx])
  unfold maybeNeedWith
  rw [M.bind_ok (M.history_apply ..), M.bind_ok (M.note_apply ..), M.bind_apply]
  generalize runSat p f (env.callback w.log env.sd ctx) .open s (w.addLog [.asked p ctx]) = x at h
  have hlift : ∀ (r : Except SessionError Unit) (s : S) (w : World),
      (M.lift (filterNoValue (filterEarly r)) s w = (.ok (), s, w)) ∨
      ∃ e, M.lift (filterNoValue (filterEarly r)) s w = (.err e, s, w) := by
    intro r s w
    cases filterNoValue (filterEarly r) with
    | error e => exact .inr ⟨e, rfl⟩
    | ok u => exact .inl rfl
  cases h with
  | none r es hq =>
    simp only
    rcases hlift r s ((w.addLog [.asked p ctx]).addLog es) with h | ⟨e, h⟩
    · rw [M.bind_ok h]
      have := ReqRun.none (p := p) (ctx := ctx) (f := f) (s := s) (w := w) (.ok Option.none) es hq (.inl rfl)
      simpa [CR.tryUnwrap] using this
    · rw [M.bind_err h]
      have := ReqRun.none (p := p) (ctx := ctx) (f := f) (s := s) (w := w) (.err e) es hq (.inr ⟨e, rfl⟩)
      simpa using this
  | ok v es es' g s' w' r cr hq hq' hf hcr =>
    simp only [World.addLog_addLog, List.singleton_append] at hf
    simp only
    rcases hlift r s' (w'.addLog es') with h | ⟨e, h⟩
    · rw [M.bind_ok h]
      refine ReqRun.ok v es es' g s' w' _ hq hq' hf ?_
      rcases hcr with rfl | rfl
      · exact .inl rfl
      · exact .inr (.inl rfl)
    · rw [M.bind_err h]
      exact ReqRun.ok v es es' g s' w' _ hq hq' hf (.inr (.inr ⟨e, rfl⟩))
  | err v es es' e s' w' r hq hq' hf =>
    simp only [World.addLog_addLog, List.singleton_append] at hf
    simp only
    rcases hlift r s' (w'.addLog es') with h | ⟨e', h⟩
    · rw [M.bind_ok h]
      exact ReqRun.err v es es' e s' w' _ hq hq' hf (.inl rfl)
    · rw [M.bind_err h]
      exact ReqRun.err v es es' e s' w' _ hq hq' hf (.inr ⟨e', rfl⟩)
  | panic v es s' w' hq hf =>
    simp only [World.addLog_addLog, List.singleton_append] at hf
    exact ReqRun.panic v es s' w' hq hf

/-- A required request that succeeds consumed exactly one answer. -/
theorem needWith_ok {env : Env} {p : Property} {ctx : Provider} {f : p.Value → M S G}
    {s s' : S} {w w' : World} {g : G} (h : needWith env p ctx f s w = (.ok g, s', w')) :
    ∃ v es es' w₁, Quiet es ∧ Quiet es' ∧
      f v s (w.addLog (.asked p ctx :: es ++ [.answered p v])) = (.ok g, s', w₁) ∧
      w' = w₁.addLog es' := by
  unfold needWith at h
  obtain ⟨r, s₁, w₁, h1, h2⟩ := M.bind_eq_ok h
  cases r with
  | none => cases h2
  | some g' =>
    cases h2
    have hr := maybeNeedWith_run env p ctx f s w
    rw [h1] at hr
    cases hr with
    | none o es hq ho => rcases ho with ho | ⟨e, ho⟩ <;> cases ho
    | ok v es es' g s' w' o hq hq' hf ho =>
      rcases ho with ho | ho | ⟨e, ho⟩
      · cases ho; exact ⟨v, es, es', _, hq, hq', hf, rfl⟩
      · cases ho
      · cases ho
    | err v es es' e s' w' o hq hq' hf ho => rcases ho with ho | ⟨e, ho⟩ <;> cases ho

/-! ## Well-behaved callbacks -/

theorem runSat_answers {p : Property} {v : p.Value} {prog : CbProg} (h : Answers p v prog)
    (f : p.Value → M S G) (s : S) (w : World) :
    ∃ es, Quiet es ∧ runSat p f prog .open s w =
      match f v s (w.addLog (es ++ [.answered p v])) with
      | (.ok g, s, w) => (.ok (.error earlyReturn, .satisfied g), s, w)
      | (.err e, s, w) => (.ok (.error e, .gone), s, w)
      | (.panic, s, w) => (.panic, s, w) := by
  have key : ∀ (k : Except SessionError Unit → CbProg), (∀ e, k (.error e) = .ret (.error e)) →
      ∀ w : World, ((do
        let (r, cr) ← CR.satisfy p f v .open
        runSat p f (k (afterSatisfy r)) cr) : M S _) s w =
      match f v s (w.addLog [.answered p v]) with
      | (.ok g, s, w) => (.ok (.error earlyReturn, .satisfied g), s, w)
      | (.err e, s, w) => (.ok (.error e, .gone), s, w)
      | (.panic, s, w) => (.panic, s, w) := by
    intro k hk w
    unfold CR.satisfy
    simp only [M.bind_apply, M.note_apply, M.attempt_apply]
    rcases f v s (w.addLog [.answered p v]) with ⟨g | e | _, s', w'⟩
    · simp [afterSatisfy, hk, runSat]
    · simp [afterSatisfy, hk, runSat]
    · rfl
  induction h generalizing w with
  | satisfy k hk =>
    refine ⟨[], Quiet.nil, ?_⟩
    unfold runSat
    rw [dif_pos rfl]
    exact key k hk w
  | satisfyWith k hk =>
    refine ⟨[.evaluated p], Quiet.single p, ?_⟩
    unfold runSat
    rw [dif_pos rfl, M.bind_ok (M.note_apply ..)]
    have := key k hk (w.addLog [.evaluated p])
    simpa using this
  | skip q u k hq _ ih => unfold runSat; rw [dif_neg hq]; exact ih w
  | skipWith q u k hq _ ih => unfold runSat; rw [dif_neg hq]; exact ih w
  | skipAction q k _ ih => unfold runSat; exact ih w
  | is q k _ ih => unfold runSat; exact ih w

/-- A request to a callback that answers. -/
theorem maybeNeedWith_answers {env : Env} {p : Property} {ctx : Provider} {v : p.Value}
    {w : World} (h : Answers p v (env.callback w.log env.sd ctx)) (f : p.Value → M S G) (s : S) :
    ∃ es, Quiet es ∧ maybeNeedWith env p ctx f s w =
      match f v s (w.addLog (.asked p ctx :: es ++ [.answered p v])) with
      | (.ok g, s, w) => (.ok (some g), s, w)
      | (.err e, s, w) =>
        (match filterNoValue (filterEarly (.error e)) with
          | .ok () => .ok none
          | .error e => .err e, s, w)
      | (.panic, s, w) => (.panic, s, w) := by
  obtain ⟨es, hq, he⟩ := runSat_answers h f s (w.addLog [.asked p ctx])
  refine ⟨es, hq, ?_⟩
  unfold maybeNeedWith
  rw [M.bind_ok (M.history_apply ..), M.bind_ok (M.note_apply ..), M.bind_apply, he]
  simp only [World.addLog_addLog, List.cons_append, List.nil_append]
  generalize f v s (w.addLog (.asked p ctx :: (es ++ [.answered p v]))) = x
  rcases x with ⟨g | e | _, s', w'⟩
  · simp only
    rw [show (Except.error earlyReturn : Except SessionError Unit) =
      .error (.callbackError .earlyReturn) from rfl]
    rfl
  · simp only
    cases filterNoValue (filterEarly (.error e)) with
    | error e => rfl
    | ok u => rfl
  · rfl

theorem runSat_declines {p : Property} {prog : CbProg} (h : Declines p prog)
    (f : p.Value → M S G) (s : S) (w : World) :
    ∃ r, runSat p f prog .open s w = (.ok (r, .open), s, w) ∧
      (r = .ok () ∨ r = .error (.callbackError .noValue)) := by
  induction h with
  | ok => exact ⟨_, rfl, .inl rfl⟩
  | noValue => exact ⟨_, rfl, .inr rfl⟩
  | skip q u k hq _ ih => unfold runSat; rw [dif_neg hq]; exact ih
  | skipWith q u k hq _ ih => unfold runSat; rw [dif_neg hq]; exact ih
  | skipAction q k _ ih => unfold runSat; exact ih
  | is q k _ ih => unfold runSat; exact ih

/-- An optional request to a callback that declines. -/
theorem maybeNeedWith_declines {env : Env} {p : Property} {ctx : Provider} {w : World}
    (h : Declines p (env.callback w.log env.sd ctx)) (f : p.Value → M S G) (s : S) :
    maybeNeedWith env p ctx f s w = (.ok none, s, w.addLog [.asked p ctx]) := by
  obtain ⟨r, hr, h⟩ := runSat_declines h f s (w.addLog [.asked p ctx])
  unfold maybeNeedWith
  rw [M.bind_ok (M.history_apply ..), M.bind_ok (M.note_apply ..), M.bind_ok hr]
  rcases h with rfl | rfl <;> rfl

/-- A request to a callback that answers, with a closure that succeeds. -/
theorem needWith_answers {env : Env} {p : Property} {ctx : Provider} {v : p.Value}
    {w : World} (h : Answers p v (env.callback w.log env.sd ctx)) (f : p.Value → M S G) (s : S) :
    ∃ es, Quiet es ∧ ∀ g s' w',
      f v s (w.addLog (.asked p ctx :: es ++ [.answered p v])) = (.ok g, s', w') →
      needWith env p ctx f s w = (.ok g, s', w') := by
  obtain ⟨es, hq, he⟩ := maybeNeedWith_answers h f s
  refine ⟨es, hq, fun g s' w' hf => ?_⟩
  rw [hf] at he
  unfold needWith
  rw [M.bind_ok he]
  rfl

end

/-! ## Validation -/

/-- Whatever a `validate` callback does, only the slot and the log (by `with` evaluations)
change. -/
theorem runVal_run {S : Type} (vtag : Nat) (prog : ValProg) (s : S) (w : World) :
    ∃ r slot es, runVal vtag prog s w =
      (.ok r, s, { w with slot := slot, log := w.log ++ es }) ∧
      (∀ e ∈ es, ∃ t, e = .vEvaluated t) ∧
      (w.slot ≠ none → slot = w.slot ∧ es = []) := by
  induction prog generalizing w with
  | ret r => exact ⟨r, w.slot, [], by simp [runVal], by simp, fun _ => ⟨rfl, rfl⟩⟩
  | finalize tag v k ih =>
    unfold runVal
    by_cases h : tag = vtag ∧ w.slot = none
    · obtain ⟨r, slot, es, h1, h2, h3⟩ := ih { w with slot := some v }
      simp only [if_pos h]
      exact ⟨r, slot, es, h1, h2, fun hn => absurd h.2 hn⟩
    · simp only [if_neg h]
      exact ih w
  | «with» tag f k ih =>
    unfold runVal
    by_cases h : tag = vtag ∧ w.slot = none
    · simp only [if_pos h]
      cases f with
      | error e =>
        obtain ⟨r, slot, es, h1, h2, h3⟩ :=
          ih (.error e) { w with log := w.log ++ [.vEvaluated tag] }
        refine ⟨r, slot, .vEvaluated tag :: es, ?_, ?_, fun hn => absurd h.2 hn⟩
        · simp only [h1]; simp
        · intro e he
          rcases List.mem_cons.1 he with rfl | he
          · exact ⟨_, rfl⟩
          · exact h2 e he
      | ok v =>
        obtain ⟨r, slot, es, h1, h2, h3⟩ :=
          ih (.ok ()) { w with slot := some v, log := w.log ++ [.vEvaluated tag] }
        refine ⟨r, slot, .vEvaluated tag :: es, ?_, ?_, fun hn => absurd h.2 hn⟩
        · simp only [h1]; simp
        · intro e he
          rcases List.mem_cons.1 he with rfl | he
          · exact ⟨_, rfl⟩
          · exact h2 e he
    · simp only [if_neg h]
      exact ih _ w
  | is tag k ih => unfold runVal; exact ih _ w

theorem VQuiet.validations {es : List Event} (h : VQuiet es) : validations es = [] := by
  unfold Rsasl.validations
  rw [List.filterMap_eq_nil_iff]
  intro e he
  obtain ⟨p, rfl⟩ := h e he
  rfl

theorem VQuiet.askedProps {es : List Event} (h : VQuiet es) : askedProps es = [] := by
  unfold Rsasl.askedProps
  rw [List.filterMap_eq_nil_iff]
  intro e he
  obtain ⟨p, rfl⟩ := h e he
  rfl

/-- A call to `validate` records itself once and touches nothing but log and slot. -/
theorem validate_run {S : Type} (env : Env) (ctx : Provider) (s : S) (w : World) :
    ∃ o slot es, validate env ctx s w =
      (o, s, { w with slot := slot, log := w.log ++ .validated ctx :: es }) ∧
      VQuiet es ∧ (w.slot ≠ none → slot = w.slot ∧ es = []) ∧
      (o = .ok () ∨ ∃ e, o = .err (.validationError e)) := by
  obtain ⟨r, slot, es, h1, h2, h3⟩ :=
    runVal_run env.vtag (env.validate w.log env.sd ctx) s (w.addLog [.validated ctx])
  refine ⟨match r with | .ok () => .ok () | .error e => .err (.validationError e), slot, es,
    ?_, h2, h3, ?_⟩
  · unfold validate
    rw [M.bind_ok (M.history_apply ..), M.bind_ok (M.note_apply ..), M.bind_ok h1]
    cases r <;> simp
  · cases r with
    | ok u => exact .inl rfl
    | error e => exact .inr ⟨e, rfl⟩

end Rsasl

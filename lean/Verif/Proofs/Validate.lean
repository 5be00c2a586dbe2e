/-
Lemmas about validate callbacks.
-/
import Verif.Proofs.Callback

namespace Rsasl

variable {S : Type}

theorem runVal_slot_set (vtag : Nat) (prog : ValProg) (s : S) (w : World) (hw : w.slot ≠ none) :
    (runVal vtag prog s w).2.2.slot = w.slot := by
  obtain ⟨r, slot, es, h1, h2, h3⟩ := runVal_run vtag prog s w
  rw [h1]; exact (h3 hw).1

theorem runVal_slot (vtag : Nat) (prog : ValProg) (s : S) (w : World) (hw : w.slot = none) :
    (runVal vtag prog s w).2.2.slot = Spec.firstValue vtag prog := by
  induction prog generalizing w with
  | ret r => exact hw
  | finalize t v k ih =>
    unfold runVal Spec.firstValue
    by_cases ht : t = vtag
    · simp only [ht, hw, and_self, if_true]
      rw [runVal_slot_set _ _ _ _ (by simp)]
    · simp only [ht, false_and, if_false]
      exact ih w hw
  | «with» t f k ih =>
    unfold runVal Spec.firstValue
    by_cases ht : t = vtag
    · simp only [ht, hw, and_self, if_true]
      cases f with
      | ok v => exact runVal_slot_set _ _ _ _ (by simp)
      | error e => exact ih _ _ rfl
    · simp only [ht, false_and, if_false]
      exact ih _ w hw
  | is t k ih => exact ih _ w hw

theorem runVal_returned (vtag : Nat) (prog : ValProg) (s : S) (w : World) :
    (runVal vtag prog s w).1 = .ok (Spec.returned vtag w.slot.isNone prog) := by
  induction prog generalizing w with
  | ret r => rfl
  | finalize t v k ih =>
    unfold runVal Spec.returned
    refine (ih _).trans ?_
    by_cases ht : t = vtag
    · cases hs : w.slot <;> simp [ht, hs]
    · have : (t != vtag) = true := by simpa using ht
      simp [ht, this]
  | «with» t f k ih =>
    unfold runVal Spec.returned
    by_cases ht : t = vtag
    · cases hs : w.slot with
      | none =>
        simp only [ht, and_self, if_true]
        cases f with
        | ok v =>
          refine (ih _ _).trans ?_
          simp
        | error e =>
          refine (ih _ _).trans ?_
          simp
      | some v =>
        simp only [reduceCtorEq, and_false, if_false]
        rw [ih]
        simp [hs]
    · simp only [ht, false_and, if_false]
      rw [ih]
      simp [ht]
  | is t k ih => exact ih _ w

/-- Everything about a validate call. -/
theorem validate_eq (env : Env) (ctx : Provider) (s : S) (w : World) :
    ∃ es, VQuiet es ∧ validate env ctx s w =
      (match Spec.returned env.vtag w.slot.isNone (env.validate w.log env.sd ctx) with
        | .ok () => .ok ()
        | .error e => .err (.validationError e), s,
       { w with
          slot := match w.slot with
            | some v => some v
            | none => Spec.firstValue env.vtag (env.validate w.log env.sd ctx)
          log := w.log ++ .validated ctx :: es }) := by
  obtain ⟨r, slot, es, h1, h2, h3⟩ :=
    runVal_run env.vtag (env.validate w.log env.sd ctx) s (w.addLog [.validated ctx])
  have hr := runVal_returned env.vtag (env.validate w.log env.sd ctx) s (w.addLog [.validated ctx])
  rw [h1] at hr
  simp only [World.addLog_slot, Outcome.ok.injEq] at hr
  have hs : slot = match w.slot with
      | some v => some v
      | none => Spec.firstValue env.vtag (env.validate w.log env.sd ctx) := by
    cases hw : w.slot with
    | none =>
      have := runVal_slot env.vtag (env.validate w.log env.sd ctx) s (w.addLog [.validated ctx]) hw
      rw [h1] at this
      exact this
    | some v =>
      have := runVal_slot_set env.vtag (env.validate w.log env.sd ctx) s
        (w.addLog [.validated ctx]) (by rw [World.addLog_slot, hw]; simp)
      rw [h1] at this
      simpa [hw] using this
  refine ⟨es, h2, ?_⟩
  unfold validate
  rw [M.bind_ok (M.history_apply ..), M.bind_ok (M.note_apply ..), M.bind_ok h1, ← hs, ← hr]
  cases r <;> simp

/-- A step that ends in `validate(..)?; self.state = s'; Ok(st)`, having come to state `s₁`, written
`out` and logged `es₀` before. -/
theorem endsValidated' {env : Env} {ses : Session S} {ctx : Provider} {st : State} {s₁ s' : S}
    {m : M S State} {sched : List WResp} {sched' : List WResp} {out : Bytes} {es₀ : List Event}
    (h : ∀ w : World, w = ⟨⟨[], sched⟩, ses.rng, ses.slot, ses.log⟩ →
      m ses.st w = (do validate env ctx; M.set s'; pure st : M S State) s₁
        { w with wr := ⟨out, sched'⟩, log := ses.log ++ es₀ }) :
    EndsValidated env { ses with log := ses.log ++ es₀ } ctx st out (ses.exec m sched) ∧
      ((ses.exec m sched).1.res = .ok st → (ses.exec m sched).2.st = s') ∧
      ((ses.exec m sched).1.res ≠ .ok st → (ses.exec m sched).2.st = s₁) := by
  have h := h _ rfl
  obtain ⟨es, hq, hv⟩ := validate_eq env ctx s₁
    { wr := ⟨out, sched'⟩, rng := ses.rng, slot := ses.slot, log := ses.log ++ es₀ }
  rw [M.bind_apply, hv] at h
  have he : ses.exec m sched = (⟨match Spec.verdict env { ses with log := ses.log ++ es₀ } ctx with
        | .ok () => .ok st
        | .error e => .err (.validationError e), out⟩,
      { st := match Spec.verdict env { ses with log := ses.log ++ es₀ } ctx with
          | .ok () => s'
          | .error _ => s₁
        slot := match ses.slot with
            | some v => some v
            | none => Spec.firstValue env.vtag (env.validate (ses.log ++ es₀) env.sd ctx)
        rng := ses.rng
        log := ses.log ++ es₀ ++ .validated ctx :: es }) := by
    unfold Session.exec
    simp only [h]
    unfold Spec.verdict
    generalize Spec.returned env.vtag ses.slot.isNone
      (env.validate (ses.log ++ es₀) env.sd ctx) = x
    rcases x with e | u <;> rfl
  rw [he]
  refine ⟨⟨⟨es, hq, rfl⟩, rfl, rfl, rfl⟩, ?_, ?_⟩
  · simp only
    generalize Spec.verdict env { ses with log := ses.log ++ es₀ } ctx = x
    rcases x with e | u
    · intro h; cases h
    · intro _; rfl
  · simp only
    generalize Spec.verdict env { ses with log := ses.log ++ es₀ } ctx = x
    rcases x with e | u
    · intro _; rfl
    · intro h; exact absurd rfl h

/-- A step that ends in `validate(..)?; Ok(st)`. -/
theorem endsValidated {env : Env} {ses : Session S} {ctx : Provider} {st : State} {s' : S}
    {m : M S State} {sched : List WResp} {sched' : List WResp}
    (h : ∀ w : World, w = ⟨⟨[], sched⟩, ses.rng, ses.slot, ses.log⟩ →
      m ses.st w = (do validate env ctx; M.set s'; pure st : M S State) ses.st
        { w with wr := ⟨[], sched'⟩ }) :
    EndsValidated env ses ctx st [] (ses.exec m sched) ∧
      ((ses.exec m sched).1.res = .ok st → (ses.exec m sched).2.st = s') ∧
      ((ses.exec m sched).1.res ≠ .ok st → (ses.exec m sched).2.st = ses.st) := by
  have := endsValidated' (env := env) (ses := ses) (ctx := ctx) (st := st) (s₁ := ses.st)
    (s' := s') (m := m) (sched := sched) (sched' := sched') (out := []) (es₀ := [])
    (fun w hw => by rw [h w hw]; subst hw; simp)
  simpa using this

end Rsasl

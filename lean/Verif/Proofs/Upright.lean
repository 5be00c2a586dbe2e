/-
Requests to upright callbacks.
-/
import Verif.Spec.Upright
import Verif.Proofs.Callback

namespace Rsasl

open Spec

variable {S G : Type}

theorem runSat_upright {p : Property} {prog : CbProg} (h : prog.Upright p)
    (f : p.Value → M S G) (s : S) (w : World) :
    ∃ es, Quiet es ∧
      ((∃ r, runSat p f prog .open s w = (.ok (r, .open), s, w.addLog es)) ∨
       ∃ v, runSat p f prog .open s w =
        match f v s (w.addLog (es ++ [.answered p v])) with
        | (.ok g, s, w) => (.ok (.error earlyReturn, .satisfied g), s, w)
        | (.err e, s, w) => (.ok (.error e, .gone), s, w)
        | (.panic, s, w) => (.panic, s, w)) := by
  have key : ∀ (k : Except SessionError Unit → CbProg), (∀ e, k (.error e) = .ret (.error e)) →
      ∀ (v : p.Value) (w : World), ((do
        let (r, cr) ← CR.satisfy p f v .open
        runSat p f (k (afterSatisfy r)) cr) : M S _) s w =
      match f v s (w.addLog [.answered p v]) with
      | (.ok g, s, w) => (.ok (.error earlyReturn, .satisfied g), s, w)
      | (.err e, s, w) => (.ok (.error e, .gone), s, w)
      | (.panic, s, w) => (.panic, s, w) := by
    intro k hk v w
    unfold CR.satisfy
    simp only [M.bind_apply, M.note_apply, M.attempt_apply]
    rcases f v s (w.addLog [.answered p v]) with ⟨g | e | _, s', w'⟩
    · simp [afterSatisfy, hk, runSat]
    · simp [afterSatisfy, hk, runSat]
    · rfl
  induction prog generalizing w with
  | ret r => exact ⟨[], Quiet.nil, .inl ⟨r, by simp [runSat]⟩⟩
  | satisfy q v k ih =>
    by_cases hq : q = p
    · subst hq
      refine ⟨[], Quiet.nil, .inr ⟨v, ?_⟩⟩
      unfold runSat
      rw [dif_pos rfl]
      exact key k (h.1 rfl) v w
    · unfold runSat
      rw [dif_neg hq]
      exact ih _ (h.2 hq) w
  | satisfyWith q g k ih =>
    by_cases hq : q = p
    · subst hq
      refine ⟨[.evaluated q], Quiet.single q, ?_⟩
      unfold runSat
      rw [dif_pos rfl, M.bind_ok (M.note_apply ..)]
      cases g with
      | error e =>
        left
        refine ⟨.error e, ?_⟩
        dsimp only
        rw [h.1 rfl e]
        rfl
      | ok v =>
        right
        refine ⟨v, ?_⟩
        have := key k (h.1 rfl) v (w.addLog [.evaluated q])
        simpa using this
    · unfold runSat
      rw [dif_neg hq]
      exact ih _ (h.2 hq) w
  | getAction q k ih => unfold runSat; exact ih _ h w
  | is q k ih => unfold runSat; exact ih _ h w

/-- A request that succeeds: unanswered, or answered and the closure ran on the answer. The closure
may fail with `NoValue` or an early return, which then counts as no answer; `hf` excludes this. -/
theorem maybeNeedWith_upright {env : Env} (h : env.Upright) {p : Property} {ctx : Provider}
    {f : p.Value → M S G} {s s' : S} {w w' : World} {r : Option G}
    (hf : ∀ v s w e, (f v s w).1 = .err e → filterNoValue (filterEarly (.error e)) = .error e)
    (hr : maybeNeedWith env p ctx f s w = (.ok r, s', w')) :
    (∃ es, Asked p ctx none es ∧ r = none ∧ s' = s ∧ w' = w.addLog es) ∨
    ∃ v es g, Asked p ctx (some v) es ∧ r = some g ∧ f v s (w.addLog es) = (.ok g, s', w') := by
  obtain ⟨es, hq, ⟨r', he⟩ | ⟨v, he⟩⟩ := runSat_upright (h w.log ctx p) f s (w.addLog [.asked p ctx])
  · left
    unfold maybeNeedWith at hr
    rw [M.bind_ok (M.history_apply ..), M.bind_ok (M.note_apply ..), M.bind_ok he] at hr
    refine ⟨.asked p ctx :: es, .unanswered es hq, ?_⟩
    cases hx : filterNoValue (filterEarly r') with
    | error e =>
      dsimp only at hr
      rw [hx, M.bind_apply] at hr
      cases hr
    | ok u =>
      dsimp only at hr
      rw [hx, M.bind_apply] at hr
      cases hr
      refine ⟨rfl, rfl, ?_⟩
      simp
  · right
    refine ⟨v, .asked p ctx :: es ++ [.answered p v], ?_⟩
    have hf := hf v s (w.addLog (.asked p ctx :: es ++ [.answered p v]))
    unfold maybeNeedWith at hr
    rw [M.bind_ok (M.history_apply ..), M.bind_ok (M.note_apply ..), M.bind_apply, he] at hr
    simp only [World.addLog_addLog, List.cons_append, List.nil_append] at hr hf ⊢
    generalize f v s (w.addLog (.asked p ctx :: (es ++ [.answered p v]))) = x at hr hf ⊢
    rcases x with ⟨g | e | _, s1, w1⟩
    · refine ⟨g, .answered v es hq, ?_⟩
      dsimp only at hr
      rw [show (Except.error earlyReturn : Except SessionError Unit) =
        .error (.callbackError .earlyReturn) from rfl, M.bind_apply] at hr
      cases hr
      exact ⟨rfl, rfl⟩
    · dsimp only at hr
      rw [hf e rfl, M.bind_apply] at hr
      cases hr
    · cases hr

theorem needWith_upright {env : Env} (h : env.Upright) {p : Property} {ctx : Provider}
    {f : p.Value → M S G} {s s' : S} {w w' : World} {g : G}
    (hf : ∀ v s w e, (f v s w).1 = .err e → filterNoValue (filterEarly (.error e)) = .error e)
    (hr : needWith env p ctx f s w = (.ok g, s', w')) :
    ∃ v es, Asked p ctx (some v) es ∧ f v s (w.addLog es) = (.ok g, s', w') := by
  unfold needWith at hr
  obtain ⟨r, s1, w1, h1, h2⟩ := M.bind_eq_ok hr
  rcases maybeNeedWith_upright h hf h1 with ⟨es, -, rfl, -⟩ | ⟨v, es, g', ha, rfl, he⟩
  · cases h2
  · cases h2
    exact ⟨v, es, ha, he⟩

end Rsasl

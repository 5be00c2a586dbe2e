/-
A program logic for the errors a piece of mechanism code can end with.
-/
import Verif.Spec.StepErrors
import Verif.Proofs.Post

namespace Rsasl

variable {S T α β G : Type} {E : SessionError → Prop} {env : Env}

/-- Every error of the code is in `E`. -/
structure Raises (E : SessionError → Prop) (m : M S α) : Prop where
  errs : ∀ s w e, (m s w).1 = .err e → E e

namespace Raises

theorem mono {E' : SessionError → Prop} {m : M S α} (h : Raises E m) (hE : ∀ e, E e → E' e) :
    Raises E' m := ⟨fun s w e he => hE e (h.errs s w e he)⟩

theorem pure (a : α) : Raises E (Pure.pure a : M S α) := ⟨nofun⟩
theorem fail {e : SessionError} (h : E e) : Raises E (M.fail e : M S α) :=
  ⟨fun _ _ e' he => by cases he; exact h⟩
theorem panic : Raises E (M.panic : M S α) := ⟨nofun⟩
theorem get : Raises E (M.get : M S S) := ⟨nofun⟩
theorem set (s : S) : Raises E (M.set s) := ⟨nofun⟩
theorem modify (f : S → S) : Raises E (M.modify f) := ⟨nofun⟩
theorem history : Raises E (M.history : M S (List Event)) := ⟨nofun⟩
theorem note (e : Event) : Raises E (M.note e : M S Unit) := ⟨nofun⟩
theorem draw (n : Nat) : Raises E (M.draw n : M S (List Nat)) := ⟨nofun⟩

theorem okOr {e : SessionError} {o : Option α} (h : o = none → E e) :
    Raises E (M.okOr e o : M S α) := by
  cases o with
  | none => exact fail (h rfl)
  | some a => exact pure a

theorem lift {r : Except SessionError α} (h : ∀ e, r = .error e → E e) :
    Raises E (M.lift r : M S α) := by
  cases r with
  | error e => exact fail (h e rfl)
  | ok a => exact pure a

theorem liftOutcome {r : Outcome α} (h : ∀ e, r = .err e → E e) :
    Raises E (M.liftOutcome r : M S α) := by
  cases r with
  | err e => exact fail (h e rfl)
  | ok a => exact pure a
  | panic => exact panic

theorem liftGss {r : Except Nat α} (h : ∀ n, E (.mechanismError (.gss n))) :
    Raises E (Gssapi.liftGss r : M S α) := by
  cases r with
  | error e => exact fail (h e)
  | ok a => exact pure a

/-- `write_all` retries when it is interrupted. -/
theorem _root_.Rsasl.writeAllGo_err (sched : List WResp) (out buf : Bytes) :
    (writeAllGo sched out buf).1 ≠ .error .interrupted := by
  fun_induction writeAllGo sched out buf with
  | case1 => nofun
  | case2 => nofun
  | case3 => nofun
  | case4 _ _ _ _ _ ih => exact ih
  | case5 _ _ _ _ ih => exact ih
  | case6 _ _ _ _ e h => exact fun h' => h (by cases h'; rfl)

theorem writeAll {b : Bytes} (h : ∀ e, e ≠ .interrupted → E (.io e)) :
    Raises E (M.writeAll b : M S Unit) := by
  constructor
  intro s w e he
  unfold M.writeAll Writer.writeAll at he
  have hi := writeAllGo_err w.wr.sched w.wr.out b
  generalize writeAllGo w.wr.sched w.wr.out b = x at he hi
  rcases x with ⟨e' | u, wr⟩
  · cases he
    exact h _ fun h' => hi (h' ▸ rfl)
  · cases he

theorem writeVectored {bs : List Bytes} (h : ∀ e, E (.io e)) :
    Raises E (M.writeVectored bs : M S Unit) := by
  constructor
  intro s w e he
  unfold M.writeVectored at he
  split at he <;> cases he
  exact h _

theorem bind {m : M S α} {f : α → M S β} (h1 : Raises E m) (h2 : ∀ a, Raises E (f a)) :
    Raises E (m >>= f) := by
  constructor
  intro s w e he
  have h1 := h1.errs s w
  rw [M.bind_apply] at he
  generalize m s w = x at he h1
  rcases x with ⟨a | e' | _, s', w'⟩
  · exact (h2 a).errs s' w' e he
  · cases he; exact h1 _ rfl
  · cases he

theorem withLocal {l : T} {m : M (S × T) α} (h : Raises E m) : Raises E (M.withLocal l m) :=
  ⟨fun s w e he => h.errs (s, l) w e he⟩

theorem attempt {m : M S α} : Raises E (M.attempt m) := by
  constructor
  intro s w e he
  unfold M.attempt at he
  split at he <;> cases he

theorem writeJson {bs : List Bytes} (h : E (.mechanismError .oauthSerde)) :
    Raises E (OAuthBearer.writeJson bs : M S Unit) := by
  induction bs with
  | nil => exact pure _
  | cons b bs ih =>
    unfold OAuthBearer.writeJson
    refine bind attempt fun r => ?_
    split
    · exact ih
    · exact fail h

theorem ask {p : Property} {ctx : Provider} {f : p.Value → M S G} (henv : env.ErrsIn E)
    (hf : ∀ v, Raises (fun e => E e ∨ e = .callbackError .noValue) (f v)) :
    Raises E (maybeNeedWith env p ctx f) := by
  constructor
  intro s w e he
  have h1 := maybeNeedWith_errs (E := fun e => E e ∨ e = earlyReturn ∨ e = .callbackError .noValue)
    (.inr (.inl rfl)) henv (fun v s w e h => ((hf v).errs s w e h).imp id .inr) s w e he
  rcases h1 with h1 | rfl | rfl
  · exact h1
  all_goals
    exfalso
    unfold maybeNeedWith at he
    rw [M.bind_ok (M.history_apply ..), M.bind_ok (M.note_apply ..), M.bind_apply] at he
    have ho := runSat_open p f (env.callback w.log env.sd ctx) s (w.addLog [.asked p ctx])
    generalize runSat p f (env.callback w.log env.sd ctx) .open s (w.addLog [.asked p ctx]) = x
      at he ho
    rcases x with ⟨⟨r, cr⟩ | e' | _, s₁, w₁⟩
    · simp only at he
      rw [M.bind_apply] at he
      cases hx : filterNoValue (filterEarly r) with
      | ok u => rw [hx] at he; cases he
      | error e'' =>
        rw [hx] at he
        cases he
        revert hx
        unfold filterNoValue
        split <;> rename_i hy <;> intro hx <;> cases hx
        · unfold filterEarly at hy
          split at hy <;> simp_all [earlyReturn]
    · cases ho
    · cases he

theorem needWith {p : Property} {ctx : Provider} {f : p.Value → M S G} (henv : env.ErrsIn E)
    (hf : ∀ v, Raises (fun e => E e ∨ e = .callbackError .noValue) (f v))
    (h : E (.callbackError (.noCallback p))) : Raises E (needWith env p ctx f) :=
  bind (ask henv hf) fun _ => okOr fun _ => h

theorem maybeNeedCbData {n : Str} {ctx : Provider} {f : Bytes → M S G} (henv : env.ErrsIn E)
    (hf : ∀ v, Raises E (f v)) : Raises E (maybeNeedCbData env n ctx f) := by
  unfold Rsasl.maybeNeedCbData
  dsimp only
  split
  · exact bind (hf _) fun _ => pure _
  · exact ask henv fun v => (hf v).mono fun _ => .inl

theorem needCbData {n : Str} {ctx : Provider} {f : Bytes → M S G} (henv : env.ErrsIn E)
    (hf : ∀ v, Raises E (f v)) (h : E (.missingChannelBindingData n)) :
    Raises E (needCbData env n ctx f) :=
  bind (maybeNeedCbData henv hf) fun _ => okOr fun _ => h

theorem actionOf {E' : SessionError → Prop} {p : Property} {ctx : Provider} {v : p.Value}
    (henv : env.ErrsIn E) (hE : ∀ e, E e → E' e) (hn : E' (.callbackError .noValue))
    (h : E' (.callbackError (.noCallback p))) : Raises E' (action env p ctx v : M S Unit) := by
  constructor
  intro s w e he
  unfold Rsasl.action at he
  rw [M.bind_ok (M.history_apply ..), M.bind_ok (M.note_apply ..)] at he
  obtain ⟨r, cur, es, h1, _, h3⟩ := runAct_errs (henv w.log ctx) (some v) s (w.addLog [.notified p ctx])
  rw [M.bind_ok h1] at he
  dsimp only at he
  cases r with
  | ok u =>
    cases cur with
    | none => cases he
    | some v => cases he; exact h
  | error e' =>
    have h3 := h3 e' rfl
    rw [M.bind_apply] at he
    cases hx : filterEarly (.error e') with
    | ok u =>
      rw [hx] at he
      cases cur with
      | none => cases he
      | some v => cases he; exact h
    | error e'' =>
      rw [hx] at he
      cases he
      unfold filterEarly at hx
      split at hx
      · cases hx
      · cases hx
      · next hne h2 =>
        cases h2
        cases hx
        rcases h3 with h3 | h3 | h3
        · exact hE _ h3
        · exact absurd h3 fun h => hne (by rw [h]; rfl)
        · rw [h3]; exact hn

theorem action {p : Property} {ctx : Provider} {v : p.Value} (henv : env.ErrsIn E)
    (hn : E (.callbackError .noValue)) (h : E (.callbackError (.noCallback p))) :
    Raises E (action env p ctx v : M S Unit) := actionOf henv (fun _ => id) hn h

theorem validate {ctx : Provider} (h : ∀ e, E (.validationError e)) :
    Raises E (validate env ctx : M S Unit) := by
  have hv : ∀ prog : ValProg, Raises E (runVal env.vtag prog : M S _) := by
    intro prog
    constructor
    intro s w e he
    induction prog generalizing w with
    | ret r => cases he
    | finalize tg v k ih => exact ih _ he
    | «with» tg f k ih =>
      unfold runVal at he
      split at he
      · dsimp only at he
        split at he
        · exact ih _ _ he
        · exact ih _ _ he
      · exact ih _ _ he
    | is tg k ih => exact ih _ _ he
  refine bind history fun _ => bind (note _) fun _ => bind (hv _) fun r => ?_
  split
  · exact pure _
  · exact fail (h _)

end Raises

end Rsasl

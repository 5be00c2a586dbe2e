/-
Code that leaves the decision to the validate callback.
-/
import Verif.Proofs.Contacts
import Verif.Proofs.Validate
import Verif.Spec.LastWord

namespace Rsasl

variable {S α β G : Type}

/-- Not a call of the validate callback, nor part of one. -/
def Event.Outside : Event → Prop
  | .validated _ => False
  | _ => True

/-- The code has nothing validated and leaves the session's value alone. -/
structure Aloof (m : M S α) : Prop where
  log : ∀ s w, ∃ es, (m s w).2.2.log = w.log ++ es ∧ ∀ e ∈ es, e.Outside
  slot : ∀ s w, (m s w).2.2.slot = w.slot

namespace Aloof

variable {env : Env}

theorem pure (a : α) : Aloof (Pure.pure a : M S α) := ⟨fun s w => ⟨[], by simp [Pure.pure, M.pure], nofun⟩, fun _ _ => rfl⟩
theorem fail (e : SessionError) : Aloof (M.fail e : M S α) := ⟨fun s w => ⟨[], by simp [M.fail], nofun⟩, fun _ _ => rfl⟩
theorem panic : Aloof (M.panic : M S α) := ⟨fun s w => ⟨[], by simp [M.panic], nofun⟩, fun _ _ => rfl⟩
theorem get : Aloof (M.get : M S S) := ⟨fun s w => ⟨[], by simp [M.get], nofun⟩, fun _ _ => rfl⟩
theorem set (s : S) : Aloof (M.set s) := ⟨fun _ w => ⟨[], by simp [M.set], nofun⟩, fun _ _ => rfl⟩
theorem modify (f : S → S) : Aloof (M.modify f) := ⟨fun s w => ⟨[], by simp [M.modify], nofun⟩, fun _ _ => rfl⟩
theorem draw (n : Nat) : Aloof (M.draw n : M S (List Nat)) := ⟨fun s w => ⟨[], by simp [M.draw], nofun⟩, fun _ _ => rfl⟩
theorem history : Aloof (M.history : M S (List Event)) := ⟨fun s w => ⟨[], by simp [M.history], nofun⟩, fun _ _ => rfl⟩
theorem note {e : Event} (h : e.Outside) : Aloof (M.note e : M S Unit) :=
  ⟨fun s w => ⟨[e], rfl, by simpa using h⟩, fun _ _ => rfl⟩

theorem okOr (e : SessionError) (o : Option α) : Aloof (M.okOr e o : M S α) := by
  cases o with
  | none => exact fail e
  | some a => exact Aloof.pure a

theorem lift (r : Except SessionError α) : Aloof (M.lift r : M S α) := by
  cases r with
  | error e => exact fail e
  | ok a => exact Aloof.pure a

theorem liftOutcome (o : Outcome α) : Aloof (M.liftOutcome o : M S α) := by
  cases o with
  | ok a => exact Aloof.pure a
  | err e => exact fail e
  | panic => exact panic

theorem liftGss (r : Except Nat α) : Aloof (Gssapi.liftGss r : M S α) := by
  cases r with
  | error e => exact fail _
  | ok a => exact Aloof.pure a

theorem writeAll (b : Bytes) : Aloof (M.writeAll b : M S Unit) := by
  refine ⟨fun s w => ?_, fun s w => ?_⟩ <;>
    obtain ⟨n, sched, -, -, h | ⟨e, h⟩⟩ := M.writeAll_cases b s w <;> rw [h]
  · exact ⟨[], by simp, nofun⟩
  · exact ⟨[], by simp, nofun⟩

theorem writeVectored (b : List Bytes) : Aloof (M.writeVectored b : M S Unit) := by
  refine ⟨fun s w => ?_, fun s w => ?_⟩ <;>
    obtain ⟨n, sched, -, -, h | ⟨e, h⟩⟩ := M.writeVectored_cases b s w <;> rw [h]
  · exact ⟨[], by simp, nofun⟩
  · exact ⟨[], by simp, nofun⟩

theorem bind {m : M S α} {f : α → M S β} (h1 : Aloof m) (h2 : ∀ a, Aloof (f a)) :
    Aloof (m >>= f) := by
  refine ⟨fun s w => ?_, fun s w => ?_⟩
  · obtain ⟨es, e1, l1⟩ := h1.log s w
    rcases hm : m s w with ⟨o, s1, w1⟩
    rw [hm] at e1
    cases o with
    | ok a =>
      rw [M.bind_ok hm]
      obtain ⟨es', e2, l2⟩ := (h2 a).log s1 w1
      refine ⟨es ++ es', by rw [e2, e1, List.append_assoc], fun e he => ?_⟩
      rcases List.mem_append.1 he with he | he
      · exact l1 e he
      · exact l2 e he
    | err e => rw [M.bind_err hm]; exact ⟨es, e1, l1⟩
    | panic => rw [M.bind_panic hm]; exact ⟨es, e1, l1⟩
  · have e1 := h1.slot s w
    rcases hm : m s w with ⟨o, s1, w1⟩
    rw [hm] at e1
    cases o with
    | ok a => rw [M.bind_ok hm, (h2 a).slot]; exact e1
    | err e => rw [M.bind_err hm]; exact e1
    | panic => rw [M.bind_panic hm]; exact e1

theorem attempt {m : M S α} (h : Aloof m) : Aloof (M.attempt m) := by
  refine ⟨fun s w => ?_, fun s w => ?_⟩
  · have h' := h.log s w
    unfold M.attempt
    rcases hm : m s w with ⟨o, s', w'⟩
    rw [hm] at h'
    cases o <;> exact h'
  · have h' := h.slot s w
    unfold M.attempt
    rcases hm : m s w with ⟨o, s', w'⟩
    rw [hm] at h'
    cases o <;> exact h'

theorem withLocal {T : Type} {t : T} {m : M (S × T) α} (h : Aloof m) : Aloof (M.withLocal t m) :=
  ⟨fun s w => h.log (s, t) w, fun s w => h.slot (s, t) w⟩

theorem writeJson (bs : List Bytes) : Aloof (OAuthBearer.writeJson bs : M S Unit) := by
  induction bs with
  | nil => exact Aloof.pure _
  | cons b bs ih =>
    unfold OAuthBearer.writeJson
    refine bind (attempt (writeAll b)) fun r => ?_
    split
    · exact ih
    · exact fail _

theorem satisfy {p : Property} {f : p.Value → M S G} (hf : ∀ v, Aloof (f v)) (v : p.Value)
    (cr : CR G) : Aloof (cr.satisfy p f v) := by
  cases cr with
  | «open» =>
    refine bind (note trivial) fun _ => bind (attempt (hf v)) fun r => ?_
    split
    · exact Aloof.pure _
    · exact Aloof.pure _
  | satisfied g => exact Aloof.pure _
  | gone => exact Aloof.pure _

theorem runSat {p : Property} {f : p.Value → M S G} (hf : ∀ v, Aloof (f v)) (prog : CbProg)
    (cr : CR G) : Aloof (Rsasl.runSat p f prog cr) := by
  induction prog generalizing cr with
  | ret r => exact Aloof.pure _
  | satisfy q v k ih =>
    unfold Rsasl.runSat
    split
    · exact bind (satisfy hf _ _) fun _ => ih _ _
    · exact ih _ _
  | satisfyWith q v k ih =>
    unfold Rsasl.runSat
    split
    · refine bind (note trivial) fun _ => ?_
      split
      · exact ih _ _
      · exact bind (satisfy hf _ _) fun _ => ih _ _
    · exact ih _ _
  | getAction q k ih => exact ih _ _
  | is q k ih => exact ih _ _

theorem ask {p : Property} {ctx : Provider} {f : p.Value → M S G} (hf : ∀ v, Aloof (f v)) :
    Aloof (maybeNeedWith env p ctx f) :=
  bind history fun _ => bind (note trivial) fun _ => bind (runSat hf _ _) fun _ =>
    bind (lift _) fun _ => Aloof.pure _

theorem needWith {p : Property} {ctx : Provider} {f : p.Value → M S G} (hf : ∀ v, Aloof (f v)) :
    Aloof (needWith env p ctx f) := bind (ask hf) fun _ => okOr _ _

theorem needCbData {n : Str} {ctx : Provider} {f : Bytes → M S G} (hf : ∀ v, Aloof (f v)) :
    Aloof (needCbData env n ctx f) := by
  refine bind ?_ fun _ => okOr _ _
  unfold maybeNeedCbData
  dsimp only
  split
  · exact bind (hf _) fun _ => Aloof.pure _
  · exact ask hf

end Aloof

/-- If the code has someone validated then once and last, and the callback's word is how it ends. -/
structure Defers (env : Env) (m : M S α) : Prop where
  run : ∀ s w, (∃ es, (m s w).2.2.log = w.log ++ es ∧ (∀ e ∈ es, e.Outside) ∧
      (m s w).2.2.slot = w.slot) ∨
    ∃ es ctx es' a, (∀ e ∈ es, e.Outside) ∧ VQuiet es' ∧
      (m s w).2.2.log = w.log ++ es ++ .validated ctx :: es' ∧
      (m s w).1 = (match Spec.returned env.vtag w.slot.isNone
          (env.validate (w.log ++ es) env.sd ctx) with
        | .ok () => .ok a
        | .error e => .err (.validationError e)) ∧
      (m s w).2.2.slot = match w.slot with
        | some v => some v
        | none => Spec.firstValue env.vtag (env.validate (w.log ++ es) env.sd ctx)

namespace Defers

variable {env : Env}

theorem aloof {m : M S α} (h : Aloof m) : Defers env m :=
  ⟨fun s w => .inl (let ⟨es, h1, h2⟩ := h.log s w; ⟨es, h1, h2, h.slot s w⟩)⟩

theorem bind {m : M S α} {f : α → M S β} (h1 : Aloof m) (h2 : ∀ a, Defers env (f a)) :
    Defers env (m >>= f) := by
  refine ⟨fun s w => ?_⟩
  obtain ⟨es, e1, l1⟩ := h1.log s w
  have s1 := h1.slot s w
  rcases hm : m s w with ⟨o, st1, w1⟩
  rw [hm] at e1 s1
  simp only at e1 s1
  cases o with
  | ok a =>
    rw [M.bind_ok hm]
    rcases (h2 a).run st1 w1 with ⟨es', e2, l2, s2⟩ | ⟨es', ctx, es2, b, l2, q, e2, r2, s2⟩
    · refine .inl ⟨es ++ es', by rw [e2, e1, List.append_assoc], fun e he => ?_, by rw [s2, s1]⟩
      rcases List.mem_append.1 he with he | he
      · exact l1 e he
      · exact l2 e he
    · refine .inr ⟨es ++ es', ctx, es2, b, fun e he => ?_, q, ?_, ?_, ?_⟩
      · rcases List.mem_append.1 he with he | he
        · exact l1 e he
        · exact l2 e he
      · rw [e2, e1]; simp
      · rw [r2, s1, e1, List.append_assoc]
      · rw [s2, s1, e1, List.append_assoc]
  | err e => rw [M.bind_err hm]; exact .inl ⟨es, e1, l1, s1⟩
  | panic => rw [M.bind_panic hm]; exact .inl ⟨es, e1, l1, s1⟩

/-- What follows `validate(..)?` only stores things. -/
structure Settles (m : M S β) : Prop where
  run : ∀ s w, ∃ b s', m s w = (.ok b, s', w)

theorem Settles.pure (b : β) : Settles (Pure.pure b : M S β) := ⟨fun s _ => ⟨b, s, rfl⟩⟩

theorem Settles.set {m : M S β} (s' : S) (h : Settles m) : Settles (do M.set s'; m : M S β) :=
  ⟨fun _ w => h.run s' w⟩

theorem validate {ctx : Provider} {k : M S β} (h : Settles k) :
    Defers env (do Rsasl.validate env ctx; k : M S β) := by
  refine ⟨fun s w => .inr ?_⟩
  obtain ⟨es, hq, hv⟩ := validate_eq env ctx s w
  refine ⟨[], ctx, es, ?_⟩
  simp only [List.append_nil, List.not_mem_nil, false_implies, implies_true, true_and, hq]
  generalize hw : ({ w with
          slot := match w.slot with
            | some v => some v
            | none => Spec.firstValue env.vtag (env.validate w.log env.sd ctx)
          log := w.log ++ .validated ctx :: es } : World) = w1 at hv
  obtain ⟨b, s', hk⟩ := h.run s w1
  refine ⟨b, ?_⟩
  have hx : (do Rsasl.validate env ctx; k : M S β) s w =
      ((match Spec.returned env.vtag w.slot.isNone (env.validate w.log env.sd ctx) with
        | .ok () => .ok b
        | .error e => .err (.validationError e)), (match Spec.returned env.vtag w.slot.isNone (env.validate w.log env.sd ctx) with
        | .ok () => s'
        | .error _ => s), w1) := by
    rw [M.bind_apply, hv]
    generalize Spec.returned env.vtag w.slot.isNone (env.validate w.log env.sd ctx) = x
    rcases x with e | u
    · rfl
    · exact hk
  rw [hx]
  exact ⟨by rw [← hw], rfl, by rw [← hw]⟩

/-- The same where the call is inside of a function. -/
theorem thenSettles {m : M S α} {f : α → M S β} (h : Defers env m) (hf : ∀ a, Settles (f a)) :
    Defers env (m >>= f) := by
  refine ⟨fun s w => ?_⟩
  have key : ∃ s', (m >>= f) s w = (match (m s w).1 with
      | .ok a => (f a (m s w).2.1 (m s w).2.2).1
      | .err e => .err e
      | .panic => .panic, s', (m s w).2.2) := by
    rcases hm : m s w with ⟨o, s1, w1⟩
    cases o with
    | ok a =>
      obtain ⟨b, s', hb⟩ := (hf a).run s1 w1
      rw [M.bind_ok hm]
      exact ⟨s', by simp only [hb]⟩
    | err e => rw [M.bind_err hm]; exact ⟨s1, rfl⟩
    | panic => rw [M.bind_panic hm]; exact ⟨s1, rfl⟩
  obtain ⟨s', key⟩ := key
  rw [key]
  rcases h.run s w with h | ⟨es, ctx, es', a, l, q, e, r, sl⟩
  · exact .inl h
  · obtain ⟨b, s2, hb⟩ := (hf a).run (m s w).2.1 (m s w).2.2
    refine .inr ⟨es, ctx, es', b, l, q, e, ?_, sl⟩
    simp only
    rw [r]
    generalize Spec.returned env.vtag w.slot.isNone (env.validate (w.log ++ es) env.sd ctx) = x
    rcases x with e | u
    · rfl
    · simp only [hb]

theorem validate_last {ctx : Provider} : Defers env (Rsasl.validate env ctx : M S Unit) := by
  have := validate (env := env) (ctx := ctx) (S := S) (Settles.pure ())
  have e : (do Rsasl.validate env ctx; Pure.pure () : M S Unit) = Rsasl.validate env ctx := by
    funext s w
    rcases hm : Rsasl.validate env ctx s w with ⟨o, s1, w1⟩
    cases o with
    | ok a => rw [M.bind_ok hm]; rfl
    | err e => rw [M.bind_err hm]
    | panic => rw [M.bind_panic hm]
  rwa [e] at this

end Defers

/-- Decompose code of a server. -/
macro "defers" : tactic => `(tactic|
  repeat (first
    | assumption
    | exact Aloof.pure _ | exact Aloof.fail _ | exact Aloof.panic | exact Aloof.get
    | exact Aloof.set _ | exact Aloof.modify _
    | exact Aloof.draw _ | exact Aloof.writeAll _
    | exact Aloof.writeVectored _ | exact Aloof.writeJson _ | exact Aloof.okOr _ _
    | exact Aloof.lift _ | exact Aloof.liftOutcome _ | exact Aloof.liftGss _
    | refine Aloof.needWith ?_
    | refine Aloof.ask ?_
    | refine Aloof.needCbData ?_
    | exact Defers.validate (.pure _)
    | exact Defers.validate (.set _ (.pure _))
    | exact Defers.validate_last
    | apply Aloof.withLocal | apply Aloof.bind | apply Defers.bind
    | intro _ | split | dsimp only
    | apply Defers.aloof))

end Rsasl

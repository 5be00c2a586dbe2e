/-
C06 (callback part), C16, C17, C18, C19 and C43: property requests, actions and validation.
-/
import Verif.Model.Registry
import Verif.Proofs.Callback
import Verif.Proofs.Validate

namespace Rsasl

variable {S G : Type}

/-! ## C17 -/

/-- The answers for `p` given in a log. -/
def answersOf (p : Property) (log : List Event) : List p.Value :=
  log.filterMap (fun e =>
    match e with
    | .answered q v => if h : q = p then some (h ▸ v) else none
    | _ => none)

theorem answersOf_append (p : Property) (a b : List Event) :
    answersOf p (a ++ b) = answersOf p a ++ answersOf p b := List.filterMap_append ..

theorem answersOf_quiet (p : Property) {es : List Event} (h : Quiet es) : answersOf p es = [] := by
  unfold answersOf
  rw [List.filterMap_eq_nil_iff]
  intro e he
  obtain ⟨q, rfl⟩ := h e he
  rfl

/-- The first answer for `p` a callback gives when it is asked for `p`, if it gets that far.
(Until then nothing it does has any effect.) -/
inductive FirstAnswer (p : Property) : CbProg → Option p.Value → Prop where
  | none (r) : FirstAnswer p (.ret r) none
  | satisfy (v k) : FirstAnswer p (.satisfy p v k) (some v)
  | satisfyWith (v k) : FirstAnswer p (.satisfyWith p (.ok v) k) (some v)
  | failWith (e k v) (h : FirstAnswer p (k (.error e)) v) :
      FirstAnswer p (.satisfyWith p (.error e) k) v
  | other (q u k v) (hq : q ≠ p) (h : FirstAnswer p (k (.ok ())) v) :
      FirstAnswer p (.satisfy q u k) v
  | otherWith (q u k v) (hq : q ≠ p) (h : FirstAnswer p (k (.ok ())) v) :
      FirstAnswer p (.satisfyWith q u k) v
  | action (q k v) (h : FirstAnswer p (k Option.none) v) : FirstAnswer p (.getAction q k) v
  | is (q k v) (h : FirstAnswer p (k (decide (q = p))) v) : FirstAnswer p (.is q k) v

theorem firstAnswer_exists (p : Property) (prog : CbProg) : ∃ v, FirstAnswer p prog v := by
  induction prog with
  | ret r => exact ⟨_, .none r⟩
  | satisfy q u k ih =>
    by_cases hq : q = p
    · subst hq; exact ⟨_, .satisfy u k⟩
    · obtain ⟨v, hv⟩ := ih (.ok ()); exact ⟨v, .other q u k v hq hv⟩
  | satisfyWith q u k ih =>
    by_cases hq : q = p
    · subst hq
      cases u with
      | ok u => exact ⟨_, .satisfyWith u k⟩
      | error e => obtain ⟨v, hv⟩ := ih (.error e); exact ⟨v, .failWith e k v hv⟩
    · obtain ⟨v, hv⟩ := ih (.ok ()); exact ⟨v, .otherWith q u k v hq hv⟩
  | getAction q k ih => obtain ⟨v, hv⟩ := ih Option.none; exact ⟨v, .action q k v hv⟩
  | is q k ih => obtain ⟨v, hv⟩ := ih (decide (q = p)); exact ⟨v, .is q k v hv⟩

/-- The log grows by the consumed answer and own evaluations of the callback. -/
theorem runSat_log_closed (p : Property) (prog : CbProg) (cr : CR G) (hcr : cr ≠ .open)
    (f : p.Value → M S G) (s : S) (w : World) :
    answersOf p (runSat p f prog cr s w).2.2.log = answersOf p w.log := by
  obtain ⟨r, cr', es, h, hq, _⟩ := runSat_closed p f prog cr hcr s w
  rw [h]
  simp [answersOf_append, answersOf_quiet p hq]

theorem runSat_first (p : Property) (prog : CbProg) (v : Option p.Value)
    (hv : FirstAnswer p prog v) (f : p.Value → M S G)
    (hf : ∀ v s w, (f v s w).2.2.log = w.log) (s : S) (w : World) :
    answersOf p (runSat p f prog .open s w).2.2.log = answersOf p w.log ++ v.toList := by
  have key : ∀ (v : p.Value) (k : Except SessionError Unit → CbProg) (w : World),
      answersOf p (((do
        let (r, cr) ← CR.satisfy p f v .open
        runSat p f (k (afterSatisfy r)) cr) : M S _) s w).2.2.log = answersOf p w.log ++ [v] := by
    intro v k w
    have hl := hf v s (w.addLog [.answered p v])
    simp only [CR.satisfy]
    simp only [M.bind_apply, M.note_apply, M.attempt_apply]
    generalize f v s (w.addLog [.answered p v]) = x at hl
    have ha : answersOf p (w.log ++ [.answered p v]) = answersOf p w.log ++ [v] := by
      rw [answersOf_append]; simp [answersOf]
    rcases x with ⟨g | e | _, s', w'⟩
    · simp only [M.pure_apply]
      rw [runSat_log_closed p _ _ (by simp)]
      simp only at hl
      rw [hl]; exact ha
    · simp only [M.pure_apply]
      rw [runSat_log_closed p _ _ (by simp)]
      simp only at hl
      rw [hl]; exact ha
    · simp only at hl ⊢
      rw [hl]; exact ha
  induction hv generalizing w with
  | none r => simp [runSat]
  | satisfy v k => unfold runSat; rw [dif_pos rfl]; exact key v k w
  | satisfyWith v k =>
    unfold runSat
    rw [dif_pos rfl, M.bind_ok (M.note_apply ..)]
    have := key v k (w.addLog [.evaluated p])
    rw [World.addLog_log, answersOf_append, answersOf_quiet p (Quiet.single p),
      List.append_nil] at this
    exact this
  | failWith e k v _ ih =>
    unfold runSat
    rw [dif_pos rfl, M.bind_ok (M.note_apply ..)]
    have := ih (w.addLog [.evaluated p])
    rw [World.addLog_log, answersOf_append, answersOf_quiet p (Quiet.single p),
      List.append_nil] at this
    exact this
  | other q u k v hq _ ih => unfold runSat; rw [dif_neg hq]; exact ih w
  | otherWith q u k v hq _ ih => unfold runSat; rw [dif_neg hq]; exact ih w
  | action q k v _ ih => unfold runSat; exact ih w
  | is q k v _ ih => unfold runSat; exact ih w

/-- C17: whatever the callback does, the mechanism consumes at most one answer per request, and
that is the first one the callback gave for the requested property (values given for other
properties before have no effect). For every closure that does not itself make requests. -/
theorem C17_first_answer (env : Env) (p : Property) (ctx : Provider) (f : p.Value → M S G)
    (hf : ∀ v s w, (f v s w).2.2.log = w.log) (s : S) (w : World) :
    ∃ v : Option p.Value, FirstAnswer p (env.callback w.log env.sd ctx) v ∧
      answersOf p (maybeNeedWith env p ctx f s w).2.2.log = answersOf p w.log ++ v.toList := by
  obtain ⟨v, hv⟩ := firstAnswer_exists p (env.callback w.log env.sd ctx)
  refine ⟨v, hv, ?_⟩
  have h := runSat_first p _ v hv f hf s (w.addLog [.asked p ctx])
  unfold maybeNeedWith
  rw [M.bind_ok (M.history_apply ..), M.bind_ok (M.note_apply ..), M.bind_apply]
  have ha : answersOf p (w.addLog [.asked p ctx]).log = answersOf p w.log := by
    rw [World.addLog_log, answersOf_append]; simp [answersOf]
  rw [ha] at h
  generalize runSat p f (env.callback w.log env.sd ctx) .open s (w.addLog [.asked p ctx]) = x at h
  rcases x with ⟨⟨r, cr⟩ | e | _, s', w'⟩
  · simp only [M.bind_apply]
    cases filterNoValue (filterEarly r) <;> exact h
  · exact h
  · exact h

/-- C17: giving a value for another property than the requested one has no effect. -/
theorem C17_other_property (p q : Property) (hq : q ≠ p) (u : q.Value)
    (k : Except SessionError Unit → CbProg) (f : p.Value → M S G) (cr : CR G) :
    runSat p f (.satisfy q u k) cr = runSat p f (k (.ok ())) cr := by
  rw [runSat, dif_neg hq]

/-- The full statement of C17 about repeated answers: if the callback answers and later answers
again, the first answer is still the one the mechanism gets. -/
def C17_stays_answered : Prop :=
  ∀ (p : Property) (v : p.Value) (prog : CbProg) (sd : SessionData),
    FirstAnswer p prog (some v) →
    ∀ (w : World) (vtag : Nat),
      (needWith (S := Unit)
        { callback := fun _ _ _ => prog, validate := fun _ _ _ => .ret (.ok ()),
          chanbind := fun _ => none, vtag := vtag, sd := sd }
        p .empty (fun v => pure v) () w).1 = .ok v

/-- A callback that satisfies `AuthId` twice. -/
def answerTwice : CbProg :=
  .satisfy .authId (c!"alice") fun _ => .satisfy .authId (c!"alice") fun _ => .ret (.ok ())

/-- C17 is violated: answering twice loses the answer, the request fails with `NoCallback`. -/
theorem C17_stays_answered_false : ¬ C17_stays_answered := by
  intro h
  have := h .authId (c!"alice") answerTwice ⟨⟨b!"PLAIN", 300, .client⟩, .client⟩ (.satisfy _ _)
    ⟨⟨[], []⟩, fun _ => 0, none, []⟩ 0
  have h2 : (needWith (S := Unit)
        { callback := fun _ _ _ => answerTwice, validate := fun _ _ _ => .ret (.ok ()),
          chanbind := fun _ => none, vtag := 0,
          sd := ⟨⟨b!"PLAIN", 300, .client⟩, .client⟩ }
        .authId .empty (fun v => pure v) () ⟨⟨[], []⟩, fun _ => 0, none, []⟩).1 =
      .err (.callbackError (.noCallback .authId)) := by rfl
  rw [h2] at this
  cases this

/-- C17 is violated: a `satisfy_with` after the request was answered evaluates its closure. -/
theorem C17_reevaluates :
    (needWith (S := Unit)
        { callback := fun _ _ _ => .satisfyWith .authId (.ok (c!"a")) fun _ =>
            .satisfyWith .authId (.ok (c!"b")) fun r => .ret r,
          validate := fun _ _ _ => .ret (.ok ()), chanbind := fun _ => none, vtag := 0,
          sd := ⟨⟨b!"PLAIN", 300, .client⟩, .client⟩ }
        .authId .empty (fun v => pure v) () ⟨⟨[], []⟩, fun _ => 0, none, []⟩).2.2.log =
      [.asked .authId .empty, .evaluated .authId, .answered .authId (c!"a"),
        .evaluated .authId] := by rfl

/-- C17, what holds of the claim about repeated answers: a callback that answers once and then
returns gets its answer through. Missing: callbacks that answer again (see above). -/
theorem C17_answered_partial (env : Env) (p : Property) (ctx : Provider) (v : p.Value) (w : World)
    (h : Answers p v (env.callback w.log env.sd ctx)) (f : p.Value → M S G) (s : S) :
    ∃ es, Quiet es ∧ ∀ g s' w',
      f v s (w.addLog (.asked p ctx :: es ++ [.answered p v])) = (.ok g, s', w') →
      maybeNeedWith env p ctx f s w = (.ok (some g), s', w') ∧
      needWith env p ctx f s w = (.ok g, s', w') := by
  obtain ⟨es, hq, he⟩ := maybeNeedWith_answers h f s
  refine ⟨es, hq, fun g s' w' hf => ?_⟩
  rw [hf] at he
  refine ⟨he, ?_⟩
  unfold needWith
  rw [M.bind_ok he]
  rfl

example : Answers .password (b!"pw") (.satisfy .authId (c!"alice") fun
    | .error e => .ret (.error e)
    | .ok () => .satisfy .password (b!"pw") fun r => .ret r) :=
  .skip _ _ _ (by decide) (.satisfy _ (fun _ => rfl))

/-! ## C18 -/

/-- The callback returns `r` to a request for `p` without having satisfied it. -/
inductive Returns (p : Property) (r : Except SessionError Unit) : CbProg → Prop where
  | ret : Returns p r (.ret r)
  | failWith (e k) (h : Returns p r (k (.error e))) : Returns p r (.satisfyWith p (.error e) k)
  | other (q u k) (hq : q ≠ p) (h : Returns p r (k (.ok ()))) : Returns p r (.satisfy q u k)
  | otherWith (q u k) (hq : q ≠ p) (h : Returns p r (k (.ok ()))) :
      Returns p r (.satisfyWith q u k)
  | action (q k) (h : Returns p r (k none)) : Returns p r (.getAction q k)
  | is (q k) (h : Returns p r (k (decide (q = p)))) : Returns p r (.is q k)

theorem runSat_returns {p : Property} {r : Except SessionError Unit} {prog : CbProg}
    (h : Returns p r prog) (f : p.Value → M S G) (s : S) (w : World) :
    ∃ es, Quiet es ∧ runSat p f prog .open s w = (.ok (r, .open), s, w.addLog es) := by
  induction h generalizing w with
  | ret => exact ⟨[], Quiet.nil, by simp [runSat]⟩
  | failWith e k _ ih =>
    obtain ⟨es, hq, h⟩ := ih (w.addLog [.evaluated p])
    refine ⟨[.evaluated p] ++ es, (Quiet.single p).append hq, ?_⟩
    unfold runSat
    rw [dif_pos rfl, M.bind_ok (M.note_apply ..)]
    simpa using h
  | other q u k hq _ ih => unfold runSat; rw [dif_neg hq]; exact ih w
  | otherWith q u k hq _ ih => unfold runSat; rw [dif_neg hq]; exact ih w
  | action q k _ ih => unfold runSat; exact ih w
  | is q k _ ih => unfold runSat; exact ih w

/-- The results of a callback that mean "nothing to report": `Ok`, "no value", and an early return
passed on. -/
def Benign (r : Except SessionError Unit) : Prop :=
  r = .ok () ∨ r = .error (.callbackError .noValue) ∨ r = .error (.callbackError .earlyReturn)

theorem filterEarly_error {e : SessionError} (h : e ≠ .callbackError .earlyReturn) :
    filterEarly (.error e) = .error e := by
  unfold filterEarly
  split
  · next h => cases h
  · next h' => cases h'; exact absurd rfl h
  · next h' => exact h'.symm

theorem filterNoValue_error {e : SessionError} (h : e ≠ .callbackError .noValue) :
    filterNoValue (.error e) = .error e := by
  unfold filterNoValue
  split
  · next h => cases h
  · next h' => cases h'; exact absurd rfl h
  · next h' => exact h'.symm

/-- C18: an unanswered optional request gives `None` when the callback returned `Ok` or "no
value" (or passed on an early return), and otherwise the callback's error; the mechanism's state
is untouched. -/
theorem C18_unanswered_optional (env : Env) (p : Property) (ctx : Provider) (w : World)
    (r : Except SessionError Unit) (h : Returns p r (env.callback w.log env.sd ctx))
    (f : p.Value → M S G) (s : S) :
    (maybeNeedWith env p ctx f s w).2.1 = s ∧
    (Benign r → (maybeNeedWith env p ctx f s w).1 = .ok none) ∧
    (∀ e, r = .error e → ¬ Benign r → (maybeNeedWith env p ctx f s w).1 = .err e) := by
  obtain ⟨es, hq, he⟩ := runSat_returns h f s (w.addLog [.asked p ctx])
  unfold maybeNeedWith
  rw [M.bind_ok (M.history_apply ..), M.bind_ok (M.note_apply ..), M.bind_ok he]
  by_cases hb : Benign r
  · refine ⟨?_, fun _ => ?_, fun e _ hn => absurd hb hn⟩ <;>
      rcases hb with rfl | rfl | rfl <;> rfl
  · rcases r with e | u
    · have h1 : e ≠ .callbackError .earlyReturn := fun h => hb (.inr (.inr (by rw [h])))
      have h2 : e ≠ .callbackError .noValue := fun h => hb (.inr (.inl (by rw [h])))
      simp only [filterEarly_error h1, filterNoValue_error h2]
      refine ⟨rfl, fun h => absurd h hb, fun e' he' _ => ?_⟩
      cases he'
      rfl
    · exact absurd (.inl rfl) hb

/-- C18: an unanswered required request gives `NoCallback` in the cases where the optional one
gives `None`, and the callback's error otherwise. -/
theorem C18_unanswered_required (env : Env) (p : Property) (ctx : Provider) (w : World)
    (r : Except SessionError Unit) (h : Returns p r (env.callback w.log env.sd ctx))
    (f : p.Value → M S G) (s : S) :
    (needWith env p ctx f s w).2.1 = s ∧
    (Benign r → (needWith env p ctx f s w).1 = .err (.callbackError (.noCallback p))) ∧
    (∀ e, r = .error e → ¬ Benign r → (needWith env p ctx f s w).1 = .err e) := by
  obtain ⟨h1, h2, h3⟩ := C18_unanswered_optional env p ctx w r h f s
  unfold needWith
  rw [M.bind_apply]
  generalize maybeNeedWith env p ctx f s w = x at h1 h2 h3
  rcases x with ⟨o, s', w'⟩
  simp only at h1 h2 h3
  subst h1
  by_cases hb : Benign r
  · cases h2 hb
    exact ⟨rfl, fun _ => rfl, fun _ _ h => absurd hb h⟩
  · rcases r with e | u
    · cases h3 e rfl hb
      refine ⟨rfl, fun h => absurd h hb, fun e' he' _ => ?_⟩
      cases he'
      rfl
    · exact absurd (.inl rfl) hb

/-- C18: an answered request returns the consumed answer, and a failure of the mechanism's
closure is returned as such. -/
theorem C18_answered (env : Env) (p : Property) (ctx : Provider) (v : p.Value) (w : World)
    (h : Answers p v (env.callback w.log env.sd ctx)) (f : p.Value → M S G) (s : S) :
    ∃ es, Quiet es ∧
      match f v s (w.addLog (.asked p ctx :: es ++ [.answered p v])) with
      | (.ok g, s', w') =>
        maybeNeedWith env p ctx f s w = (.ok (some g), s', w') ∧
        needWith env p ctx f s w = (.ok g, s', w')
      | (.err e, s', w') =>
        e ≠ .callbackError .noValue → e ≠ .callbackError .earlyReturn →
        maybeNeedWith env p ctx f s w = (.err e, s', w') ∧
        needWith env p ctx f s w = (.err e, s', w')
      | (.panic, s', w') =>
        maybeNeedWith env p ctx f s w = (.panic, s', w') ∧
        needWith env p ctx f s w = (.panic, s', w') := by
  obtain ⟨es, hq, he⟩ := maybeNeedWith_answers h f s
  refine ⟨es, hq, ?_⟩
  generalize f v s (w.addLog (.asked p ctx :: es ++ [.answered p v])) = x at he
  rcases x with ⟨g | e | _, s', w'⟩
  · exact ⟨he, by unfold needWith; rw [M.bind_ok he]; rfl⟩
  · intro h1 h2
    have : filterNoValue (filterEarly (.error e)) = .error e := by
      rw [filterEarly_error h2, filterNoValue_error h1]
    simp only [this] at he
    exact ⟨he, by unfold needWith; rw [M.bind_err he]⟩
  · exact ⟨he, by unfold needWith; rw [M.bind_panic he]⟩

/-- C18: a required request that succeeds did consume an answer, for every callback, and nothing but
that comes of it. -/
theorem C18_required_ok (env : Env) (p : Property) (ctx : Provider) (f : p.Value → M S G)
    (s s' : S) (w w' : World) (g : G) (h : needWith env p ctx f s w = (.ok g, s', w')) :
    ∃ v es es' w₁, Quiet es ∧ Quiet es' ∧
      f v s (w.addLog (.asked p ctx :: es ++ [.answered p v])) = (.ok g, s', w₁) ∧
      w' = w₁.addLog es' := by
  exact needWith_ok h

/-- C18: an early return is never surfaced, for every callback and every closure; nor is
"no value". -/
theorem C18_early_return_hidden (env : Env) (p : Property) (ctx : Provider) (f : p.Value → M S G)
    (s : S) (w : World) :
    (maybeNeedWith env p ctx f s w).1 ≠ .err (.callbackError .earlyReturn) ∧
    (maybeNeedWith env p ctx f s w).1 ≠ .err (.callbackError .noValue) ∧
    (needWith env p ctx f s w).1 ≠ .err (.callbackError .earlyReturn) ∧
    (needWith env p ctx f s w).1 ≠ .err (.callbackError .noValue) := by
  have key : (maybeNeedWith env p ctx f s w).1 ≠ .err (.callbackError .earlyReturn) ∧
      (maybeNeedWith env p ctx f s w).1 ≠ .err (.callbackError .noValue) := by
    have hr := runSat_open p f (env.callback w.log env.sd ctx) s (w.addLog [.asked p ctx])
    unfold maybeNeedWith
    rw [M.bind_ok (M.history_apply ..), M.bind_ok (M.note_apply ..), M.bind_apply]
    generalize runSat p f (env.callback w.log env.sd ctx) .open s (w.addLog [.asked p ctx]) = x
      at hr
    have hx : ∀ e, x.1 ≠ .err e := by
      intro e he
      cases hr <;> cases he
    rcases x with ⟨⟨r, cr⟩ | e | _, s', w'⟩
    · simp only [M.bind_apply]
      have h1 : filterNoValue (filterEarly r) ≠ .error (.callbackError .earlyReturn) := by
        intro h
        unfold filterEarly at h
        split at h
        · cases h
        · cases h
        · next e hne =>
          unfold filterNoValue at h
          split at h
          · cases h
          · cases h
          · next h' => cases h'; cases h; exact hne rfl
      have h2 : filterNoValue (filterEarly r) ≠ .error (.callbackError .noValue) := by
        intro h
        unfold filterNoValue at h
        split at h
        · cases h
        · cases h
        · next e hne h' => cases h; exact hne rfl
      rcases hfr : filterNoValue (filterEarly r) with e | u
      · rw [hfr] at h1 h2
        constructor
        · intro h; cases h; exact h1 rfl
        · intro h; cases h; exact h2 rfl
      · exact ⟨by simp, by simp⟩
    · exact absurd rfl (hx e)
    · exact ⟨by simp, by simp⟩
  refine ⟨key.1, key.2, ?_⟩
  unfold needWith
  rw [M.bind_apply]
  generalize maybeNeedWith env p ctx f s w = x at key
  rcases x with ⟨o | e | _, s', w'⟩
  · rcases o with _ | g
    · constructor <;> (intro h; cases h)
    · constructor <;> (intro h; cases h)
  · refine ⟨fun h => key.1 ?_, fun h => key.2 ?_⟩ <;> (cases h; rfl)
  · exact ⟨by simp, by simp⟩

example : Returns .authzId (.error (.callbackError .noValue))
    (.satisfy .authId (c!"alice") fun _ => .ret (.error (.callbackError .noValue))) :=
  .other _ _ _ (by decide) .ret

/-! ## C19 -/

/-- The deliveries of an action in a log. -/
def isDelivery : Event → Bool
  | .delivered _ _ => true
  | _ => false

/-- C19: an action hands its value to the callback at most once, as the value of the right
property, whatever the callback does. It succeeds only if the value was taken; if it was not
taken it fails with `NoCallback` or the callback's own error. Nothing else happens. -/
theorem C19_action (env : Env) (p : Property) (ctx : Provider) (v : p.Value) (s : S) (w : World) :
    ∃ o, (action env p ctx v s w = (o, s, w.addLog [.notified p ctx, .delivered p v]) ∧
        (o = .ok () ∨ ∃ e, o = .err e ∧ e ≠ .callbackError .earlyReturn)) ∨
      (action env p ctx v s w = (o, s, w.addLog [.notified p ctx]) ∧
        ∃ e, o = .err e ∧ e ≠ .callbackError .earlyReturn) := by
  have hclosed : ∀ (prog : CbProg) (w : World),
      ∃ r, runAct (S := S) p prog none s w = (.ok (r, none), s, w) := by
    intro prog
    induction prog with
    | ret r => exact fun w => ⟨r, rfl⟩
    | satisfy q u k ih => exact fun w => ih _ w
    | satisfyWith q u k ih => exact fun w => ih _ w
    | getAction q k ih =>
      intro w
      unfold runAct
      split
      · next hq => subst hq; exact ih _ w
      · exact ih _ w
    | is q k ih => exact fun w => ih _ w
  have hopen : ∀ (prog : CbProg) (w : World),
      (∃ r, runAct (S := S) p prog (some v) s w = (.ok (r, some v), s, w)) ∨
      ∃ r, runAct (S := S) p prog (some v) s w = (.ok (r, none), s, w.addLog [.delivered p v]) := by
    intro prog
    induction prog with
    | ret r => exact fun w => .inl ⟨r, rfl⟩
    | satisfy q u k ih => exact fun w => ih _ w
    | satisfyWith q u k ih => exact fun w => ih _ w
    | getAction q k ih =>
      intro w
      unfold runAct
      split
      · next hq =>
        subst hq
        obtain ⟨r, hr⟩ := hclosed (k (some v)) (w.addLog [.delivered q v])
        exact .inr ⟨r, by simpa [M.bind_apply] using hr⟩
      · exact ih _ w
    | is q k ih => exact fun w => ih _ w
  have hfil : ∀ r : Except SessionError Unit, filterEarly r = .ok () ∨
      ∃ e, filterEarly r = .error e ∧ e ≠ .callbackError .earlyReturn := by
    intro r
    unfold filterEarly
    split
    · exact .inl rfl
    · exact .inl rfl
    · next e hne => exact .inr ⟨e, rfl, fun h => hne (by rw [h])⟩
  unfold action
  rw [M.bind_ok (M.history_apply ..), M.bind_ok (M.note_apply ..)]
  rcases hopen (env.callback w.log env.sd ctx) (w.addLog [.notified p ctx]) with ⟨r, h⟩ | ⟨r, h⟩
  · rw [M.bind_ok h]
    simp only
    rcases hfil r with hr | ⟨e, hr, he⟩
    · rw [hr]
      exact ⟨_, .inr ⟨rfl, _, rfl, by simp⟩⟩
    · rw [hr]
      exact ⟨_, .inr ⟨rfl, e, rfl, he⟩⟩
  · rw [M.bind_ok h]
    simp only
    rcases hfil r with hr | ⟨e, hr, he⟩
    · rw [hr]
      exact ⟨_, .inl ⟨by simp [M.bind_apply], .inl rfl⟩⟩
    · rw [hr]
      exact ⟨_, .inl ⟨by simp [M.bind_apply], .inr ⟨e, rfl, he⟩⟩⟩

/-- The callback takes the action for `p` and then returns `r`. -/
inductive Takes (p : Property) (v : p.Value) (r : Except SessionError Unit) : CbProg → Prop where
  | take (k) (h : k (some v) = .ret r) : Takes p v r (.getAction p k)
  | other (q k) (hq : q ≠ p) (h : Takes p v r (k none)) : Takes p v r (.getAction q k)
  | satisfy (q u k) (h : Takes p v r (k (.ok ()))) : Takes p v r (.satisfy q u k)
  | satisfyWith (q u k) (h : Takes p v r (k (.ok ()))) : Takes p v r (.satisfyWith q u k)
  | is (q k) (h : Takes p v r (k (decide (q = p)))) : Takes p v r (.is q k)

/-- C19: if the callback takes the value, the request succeeds, or fails with the error the
callback returned. -/
theorem C19_taken (env : Env) (p : Property) (ctx : Provider) (v : p.Value) (w : World)
    (r : Except SessionError Unit) (hr : r ≠ .error (.callbackError .earlyReturn))
    (h : Takes p v r (env.callback w.log env.sd ctx)) (s : S) :
    action env p ctx v s w =
      (match r with | .ok () => .ok () | .error e => .err e, s,
        w.addLog [.notified p ctx, .delivered p v]) := by
  have key : ∀ (prog : CbProg), Takes p v r prog → ∀ w : World,
      runAct (S := S) p prog (some v) s w = (.ok (r, none), s, w.addLog [.delivered p v]) := by
    intro prog hp
    induction hp with
    | take k hk =>
      intro w
      unfold runAct
      rw [dif_pos rfl]
      simp [M.bind_apply, hk, runAct]
    | other q k hq _ ih => intro w; unfold runAct; rw [dif_neg hq]; exact ih w
    | satisfy q u k _ ih => intro w; unfold runAct; exact ih w
    | satisfyWith q u k _ ih => intro w; unfold runAct; exact ih w
    | is q k _ ih => intro w; unfold runAct; exact ih w
  unfold action
  rw [M.bind_ok (M.history_apply ..), M.bind_ok (M.note_apply ..), M.bind_ok (key _ h _)]
  rcases r with e | u
  · have : filterEarly (.error e) = .error e := filterEarly_error (fun h => hr (by rw [h]))
    simp only [this]
    simp [M.bind_apply]
  · cases u; simp [M.bind_apply, filterEarly]

example : Takes .xoauth2Error (c!"err") (.ok ()) (.getAction .xoauth2Error fun _ => .ret (.ok ())) :=
  .take _ rfl

/-! ## C43 -/

/-- C43: data of the protocol implementation is used first, without asking the callback. -/
theorem C43_protocol_first (env : Env) (name : Str) (prov : Provider) (f : Bytes → M S G)
    (data : Bytes) (h : env.chanbind name = some data) (s : S) (w : World) :
    needCbData env name prov f s w = f data s w := by
  unfold needCbData maybeNeedCbData
  simp only [h]
  simp only [M.bind_apply]
  generalize f data s w = x
  rcases x with ⟨g | e | _, s', w'⟩ <;> rfl

/-- C43: otherwise the callback is asked for `ChannelBindings`, in a context where the name of the
binding can be looked up. -/
theorem C43_then_callback (env : Env) (name : Str) (prov : Provider) (f : Bytes → M S G)
    (h : env.chanbind name = none) (s : S) (w : World) :
    ∃ ctx, ctx.getRef .channelBindingName = some name ∧
      maybeNeedCbData env name prov f s w = maybeNeedWith env .channelBindings ctx f s w := by
  refine ⟨.and (.this ⟨.channelBindingName, name⟩) prov, rfl, ?_⟩
  unfold maybeNeedCbData
  simp only [h]

/-- C43: if neither has data the request fails with `MissingChannelBindingData` for the name. -/
theorem C43_missing (env : Env) (name : Str) (prov : Provider) (f : Bytes → M S G) (w : World)
    (h : env.chanbind name = none)
    (hd : Declines .channelBindings (env.callback w.log env.sd
      (.and (.this ⟨.channelBindingName, name⟩) prov))) (s : S) :
    (needCbData env name prov f s w).1 = .err (.missingChannelBindingData name) := by
  unfold needCbData maybeNeedCbData
  simp only [h]
  rw [M.bind_ok (maybeNeedWith_declines hd f s)]
  rfl

/-! ## C06, callback -/

/-- The values a credentials configuration stands for. -/
def Spec.credential (authzid : Option Str) (authid password : Str) : (p : Property) → Option p.Value
  | .authId => some authid
  | .password => some (Str.bytes password)
  | .authzId => authzid
  | _ => none

/-- C06: the callback of a credentials configuration answers requests for `AuthId`, `Password`
and (if given) `AuthzId` with exactly the given values, and every other request with nothing. -/
theorem C06_callback (authzid : Option Str) (authid password : Str) (p : Property) :
    match Spec.credential authzid authid password p with
    | some v => Answers p v (credentialCallback authzid authid password)
    | none => Declines p (credentialCallback authzid authid password) := by
  have key : ∀ p : Property, p ≠ .authId → p ≠ .password → p ≠ .authzId →
      Declines p (credentialCallback authzid authid password) := by
    intro p h1 h2 h3
    refine .skip _ _ _ (Ne.symm h1) (.skip _ _ _ (Ne.symm h2) ?_)
    cases authzid with
    | none => exact .ok
    | some a => exact .skip _ _ _ (Ne.symm h3) .ok
  cases p with
  | authId => exact .satisfy _ (fun _ => rfl)
  | password => exact .skip _ _ _ (by decide) (.satisfy _ (fun _ => rfl))
  | authzId =>
    cases authzid with
    | none => exact .skip _ _ _ (by decide) (.skip _ _ _ (by decide) .ok)
    | some a => exact .skip _ _ _ (by decide) (.skip _ _ _ (by decide) (.satisfy _ (fun _ => rfl)))
  | _ => exact key _ (by simp) (by simp) (by simp)

/-! ## C16, one validate call -/

/-- The first value of the session's `Validation` type that a validate callback sets. -/
inductive FirstValue (vtag : Nat) : ValProg → Option VVal → Prop where
  | none (r) : FirstValue vtag (.ret r) none
  | finalize (v k) : FirstValue vtag (.finalize vtag v k) (some v)
  | with (v k) : FirstValue vtag (.with vtag (.ok v) k) (some v)
  | failWith (e k o) (h : FirstValue vtag (k (.error e)) o) :
      FirstValue vtag (.with vtag (.error e) k) o
  | other (t v k o) (ht : t ≠ vtag) (h : FirstValue vtag k o) : FirstValue vtag (.finalize t v k) o
  | otherWith (t f k o) (ht : t ≠ vtag) (h : FirstValue vtag (k (.ok ())) o) :
      FirstValue vtag (.with t f k) o
  | is (t k o) (h : FirstValue vtag (k (decide (t = vtag))) o) : FirstValue vtag (.is t k) o

theorem firstValue_exists (vtag : Nat) (prog : ValProg) : ∃ o, FirstValue vtag prog o := by
  induction prog with
  | ret r => exact ⟨_, .none r⟩
  | finalize t v k ih =>
    by_cases ht : t = vtag
    · subst ht; exact ⟨_, .finalize v k⟩
    · obtain ⟨o, ho⟩ := ih; exact ⟨o, .other t v k o ht ho⟩
  | «with» t f k ih =>
    by_cases ht : t = vtag
    · subst ht
      cases f with
      | ok v => exact ⟨_, .with v k⟩
      | error e => obtain ⟨o, ho⟩ := ih (.error e); exact ⟨o, .failWith e k o ho⟩
    · obtain ⟨o, ho⟩ := ih (.ok ()); exact ⟨o, .otherWith t f k o ht ho⟩
  | is t k ih => obtain ⟨o, ho⟩ := ih (decide (t = vtag)); exact ⟨o, .is t k o ho⟩

theorem firstValue_iff (vtag : Nat) (prog : ValProg) (o : Option VVal) :
    FirstValue vtag prog o ↔ Spec.firstValue vtag prog = o := by
  have hf : ∀ prog o, FirstValue vtag prog o → Spec.firstValue vtag prog = o := by
    intro prog o h
    induction h with
    | none r => rfl
    | finalize v k => simp [Spec.firstValue]
    | «with» v k => simp [Spec.firstValue]
    | failWith e k o _ ih => simpa [Spec.firstValue] using ih
    | other t v k o ht _ ih => simpa [Spec.firstValue, ht] using ih
    | otherWith t f k o ht _ ih => rw [Spec.firstValue.eq_def]; simpa [ht] using ih
    | is t k o _ ih => simpa [Spec.firstValue] using ih
  refine ⟨hf prog o, fun h => ?_⟩
  obtain ⟨o', ho'⟩ := firstValue_exists vtag prog
  rw [hf prog o' ho'] at h
  exact h ▸ ho'

/-- C16: after a validate call the slot holds what it held before or else the first value set
under the session's `Validation` type. -/
theorem C16_first_wins (env : Env) (ctx : Provider) (s : S) (w : World) :
    (validate env ctx s w).2.2.slot =
      match w.slot with
      | some v => some v
      | none => Spec.firstValue env.vtag (env.validate w.log env.sd ctx) := by
  have hstep : (validate env ctx s w).2.2.slot =
      (runVal env.vtag (env.validate w.log env.sd ctx) s (w.addLog [.validated ctx])).2.2.slot := by
    unfold validate
    rw [M.bind_ok (M.history_apply ..), M.bind_ok (M.note_apply ..), M.bind_apply]
    obtain ⟨r, slot, es, h1, h2, h3⟩ :=
      runVal_run env.vtag (env.validate w.log env.sd ctx) s (w.addLog [.validated ctx])
    rw [h1]
    rcases r with e | u <;> rfl
  rw [hstep]
  cases hs : w.slot with
  | none => exact runVal_slot _ _ _ _ hs
  | some v => rw [runVal_slot_set _ _ _ _ (by rw [World.addLog_slot, hs]; simp)]; exact hs

/-- C16: a `with` closure is never evaluated when a value is already there. -/
theorem C16_with_not_evaluated (env : Env) (ctx : Provider) (s : S) (w : World)
    (h : w.slot ≠ none) :
    (validate env ctx s w).2.2.log = w.log ++ [.validated ctx] := by
  obtain ⟨o, slot, es, h1, h2, h3, h4⟩ := validate_run env ctx s w
  rw [h1]
  simp [(h3 h).2]

example : FirstValue 7 (.finalize 3 [1] (.finalize 7 [2] (.finalize 7 [9] (.ret (.ok ()))))) (some [2]) :=
  .other _ _ _ _ (by decide) (.finalize _ _)

end Rsasl

/-
C17, C18 and C19: exactly how every request ends, for every callback.
-/
import Verif.Spec.Requests
import Verif.Props.Callback

namespace Rsasl
open Spec

variable {S G : Type}

/-- Own closures of the callback, evaluated `n` times. -/
def evaluations (p : Property) (n : Nat) : List Event := List.replicate n (.evaluated p)

theorem evaluations_succ (p : Property) (n : Nat) :
    evaluations p (n + 1) = .evaluated p :: evaluations p n := rfl

theorem evaluations_succ' (p : Property) (n : Nat) :
    evaluations p (n + 1) = evaluations p n ++ [.evaluated p] := by
  unfold evaluations
  rw [List.replicate_succ']

/-- What a request that was answered before is left with. -/
def CR.afterwards (n : Nat) (cr : CR G) : CR G := if n = 0 then cr else .gone

theorem CR.satisfy_closed {p : Property} (f : p.Value → M S G) (v : p.Value) {cr : CR G}
    (h : cr ≠ .open) (s : S) (w : World) :
    CR.satisfy p f v cr s w = (.ok (.ok (), .gone), s, w) := by
  cases cr with
  | «open» => exact absurd rfl h
  | satisfied g => rfl
  | gone => rfl

theorem CR.afterwards_gone (n : Nat) : (CR.gone : CR G).afterwards n = .gone := by
  unfold CR.afterwards; split <;> rfl

theorem runSat_sequel (p : Property) (f : p.Value → M S G) (prog : CbProg) (cr : CR G)
    (h : cr ≠ .open) (s : S) (w : World) :
    runSat p f prog cr s w =
      (.ok ((sequel p prog).result, cr.afterwards (sequel p prog).answers), s,
        w.addLog (evaluations p (sequel p prog).evaluated)) := by
  induction prog generalizing cr w with
  | ret r => simp [runSat, sequel, evaluations, CR.afterwards]
  | satisfy q v k ih =>
    unfold runSat sequel
    by_cases hq : q = p
    · rw [dif_pos hq, if_pos hq, M.bind_ok (CR.satisfy_closed f _ h s w)]
      simp only [afterSatisfy, earlyReturn]
      rw [ih _ .gone (by simp), CR.afterwards_gone]
      rfl
    · rw [dif_neg hq, if_neg hq, ih _ cr h]
  | satisfyWith q g k ih =>
    cases g with
    | error e =>
      unfold runSat sequel
      by_cases hq : q = p
      · rw [dif_pos hq, if_pos hq, M.bind_ok (M.note_apply ..)]
        simp only
        rw [ih _ cr h, World.addLog_addLog]
        rfl
      · rw [dif_neg hq, if_neg hq, ih _ cr h]
    | ok v =>
      unfold runSat sequel
      by_cases hq : q = p
      · rw [dif_pos hq, if_pos hq, M.bind_ok (M.note_apply ..)]
        simp only
        rw [M.bind_ok (CR.satisfy_closed f _ h s _)]
        simp only [afterSatisfy, earlyReturn]
        rw [ih _ .gone (by simp), CR.afterwards_gone, World.addLog_addLog]
        rfl
      · rw [dif_neg hq, if_neg hq, ih _ cr h]
  | getAction q k ih => exact ih none cr h w
  | is q k ih => exact ih _ cr h w

/-- How the run of a callback on a fresh request ends. -/
def Conducted (p : Property) (f : p.Value → M S G) (s : S) (w : World) :
    Beginning p → Outcome (Except SessionError Unit × CR G) × S × World → Prop
  | .returns n r, x => x = (.ok (r, .open), s, w.addLog (evaluations p n))
  | .answers n v k, x =>
    match f v s (w.addLog (evaluations p n ++ [.answered p v])) with
    | (.panic, s', w') => x = (.panic, s', w')
    | (.ok g, s', w') =>
      let t := sequel p (k (.error (.callbackError .earlyReturn)))
      x = (.ok (t.result, if t.answers = 0 then .satisfied g else .gone), s',
        w'.addLog (evaluations p t.evaluated))
    | (.err e, s', w') =>
      let t := sequel p (k (.error e))
      x = (.ok (t.result, .gone), s', w'.addLog (evaluations p t.evaluated))

theorem conducted_answer (p : Property) (f : p.Value → M S G) (s : S) (w : World) (n : Nat)
    (v : p.Value) (k : Except SessionError Unit → CbProg) :
    Conducted p f s w (.answers n v k)
      ((do
        let (r, cr) ← CR.satisfy p f v .open
        runSat p f (k (afterSatisfy r)) cr : M S _) s (w.addLog (evaluations p n))) := by
  unfold Conducted
  simp only [CR.satisfy, M.bind_apply, M.note_apply, M.attempt_apply, World.addLog_addLog]
  generalize f v s (w.addLog (evaluations p n ++ [.answered p v])) = x
  rcases x with ⟨g | e | _, s', w'⟩
  · simp only [M.pure_apply, afterSatisfy, earlyReturn]
    rw [runSat_sequel p f _ _ (by simp)]
    simp [CR.afterwards]
  · simp only [M.pure_apply, afterSatisfy]
    rw [runSat_sequel p f _ _ (by simp), CR.afterwards_gone]
  · rfl

theorem runSat_beginning (p : Property) (f : p.Value → M S G) (prog : CbProg) (n : Nat) (s : S)
    (w : World) :
    Conducted p f s w (beginning p n prog)
      (runSat p f prog .open s (w.addLog (evaluations p n))) := by
  induction prog generalizing n with
  | ret r => simp [runSat, beginning, Conducted]
  | satisfy q v k ih =>
    unfold runSat beginning
    by_cases hq : q = p
    · rw [dif_pos hq, dif_pos hq]
      exact conducted_answer ..
    · rw [dif_neg hq, dif_neg hq]
      exact ih _ n
  | satisfyWith q g k ih =>
    cases g with
    | error e =>
      unfold runSat beginning
      by_cases hq : q = p
      · rw [dif_pos hq, if_pos hq, M.bind_ok (M.note_apply ..), World.addLog_addLog,
          ← evaluations_succ']
        exact ih _ (n + 1)
      · rw [dif_neg hq, if_neg hq]
        exact ih _ n
    | ok v =>
      unfold runSat beginning
      by_cases hq : q = p
      · rw [dif_pos hq, dif_pos hq, M.bind_ok (M.note_apply ..), World.addLog_addLog,
          ← evaluations_succ']
        exact conducted_answer ..
      · rw [dif_neg hq, dif_neg hq]
        exact ih _ n
  | getAction q k ih => exact ih none n
  | is q k ih => exact ih _ n

theorem filters_complaint (r : Except SessionError Unit) :
    filterNoValue (filterEarly r) =
      match complaint r with
      | none => .ok ()
      | some e => .error e := by
  rcases r with e | u
  · by_cases h1 : e = .callbackError .earlyReturn
    · subst h1; simp [filterEarly, filterNoValue, complaint]
    · by_cases h2 : e = .callbackError .noValue
      · subst h2; simp [filterEarly, filterNoValue, complaint]
      · rw [filterEarly_error h1, filterNoValue_error h2]
        simp [complaint, h1, h2]
  · cases u; rfl

/-- C17 and C18: exactly how an optional request ends, for every callback and every consuming
closure. Nothing but the callback's first answer reaches the mechanism; the request gives what the
mechanism made of it, except if the callback answers once more: then there is nothing. The
callback's own error comes before all of that. -/
theorem C17_exact (env : Env) (p : Property) (ctx : Provider) (f : p.Value → M S G) (s : S)
    (w : World) :
    match beginning p 0 (env.callback w.log env.sd ctx) with
    | .returns n r =>
      maybeNeedWith env p ctx f s w =
        (match complaint r with | none => .ok none | some e => .err e, s,
          w.addLog (.asked p ctx :: evaluations p n))
    | .answers n v k =>
      match f v s (w.addLog (.asked p ctx :: evaluations p n ++ [.answered p v])) with
      | (.panic, s', w') => maybeNeedWith env p ctx f s w = (.panic, s', w')
      | (.ok g, s', w') =>
        let t := sequel p (k (.error (.callbackError .earlyReturn)))
        maybeNeedWith env p ctx f s w =
          (match complaint t.result with
            | none => .ok (if t.answers = 0 then some g else none)
            | some e => .err e, s', w'.addLog (evaluations p t.evaluated))
      | (.err e, s', w') =>
        let t := sequel p (k (.error e))
        maybeNeedWith env p ctx f s w =
          (match complaint t.result with | none => .ok none | some e => .err e, s',
            w'.addLog (evaluations p t.evaluated)) := by
  have h := runSat_beginning p f (env.callback w.log env.sd ctx) 0 s (w.addLog [.asked p ctx])
  have h0 : (w.addLog [Event.asked p ctx]).addLog (evaluations p 0) = w.addLog [.asked p ctx] :=
    World.addLog_nil _
  rw [h0] at h
  unfold maybeNeedWith
  rw [M.bind_ok (M.history_apply ..), M.bind_ok (M.note_apply ..)]
  generalize beginning p 0 (env.callback w.log env.sd ctx) = o at h
  rcases o with ⟨n, r⟩ | ⟨n, v, k⟩
  · simp only [Conducted, World.addLog_addLog] at h
    simp only
    rw [M.bind_ok h]
    simp only [filters_complaint]
    cases complaint r <;> rfl
  · simp only [Conducted, World.addLog_addLog] at h
    simp only [List.singleton_append] at h
    simp only [List.cons_append] at h ⊢
    generalize f v s (w.addLog (.asked p ctx :: (evaluations p n ++ [.answered p v]))) = x at h
    rcases x with ⟨g | e | _, s', w'⟩
    · simp only at h ⊢
      rw [M.bind_ok h]
      simp only [filters_complaint]
      rcases sequel p (k (.error (.callbackError .earlyReturn))) with ⟨a, b, c⟩
      simp only
      cases complaint c with
      | some e => rfl
      | none => by_cases hb : b = 0 <;> simp [hb, M.bind_apply, CR.tryUnwrap]
    · simp only at h ⊢
      rw [M.bind_ok h]
      simp only [filters_complaint]
      cases complaint (sequel p (k (.error e))).result <;> rfl
    · simp only at h ⊢
      rw [M.bind_panic h]

/-- C18: a required request ends as the optional one does, with `NoCallback` for `None`. -/
theorem C18_required (env : Env) (p : Property) (ctx : Provider) (f : p.Value → M S G) (s : S)
    (w : World) :
    needWith env p ctx f s w =
      (match (maybeNeedWith env p ctx f s w).1 with
        | .ok (some g) => .ok g
        | .ok none => .err (.callbackError (.noCallback p))
        | .err e => .err e
        | .panic => .panic, (maybeNeedWith env p ctx f s w).2) := by
  unfold needWith
  rw [M.bind_apply]
  rcases maybeNeedWith env p ctx f s w with ⟨(_ | g) | e | _, s', w'⟩ <;> rfl

/-- C17: exactly when an answer that the mechanism accepted gets through: there must be no second
one, and no error. -/
theorem C17_gets_through (env : Env) (p : Property) (ctx : Provider) (f : p.Value → M S G)
    (s s' : S) (w w' : World) (n : Nat) (v : p.Value) (k : Except SessionError Unit → CbProg)
    (g : G) (ho : beginning p 0 (env.callback w.log env.sd ctx) = .answers n v k)
    (hf : f v s (w.addLog (.asked p ctx :: evaluations p n ++ [.answered p v])) = (.ok g, s', w')) :
    (needWith env p ctx f s w).1 = .ok g ↔
      (sequel p (k (.error (.callbackError .earlyReturn)))).answers = 0 ∧
      complaint (sequel p (k (.error (.callbackError .earlyReturn)))).result = none := by
  have h := C17_exact env p ctx f s w
  rw [ho] at h
  simp only [hf] at h
  rw [C18_required, h]
  rcases sequel p (k (.error (.callbackError .earlyReturn))) with ⟨a, b, c⟩
  simp only
  cases complaint c with
  | some e => simp
  | none => by_cases hb : b = 0 <;> simp [hb]

/-- The callback that answers twice: its answer is lost. -/
example : ∃ n v k, beginning .authId 0 answerTwice = .answers n v k ∧
    (sequel .authId (k (.error (.callbackError .earlyReturn)))).answers = 1 :=
  ⟨_, _, _, rfl, rfl⟩

/-- C43: exactly how a request for channel binding data ends, for all callbacks of protocol and
user: the protocol's data come first; without them the user's callback is asked as in an optional
request (`C17_exact`), seeing the name of the binding first of all; `None` is the error naming the
type. -/
theorem C43_exact (env : Env) (name : Str) (prov : Provider) (f : Bytes → M S G) (s : S)
    (w : World) :
    needCbData env name prov f s w =
      match env.chanbind name with
      | some data => f data s w
      | none =>
        let ctx := Provider.and (.this ⟨.channelBindingName, name⟩) prov
        (match (maybeNeedWith env .channelBindings ctx f s w).1 with
          | .ok (some g) => .ok g
          | .ok none => .err (.missingChannelBindingData name)
          | .err e => .err e
          | .panic => .panic, (maybeNeedWith env .channelBindings ctx f s w).2) := by
  cases h : env.chanbind name with
  | some data => exact C43_protocol_first env name prov f data h s w
  | none =>
    unfold needCbData maybeNeedCbData
    simp only [h, M.bind_apply]
    generalize maybeNeedWith env .channelBindings _ f s w = x
    rcases x with ⟨(_ | g) | e | _, s', w'⟩ <;> rfl

/-! ## C19 -/

theorem runAct_reaction (p : Property) (prog : CbProg) (held : Option p.Value) (s : S) (w : World) :
    ∃ left, runAct (S := S) p prog held s w =
        (.ok ((reaction p held prog).2, left), s,
          w.addLog (match held with
            | some v => if (reaction p held prog).1 then [.delivered p v] else []
            | none => [])) ∧
      left.isNone = (reaction p held prog).1 ∧ (held = none → left = none) := by
  induction prog generalizing held w with
  | ret r =>
    refine ⟨held, ?_, rfl, id⟩
    cases held <;> simp [runAct, reaction]
  | satisfy q u k ih => exact ih (.ok ()) held w
  | satisfyWith q u k ih => exact ih (.ok ()) held w
  | is q k ih => exact ih _ held w
  | getAction q k ih =>
    unfold runAct reaction
    by_cases hq : q = p
    · subst hq
      rw [dif_pos rfl, dif_pos rfl]
      simp only
      cases held with
      | none =>
        obtain ⟨left, h1, h2, h3⟩ := ih none none w
        exact ⟨left, by simpa [M.bind_apply] using h1, h2, h3⟩
      | some v =>
        obtain ⟨left, h1, h2, h3⟩ := ih (some v) none (w.addLog [.delivered q v])
        have : (reaction q none (k (some v))).1 = true := by rw [← h2, h3 rfl]; rfl
        refine ⟨left, ?_, h2, fun h => nomatch h⟩
        rw [this]
        simpa [M.bind_apply] using h1
    · rw [dif_neg hq, dif_neg hq]
      exact ih none held w

/-- C19: exactly how an action ends, for every callback: with the callback's own error (an early
return is none), else it succeeds if the value was taken and is `NoCallback` if it was not. The
value is handed out at most once, and nothing else happens. -/
theorem C19_exact (env : Env) (p : Property) (ctx : Provider) (v : p.Value) (s : S) (w : World) :
    action env p ctx v s w =
      (match reaction p (some v) (env.callback w.log env.sd ctx) with
        | (_, .error e) =>
          if e ≠ .callbackError .earlyReturn then .err e
          else if (reaction p (some v) (env.callback w.log env.sd ctx)).1 then .ok ()
          else .err (.callbackError (.noCallback p))
        | (true, .ok ()) => .ok ()
        | (false, .ok ()) => .err (.callbackError (.noCallback p)),
        s, w.addLog (.notified p ctx ::
          if (reaction p (some v) (env.callback w.log env.sd ctx)).1 then [.delivered p v]
          else [])) := by
  unfold action
  obtain ⟨left, h1, h2, -⟩ := runAct_reaction p (env.callback w.log env.sd ctx) (some v) s
    (w.addLog [.notified p ctx])
  rw [M.bind_ok (M.history_apply ..), M.bind_ok (M.note_apply ..), M.bind_ok h1]
  rw [World.addLog_addLog]
  clear h1
  generalize reaction p (some v) (env.callback w.log env.sd ctx) = x at h2
  rcases x with ⟨taken, r⟩
  simp only at h2 ⊢
  rcases r with e | u
  · by_cases he : e = .callbackError .earlyReturn
    · subst he
      cases left <;> cases h2 <;> simp [filterEarly, M.bind_apply]
    · rw [filterEarly_error he]
      simp [M.bind_apply, he]
  · cases u
    cases left <;> cases h2 <;> simp [filterEarly, M.bind_apply]

/-- A callback that looks at the action of another property only: `NoCallback`. -/
example : (action (S := Unit) ⟨fun _ _ _ => .getAction .oauthBearerErrored fun _ => .ret (.ok ()),
    fun _ _ _ => .ret (.ok ()), fun _ => none, 0, ⟨⟨b!"XOAUTH2", 300, .client⟩, .client⟩⟩
    .xoauth2Error .empty (c!"no") () ⟨⟨[], []⟩, id, none, []⟩).1 =
      .err (.callbackError (.noCallback .xoauth2Error)) := by
  rw [C19_exact]
  rfl

end Rsasl

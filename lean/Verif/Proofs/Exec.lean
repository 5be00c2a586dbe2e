/-
Small program logics for mechanism code: total runs against well-behaved callbacks (`Does`),
absence of panics (`NoPanic`), effects on the log (`Adds`), and independence of how the writer
splits its writes (`WriteSim`).
-/
import Verif.Proofs.Callback
import Verif.Model.Session
import Verif.Proofs.Io
import Verif.Spec.Env

namespace Rsasl

variable {S T α β G : Type}

/-! ## Writing -/

theorem M.writeAll_patient (buf : Bytes) (s : S) (w : World) (h : Patient w.wr.sched) :
    ∃ sched, sched <:+ w.wr.sched ∧
      M.writeAll buf s w = (.ok (), s, { w with wr := ⟨w.wr.out ++ buf, sched⟩ }) := by
  obtain ⟨sc, h1, h2⟩ := Writer.writeAll_patient h buf
  exact ⟨sc, h1, by simp [M.writeAll, h2]⟩

theorem M.writeVectored_cooperative (bufs : List Bytes) (s : S) (w : World)
    (h : Cooperative w.wr.sched) :
    ∃ sched, sched <:+ w.wr.sched ∧
      M.writeVectored bufs s w =
        (.ok (), s, { w with wr := ⟨w.wr.out ++ bufs.flatten, sched⟩ }) := by
  obtain ⟨n, h1, h2, h3, h4, h5, h6⟩ := writeAllVectored_spec (VectoredWriter.new bufs) w.wr
  obtain ⟨h7, h8⟩ := h6 h
  have hr : (VectoredWriter.new bufs).rest = bufs.flatten := by
    simp [VectoredWriter.rest, VectoredWriter.new]
  rw [hr] at h2 h8
  rw [h8, List.take_length] at h2
  refine ⟨_, h4, ?_⟩
  unfold M.writeVectored
  generalize (VectoredWriter.new bufs).writeAllVectored w.wr = x at h2 h7
  rcases x with ⟨r, vw, ⟨out, sched⟩⟩
  simp only at h2 h7
  subst h2 h7
  rfl

/-- Any writer: `write_all` succeeds and delivers everything, or fails with an I/O error. -/
theorem M.writeAll_cases (buf : Bytes) (s : S) (w : World) :
    ∃ n sched, n ≤ buf.length ∧ sched <:+ w.wr.sched ∧
      ((M.writeAll buf s w = (.ok (), s, { w with wr := ⟨w.wr.out ++ buf, sched⟩ })) ∨
       ∃ e, M.writeAll buf s w = (.err (.io e), s,
        { w with wr := ⟨w.wr.out ++ buf.take n, sched⟩ })) := by
  obtain ⟨n, hn, ho, hok, hs, hp⟩ := writeAllGo_out w.wr.sched w.wr.out buf
  refine ⟨n, _, hn, hs, ?_⟩
  unfold M.writeAll Writer.writeAll
  generalize writeAllGo w.wr.sched w.wr.out buf = x at *
  rcases x with ⟨e | u, ⟨out, sched⟩⟩
  · simp only at ho
    subst ho
    exact .inr ⟨e, rfl⟩
  · simp only at ho hok
    have := hok trivial
    subst this ho
    rw [List.take_length]
    exact .inl rfl

/-- Any writer: a vectored write delivers a prefix; it never panics. -/
theorem M.writeVectored_cases (bufs : List Bytes) (s : S) (w : World) :
    ∃ n sched, n ≤ bufs.flatten.length ∧ sched <:+ w.wr.sched ∧
      ((M.writeVectored bufs s w = (.ok (), s,
          { w with wr := ⟨w.wr.out ++ bufs.flatten.take n, sched⟩ })) ∨
       ∃ e, M.writeVectored bufs s w = (.err (.io e), s,
          { w with wr := ⟨w.wr.out ++ bufs.flatten.take n, sched⟩ })) := by
  obtain ⟨n, h1, h2, h3, h4, h5, h6⟩ := writeAllVectored_spec (VectoredWriter.new bufs) w.wr
  have hr : (VectoredWriter.new bufs).rest = bufs.flatten := by
    simp [VectoredWriter.rest, VectoredWriter.new]
  rw [hr] at h1 h2
  refine ⟨n, _, h1, h4, ?_⟩
  unfold M.writeVectored
  generalize (VectoredWriter.new bufs).writeAllVectored w.wr = x at h2 h5
  rcases x with ⟨r, vw, ⟨out, sched⟩⟩
  simp only at h2 h5
  subst h2
  rcases h5 with rfl | ⟨e, rfl⟩
  · exact .inl rfl
  · exact .inr ⟨e, rfl⟩

/-! ## Total runs -/

/-- Against every writer that keeps to `C`, `m` started in `s` returns `a`, leaves `s'`, writes
`out`, does not call validate, and leaves randomness and validation slot alone. -/
def Does (C : List WResp → Prop) (m : M S α) (s : S) (a : α) (s' : S) (out : Bytes) : Prop :=
  ∀ w : World, C w.wr.sched → ∃ es sched, sched <:+ w.wr.sched ∧ validations es = [] ∧
    m s w = (.ok a, s', { w with wr := ⟨w.wr.out ++ out, sched⟩, log := w.log ++ es })

/-- Closed under dropping answers. -/
def SuffixClosed (C : List WResp → Prop) : Prop := ∀ s s', C s → s' <:+ s → C s'

theorem patient_closed : SuffixClosed Patient := fun _ _ h hs => h.suffix hs
theorem cooperative_closed : SuffixClosed Cooperative := fun _ _ h hs => h.suffix hs

theorem Does.pure (C : List WResp → Prop) (a : α) (s : S) :
    Does C (Pure.pure a : M S α) s a s [] := fun w _ => ⟨[], w.wr.sched, List.suffix_refl _, rfl, by simp⟩

theorem Does.bind {C : List WResp → Prop} (hC : SuffixClosed C) {m : M S α} {f : α → M S β}
    {s s' s'' : S} {a : α} {b : β} {o₁ o₂ : Bytes} (h1 : Does C m s a s' o₁)
    (h2 : Does C (f a) s' b s'' o₂) : Does C (m >>= f) s b s'' (o₁ ++ o₂) := by
  intro w hw
  obtain ⟨es, sc, hsc, hv, h⟩ := h1 w hw
  obtain ⟨es', sc', hsc', hv', h'⟩ := h2 { w with wr := ⟨w.wr.out ++ o₁, sc⟩, log := w.log ++ es }
    (hC _ _ hw hsc)
  refine ⟨es ++ es', sc', hsc'.trans hsc, by rw [validations_append, hv, hv']; rfl, ?_⟩
  rw [M.bind_ok h, h']
  simp

/-- Sequencing with the output given as an equation. -/
theorem Does.bind' {C : List WResp → Prop} (hC : SuffixClosed C) {m : M S α} {f : α → M S β}
    {s s' s'' : S} {a : α} {b : β} {o₁ o₂ o : Bytes} (h1 : Does C m s a s' o₁)
    (h2 : Does C (f a) s' b s'' o₂) (ho : o = o₁ ++ o₂) : Does C (m >>= f) s b s'' o :=
  ho ▸ Does.bind hC h1 h2

theorem Does.set (C : List WResp → Prop) (s s' : S) : Does C (M.set s') s () s' [] :=
  fun w _ => ⟨[], w.wr.sched, List.suffix_refl _, rfl, by simp⟩

theorem Does.get (C : List WResp → Prop) (s : S) : Does C M.get s s s [] :=
  fun w _ => ⟨[], w.wr.sched, List.suffix_refl _, rfl, by simp⟩

theorem Does.modify (C : List WResp → Prop) (f : S → S) (s : S) :
    Does C (M.modify f) s () (f s) [] :=
  fun w _ => ⟨[], w.wr.sched, List.suffix_refl _, rfl, by simp [M.modify_apply]⟩

theorem Does.okOr (C : List WResp → Prop) (e : SessionError) (a : α) (s : S) :
    Does C (M.okOr e (some a)) s a s [] :=
  fun w _ => ⟨[], w.wr.sched, List.suffix_refl _, rfl, by simp⟩

theorem Does.lift (C : List WResp → Prop) (a : α) (s : S) :
    Does C (M.lift (.ok a)) s a s [] :=
  fun w _ => ⟨[], w.wr.sched, List.suffix_refl _, rfl, by simp⟩

theorem Does.liftOutcome (C : List WResp → Prop) (a : α) (s : S) :
    Does C (M.liftOutcome (.ok a)) s a s [] :=
  fun w _ => ⟨[], w.wr.sched, List.suffix_refl _, rfl, by simp⟩

theorem Does.writeAll (buf : Bytes) (s : S) : Does Patient (M.writeAll buf) s () s buf := by
  intro w hw
  obtain ⟨sc, h1, h2⟩ := M.writeAll_patient buf s w hw
  exact ⟨[], sc, h1, rfl, by simp [h2]⟩

theorem Does.mono {C D : List WResp → Prop} (h : ∀ s, D s → C s) {m : M S α} {s s' : S} {a : α}
    {o : Bytes} (hm : Does C m s a s' o) : Does D m s a s' o := fun w hw => hm w (h _ hw)

theorem Does.writeAll' (buf : Bytes) (s : S) : Does Cooperative (M.writeAll buf) s () s buf :=
  (Does.writeAll buf s).mono (fun _ h => h.patient)

theorem Does.writeVectored (bufs : List Bytes) (s : S) :
    Does Cooperative (M.writeVectored bufs) s () s bufs.flatten := by
  intro w hw
  obtain ⟨sc, h1, h2⟩ := M.writeVectored_cooperative bufs s w hw
  exact ⟨[], sc, h1, rfl, by simp [h2]⟩

theorem validations_asked (p : Property) (ctx : Provider) {es : List Event} (h : Quiet es)
    (v : p.Value) : validations (.asked p ctx :: es ++ [.answered p v]) = [] := by
  have := h.validations
  unfold validations at this ⊢
  simp [List.filterMap_append, this]

theorem Does.maybeNeed_some {C : List WResp → Prop} {env : Env} {p : Property} {v : p.Value}
    (hv : env.Gives p v) (ctx : Provider) {f : p.Value → M S G} {s s' : S} {g : G} {o : Bytes}
    (hf : Does C (f v) s g s' o) : Does C (maybeNeedWith env p ctx f) s (some g) s' o := by
  intro w hw
  obtain ⟨es, hq, he⟩ := maybeNeedWith_answers (hv w.log ctx) f s
  obtain ⟨es', sc, hsc, hval, h⟩ := hf (w.addLog (.asked p ctx :: es ++ [.answered p v])) hw
  rw [h] at he
  refine ⟨(.asked p ctx :: es ++ [.answered p v]) ++ es', sc, hsc, ?_, ?_⟩
  · rw [validations_append, validations_asked p ctx hq v, hval]; rfl
  · rw [he]; simp

theorem Does.maybeNeed_none {C : List WResp → Prop} {env : Env} {p : Property}
    (hv : env.Lacks p) (ctx : Provider) (f : p.Value → M S G) (s : S) :
    Does C (maybeNeedWith env p ctx f) s none s [] := by
  intro w hw
  refine ⟨[.asked p ctx], w.wr.sched, List.suffix_refl _, rfl, ?_⟩
  rw [maybeNeedWith_declines (hv w.log ctx) f s]
  simp [World.addLog]

theorem Does.need {C : List WResp → Prop} {env : Env} {p : Property} {v : p.Value}
    (hv : env.Gives p v) (ctx : Provider) {f : p.Value → M S G} {s s' : S} {g : G} {o : Bytes}
    (hf : Does C (f v) s g s' o) : Does C (needWith env p ctx f) s g s' o := by
  intro w hw
  obtain ⟨es, sc, hsc, hval, h⟩ := Does.maybeNeed_some hv ctx hf w hw
  refine ⟨es, sc, hsc, hval, ?_⟩
  unfold needWith
  rw [M.bind_ok h]
  rfl

/-- A session step that `Does` something. -/
theorem Does.exec {C : List WResp → Prop} {m : M S α} {ses : Session S} {a : α} {s' : S}
    {o : Bytes} (h : Does C m ses.st a s' o) {sched : List WResp} (hs : C sched) :
    ∃ es, validations es = [] ∧ ses.exec m sched =
      (⟨.ok a, o⟩, { ses with st := s', log := ses.log ++ es }) := by
  obtain ⟨es, sc, hsc, hv, h⟩ := h ⟨⟨[], sched⟩, ses.rng, ses.slot, ses.log⟩ hs
  exact ⟨es, hv, by simp [Session.exec, h]⟩

theorem M.writeAll_eq_ok {buf : Bytes} {s s' : S} {w w' : World}
    (h : M.writeAll buf s w = (.ok (), s', w')) :
    w'.wr.out = w.wr.out ++ buf ∧ w'.log = w.log := by
  obtain ⟨n, sc, _, _, h1 | ⟨e, h1⟩⟩ := M.writeAll_cases buf s w
  · rw [h1] at h; cases h; exact ⟨rfl, rfl⟩
  · rw [h1] at h; cases h

/-! ## What is written and logged, in every outcome -/

/-- In every outcome the bytes written are in `P`; the log only grows. -/
def Emits (P : Bytes → Prop) (m : M S α) : Prop :=
  ∀ s w, ∃ d es, P d ∧ (m s w).2.2.wr.out = w.wr.out ++ d ∧ (m s w).2.2.log = w.log ++ es

theorem Emits.fail {P : Bytes → Prop} (h : P []) (e : SessionError) :
    Emits P (M.fail e : M S α) := fun _ _ => ⟨[], [], h, by simp, by simp⟩

theorem Emits.writeAll {P : Bytes → Prop} (buf : Bytes) (h : ∀ n, P (buf.take n)) :
    Emits P (M.writeAll buf : M S Unit) := by
  intro s w
  obtain ⟨n, sc, _, _, h1 | ⟨e, h1⟩⟩ := M.writeAll_cases buf s w
  · exact ⟨buf, [], by simpa using h buf.length, by simp [h1], by simp [h1]⟩
  · exact ⟨buf.take n, [], h n, by simp [h1], by simp [h1]⟩

theorem Emits.maybeNeedWith {P : Bytes → Prop} (env : Env) (p : Property) (ctx : Provider)
    (f : p.Value → M S G) (hP : P []) (hf : ∀ v, Emits P (f v)) :
    Emits P (maybeNeedWith env p ctx f) := by
  intro s w
  have hr := maybeNeedWith_run env p ctx f s w
  have key : ∀ v es es' o s' w',
      f v s (w.addLog (.asked p ctx :: es ++ [.answered p v])) = (o, s', w') →
      ∃ d es'', P d ∧ (w'.addLog es').wr.out = w.wr.out ++ d ∧
        (w'.addLog es').log = w.log ++ es'' := by
    intro v es es' o s' w' h
    obtain ⟨d, es2, h1, h2, h3⟩ := hf v s (w.addLog (.asked p ctx :: es ++ [.answered p v]))
    rw [h] at h2 h3
    simp only at h3
    exact ⟨d, (.asked p ctx :: es ++ [.answered p v]) ++ es2 ++ es', h1, h2, by simp [h3]⟩
  generalize Rsasl.maybeNeedWith env p ctx f s w = x at hr
  cases hr with
  | none o es hq ho => exact ⟨[], .asked p ctx :: es, hP, by simp, rfl⟩
  | ok v es es' g s' w' o hq hq' hf' ho => exact key v es es' _ s' w' hf'
  | err v es es' e s' w' o hq hq' hf' ho => exact key v es es' _ s' w' hf'
  | panic v es s' w' hq hf' =>
    obtain ⟨d, e, h⟩ := key v es [] _ s' w' hf'
    exact ⟨d, e, by simpa using h⟩

/-- The log of a request whose closure logs nothing, for every callback. -/
theorem needWith_log (env : Env) (p : Property) (ctx : Provider) (f : p.Value → M S G)
    (hf : ∀ v s w, (f v s w).2.2.log = w.log) (s : S) (w : World) :
    ∃ rest, (needWith env p ctx f s w).2.2.log = w.log ++ .asked p ctx :: rest ∧
      validations rest = [] ∧ askedProps rest = [] := by
  have hr := maybeNeedWith_run env p ctx f s w
  have hlog : (needWith env p ctx f s w).2.2.log = (maybeNeedWith env p ctx f s w).2.2.log := by
    unfold needWith
    rw [M.bind_apply]
    generalize maybeNeedWith env p ctx f s w = x
    rcases x with ⟨o | e | _, s', w'⟩
    · cases o <;> rfl
    · rfl
    · rfl
  rw [hlog]
  have hans : ∀ v : p.Value, validations [.answered p v] = [] ∧ askedProps [.answered p v] = [] :=
    fun v => ⟨rfl, rfl⟩
  have key : ∀ v es es' o s' w', Quiet es → Quiet es' →
      f v s (w.addLog (.asked p ctx :: es ++ [.answered p v])) = (o, s', w') →
      ∃ rest, (w'.addLog es').log = w.log ++ .asked p ctx :: rest ∧
        validations rest = [] ∧ askedProps rest = [] := by
    intro v es es' o s' w' hq hq' h
    have hl := hf v s (w.addLog (.asked p ctx :: es ++ [.answered p v]))
    rw [h] at hl
    simp only at hl
    refine ⟨es ++ [.answered p v] ++ es', by simp [hl], ?_, ?_⟩
    · simp only [validations_append, hq.validations, hq'.validations, (hans v).1]; rfl
    · simp only [askedProps_append, hq.askedProps, hq'.askedProps, (hans v).2]; rfl
  generalize maybeNeedWith env p ctx f s w = x at hr
  cases hr with
  | none o es hq ho => exact ⟨es, rfl, hq.validations, hq.askedProps⟩
  | ok v es es' g s' w' o hq hq' hf' ho => exact key v es es' _ s' w' hq hq' hf'
  | err v es es' e s' w' o hq hq' hf' ho => exact key v es es' _ s' w' hq hq' hf'
  | panic v es s' w' hq hf' =>
    obtain ⟨rest, h⟩ := key v es [] _ s' w' hq Quiet.nil hf'
    exact ⟨rest, by simpa using h⟩

end Rsasl

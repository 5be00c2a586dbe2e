/-
Code run against a writer compared to the same code run against one that takes everything.
-/
import Verif.Proofs.Grows
import Verif.Spec.Writers

namespace Rsasl

variable {S α β G : Type}

/-- The same world but for the coming answers of the writer: in `w₀` it takes everything. -/
def Like (C : List WResp → Prop) (w w₀ : World) : Prop :=
  w₀.wr.sched = [] ∧ ∃ sched, C sched ∧ w = { w₀ with wr := ⟨w₀.wr.out, sched⟩ }

/-- Against a writer in `C` the code does the same as against one that takes everything, or fails
with an error in `E` having done the beginning of it. -/
def Whole (C : List WResp → Prop) (E : SessionError → Prop) (m : M S α) : Prop :=
  ∀ s w w₀, Like C w w₀ →
    (∃ e s' w', m s w = (.err e, s', w') ∧ E e ∧ Behind w' (m s w₀).2.2) ∨
    ∃ o s' w' w₀', m s w = (o, s', w') ∧ m s w₀ = (o, s', w₀') ∧ Like C w' w₀'

/-- What is needed of the writers and errors. -/
structure Fair (vec : Prop) (C : List WResp → Prop) (E : SessionError → Prop) : Prop where
  suffix : ∀ s s', C s → s' <:+ s → C s'
  io : ∀ b s out, C s → ∀ e, (Writer.writeAll ⟨out, s⟩ b).1 = .error e →
    E (.io e) ∧ E (.mechanismError .oauthSerde)
  vectored : vec → ∀ (bs : List Bytes) s out, C s →
    (∃ e, ((VectoredWriter.new bs).writeAllVectored ⟨out, s⟩).1 = .err e ∧ E (.io e)) ∨
    ((VectoredWriter.new bs).writeAllVectored ⟨out, s⟩).1 = .ok bs.flatten.length
  early : ¬ E earlyReturn
  noValue : ¬ E (.callbackError .noValue)

theorem Like.addLog {C : List WResp → Prop} {w w₀ : World} (h : Like C w w₀) (es : List Event) :
    Like C (w.addLog es) (w₀.addLog es) := by
  obtain ⟨h1, sched, h2, rfl⟩ := h
  exact ⟨h1, sched, h2, rfl⟩

theorem Like.log {C : List WResp → Prop} {w w₀ : World} (h : Like C w w₀) : w.log = w₀.log := by
  obtain ⟨h1, sched, h2, rfl⟩ := h
  rfl

section

variable {C : List WResp → Prop} {E : SessionError → Prop}

theorem behind_bind {m : M S α} {f : α → M S β} (hg : ∀ a, Grows (f a)) (s : S) (w : World) :
    Behind (m s w).2.2 ((m >>= f) s w).2.2 := by
  rcases hx : m s w with ⟨o, s', w'⟩
  cases o with
  | ok a => rw [M.bind_ok hx]; exact (hg a).on s' w'
  | err e => rw [M.bind_err hx]; exact .refl _
  | panic => rw [M.bind_panic hx]; exact .refl _

theorem Whole.bind {m : M S α} {f : α → M S β} (hm : Whole C E m) (hf : ∀ a, Whole C E (f a))
    (hg : ∀ a, Grows (f a)) : Whole C E (m >>= f) := by
  intro s w w₀ hw
  rcases hm s w w₀ hw with ⟨e, s', w', h1, h2⟩ | ⟨o, s', w', w₀', h1, h2, h3⟩
  · exact .inl ⟨e, s', w', by rw [M.bind_err h1], h2.1, h2.2.trans (behind_bind hg s w₀)⟩
  · cases o with
    | ok a => rw [M.bind_ok h1, M.bind_ok h2]; exact hf a s' w' w₀' h3
    | err e => rw [M.bind_err h1, M.bind_err h2]; exact .inr ⟨_, _, _, _, rfl, rfl, h3⟩
    | panic => rw [M.bind_panic h1, M.bind_panic h2]; exact .inr ⟨_, _, _, _, rfl, rfl, h3⟩

theorem writeAll_free (b : Bytes) (s : S) (w : World) (h : w.wr.sched = []) :
    M.writeAll b s w = (.ok (), s, { w with wr := ⟨w.wr.out ++ b, []⟩ }) := by
  obtain ⟨⟨out, sched⟩, rng, slot, log⟩ := w
  simp only at h
  subst h
  cases b <;> simp [M.writeAll, Writer.writeAll, writeAllGo]

theorem prefix_take (out b : Bytes) (n : Nat) : out ++ b.take n <+: out ++ b :=
  (List.prefix_append_right_inj _).2 (List.take_prefix n b)

theorem Whole.writeAll {vec : Prop} (hF : Fair vec C E) (b : Bytes) :
    Whole C E (M.writeAll b : M S Unit) := by
  rintro s w w₀ ⟨h0, sched, hC, rfl⟩
  have hfree := writeAll_free b s w₀ h0
  obtain ⟨n, sc, hn, hsc, h | ⟨e, h⟩⟩ := M.writeAll_cases b s { w₀ with wr := ⟨w₀.wr.out, sched⟩ }
  · exact .inr ⟨_, _, _, _, h, hfree, rfl, sc, hF.suffix _ _ hC hsc, rfl⟩
  · refine .inl ⟨_, _, _, h, (hF.io b sched w₀.wr.out hC e ?_).1, by
      rw [hfree]; exact ⟨prefix_take _ b n, List.prefix_rfl⟩⟩
    unfold M.writeAll at h
    dsimp only at h
    split at h
    · cases h
    · next heq => rw [heq]; cases h; rfl

theorem Whole.writeJson {vec : Prop} (hF : Fair vec C E) (bs : List Bytes) :
    Whole C E (OAuthBearer.writeJson bs : M S Unit) := by
  induction bs with
  | nil => exact fun s w w₀ h => .inr ⟨_, _, _, _, rfl, rfl, h⟩
  | cons b bs ih =>
    rintro s w w₀ ⟨h0, sched, hC, rfl⟩
    have hfree := writeAll_free b s w₀ h0
    unfold OAuthBearer.writeJson
    rw [M.bind_apply, M.bind_apply]
    unfold M.attempt
    rw [hfree]
    obtain ⟨n, sc, -, hsc, h | ⟨e, h⟩⟩ := M.writeAll_cases b s { w₀ with wr := ⟨w₀.wr.out, sched⟩ }
    · rw [h]
      exact ih _ _ _ ⟨rfl, sc, hF.suffix _ _ hC hsc, rfl⟩
    · rw [h]
      refine .inl ⟨_, _, _, rfl, (hF.io b sched w₀.wr.out hC e ?_).2,
        Behind.trans (w' := { w₀ with wr := ⟨w₀.wr.out ++ b, []⟩ })
          ⟨prefix_take _ b n, List.prefix_rfl⟩ ((Grows.writeJson bs).on _ _)⟩
      unfold M.writeAll at h
      dsimp only at h
      split at h
      · cases h
      · next heq => rw [heq]; cases h; rfl

theorem Whole.writeVectored {vec : Prop} (hF : Fair vec C E) (hv : vec) (bs : List Bytes) :
    Whole C E (M.writeVectored bs : M S Unit) := by
  rintro s w w₀ ⟨h0, sched, hC, rfl⟩
  obtain ⟨sc0, hs0, hfree⟩ := M.writeVectored_cooperative bs s w₀ (by rw [h0]; exact .nil)
  rw [h0, List.suffix_nil] at hs0
  subst hs0
  have hr : (VectoredWriter.new bs).rest = bs.flatten := by
    simp [VectoredWriter.rest, VectoredWriter.new]
  obtain ⟨n, h1, h2, h3, h4, h5, h6⟩ :=
    writeAllVectored_spec (VectoredWriter.new bs) ⟨w₀.wr.out, sched⟩
  rw [hr] at h1 h2
  rcases hF.vectored hv bs sched w₀.wr.out hC with ⟨e, he, hE⟩ | hok
  · refine .inl ⟨.io e, s, { w₀ with
        wr := ((VectoredWriter.new bs).writeAllVectored ⟨w₀.wr.out, sched⟩).2.2 }, ?_, hE, by
          rw [hfree]; exact ⟨by dsimp only; rw [h2]; exact prefix_take _ _ n, List.prefix_rfl⟩⟩
    unfold M.writeVectored
    dsimp only
    generalize (VectoredWriter.new bs).writeAllVectored ⟨w₀.wr.out, sched⟩ = x at *
    obtain ⟨r, vw, wr⟩ := x
    simp only at he
    subst he
    rfl
  · refine .inr ⟨.ok (), s, _, _, ?_, hfree, rfl, _, hF.suffix _ _ hC h4, rfl⟩
    unfold M.writeVectored
    dsimp only
    generalize (VectoredWriter.new bs).writeAllVectored ⟨w₀.wr.out, sched⟩ = x at *
    obtain ⟨r, vw, out, sc⟩ := x
    simp only at hok h2 h5
    subst hok
    have hn : n = bs.flatten.length := by
      rcases h5 with h | ⟨e, h⟩
      · exact (IoRes.ok.inj h).symm
      · cases h
    rw [hn, List.take_length] at h2
    subst h2
    rfl

/-- Running a callback on a request whose closure is of this kind. -/
theorem runSat_whole (p : Property) {f : p.Value → M S G} (hf : ∀ v, Whole C E (f v))
    (hg : ∀ v, Grows (f v)) (prog : CbProg) (hp : prog.HandsOn E) (cr : CR G) (s : S) (w w₀ : World) (hw : Like C w w₀) :
    (∃ e cr' s' w', runSat p f prog cr s w = (.ok (.error e, cr'), s', w') ∧ E e ∧
      Behind w' (runSat p f prog cr s w₀).2.2) ∨
    ∃ o s' w' w₀', runSat p f prog cr s w = (o, s', w') ∧ runSat p f prog cr s w₀ = (o, s', w₀') ∧
      Like C w' w₀' := by
  have hsat : ∀ (v : p.Value) (cr : CR G) (s : S) (w w₀ : World), Like C w w₀ →
      (∃ e s' w', cr.satisfy p f v s w = (.ok (.error e, .gone), s', w') ∧ E e ∧
        Behind w' (cr.satisfy p f v s w₀).2.2) ∨
      ∃ o s' w' w₀', cr.satisfy p f v s w = (o, s', w') ∧ cr.satisfy p f v s w₀ = (o, s', w₀') ∧
        Like C w' w₀' := by
    intro v cr s w w₀ hw
    cases cr with
    | «open» =>
      have hopen : ∀ w : World, (CR.open : CR G).satisfy p f v s w =
          match f v s (w.addLog [.answered p v]) with
          | (.ok g, s, w) => (.ok (.ok (), .satisfied g), s, w)
          | (.err e, s, w) => (.ok (.error e, .gone), s, w)
          | (.panic, s, w) => (.panic, s, w) := by
        intro w
        unfold CR.satisfy
        dsimp only
        rw [M.bind_ok (M.note_apply ..), M.bind_apply]
        unfold M.attempt
        rcases f v s (w.addLog [.answered p v]) with ⟨o, s', w'⟩
        cases o <;> rfl
      have hworld : ∀ w : World, ((CR.open : CR G).satisfy p f v s w).2.2 =
          (f v s (w.addLog [.answered p v])).2.2 := by
        intro w
        rw [hopen]
        generalize f v s (w.addLog [.answered p v]) = x
        rcases x with ⟨o, s', w'⟩
        cases o <;> rfl
      rw [hworld, hopen, hopen]
      rcases hf v s _ _ (hw.addLog [.answered p v]) with ⟨e, s', w', h1, h2⟩ |
        ⟨o, s', w', w₀', h1, h2, h3⟩
      · rw [h1]; exact .inl ⟨e, s', w', rfl, h2⟩
      · rw [h1, h2]
        cases o <;> exact .inr ⟨_, _, _, _, rfl, rfl, h3⟩
    | satisfied g => exact .inr ⟨_, _, _, _, rfl, rfl, hw⟩
    | gone => exact .inr ⟨_, _, _, _, rfl, rfl, hw⟩
  have hcont : ∀ (v : p.Value) (k : Except SessionError Unit → CbProg) (cr : CR G) (s : S)
      (w w₀ : World), Like C w w₀ → (∀ e, E e → k (.error e) = .ret (.error e)) →
      (∀ r (cr : CR G) (s : S) (w w₀ : World), Like C w w₀ →
        (∃ e cr' s' w', runSat p f (k r) cr s w = (.ok (.error e, cr'), s', w') ∧ E e ∧
          Behind w' (runSat p f (k r) cr s w₀).2.2) ∨
        ∃ o s' w' w₀', runSat p f (k r) cr s w = (o, s', w') ∧
          runSat p f (k r) cr s w₀ = (o, s', w₀') ∧ Like C w' w₀') →
      (∃ e cr' s' w', (cr.satisfy p f v >>= fun x => runSat p f (k (afterSatisfy x.1)) x.2) s w
        = (.ok (.error e, cr'), s', w') ∧ E e ∧ Behind w'
          ((cr.satisfy p f v >>= fun x => runSat p f (k (afterSatisfy x.1)) x.2) s w₀).2.2) ∨
      ∃ o s' w' w₀', (cr.satisfy p f v >>= fun x => runSat p f (k (afterSatisfy x.1)) x.2) s w
          = (o, s', w') ∧
        (cr.satisfy p f v >>= fun x => runSat p f (k (afterSatisfy x.1)) x.2) s w₀ = (o, s', w₀') ∧
        Like C w' w₀' := by
    intro v k cr s w w₀ hw hk hrest
    rcases hsat v cr s w w₀ hw with ⟨e, s', w', h1, h2⟩ | ⟨o, s', w', w₀', h1, h2, h3⟩
    · rw [M.bind_ok h1]
      dsimp only [afterSatisfy]
      rw [hk e h2.1]
      exact .inl ⟨e, _, _, _, rfl, h2.1, h2.2.trans (behind_bind (fun _ => .runSat p hg _ _) s w₀)⟩
    · cases o with
      | ok x => rw [M.bind_ok h1, M.bind_ok h2]; exact hrest _ _ _ _ _ h3
      | err e => rw [M.bind_err h1, M.bind_err h2]; exact .inr ⟨_, _, _, _, rfl, rfl, h3⟩
      | panic => rw [M.bind_panic h1, M.bind_panic h2]; exact .inr ⟨_, _, _, _, rfl, rfl, h3⟩
  induction prog generalizing cr s w w₀ with
  | ret r => exact .inr ⟨_, _, _, _, rfl, rfl, hw⟩
  | satisfy q v k ih =>
    obtain ⟨hk, hp⟩ := hp
    unfold runSat
    split
    · next hq =>
      subst hq
      exact hcont v k cr s w w₀ hw hk fun r cr s w w₀ hw => ih r (hp r) cr s w w₀ hw
    · exact ih _ (hp _) _ _ _ _ hw
  | satisfyWith q g k ih =>
    obtain ⟨hk, hp⟩ := hp
    unfold runSat
    split
    · next hq =>
      subst hq
      rw [M.bind_ok (M.note_apply ..), M.bind_ok (M.note_apply ..)]
      have hw := hw.addLog [.evaluated q]
      cases g with
      | error e => exact ih _ (hp _) _ _ _ _ hw
      | ok v => exact hcont v k cr s _ _ hw hk fun r cr s w w₀ hw => ih r (hp r) cr s w w₀ hw
    · exact ih _ (hp _) _ _ _ _ hw
  | getAction q k ih => unfold runSat; exact ih _ (hp _) _ _ _ _ hw
  | is q k ih => unfold runSat; exact ih _ (hp _) _ _ _ _ hw

theorem Whole.ask {vec : Prop} (hF : Fair vec C E) {env : Env} (henv : env.HandsOn E)
    (p : Property) (ctx : Provider) {f : p.Value → M S G} (hf : ∀ v, Whole C E (f v))
    (hg : ∀ v, Grows (f v)) : Whole C E (maybeNeedWith env p ctx f) := by
  intro s w w₀ hw
  unfold maybeNeedWith
  rw [M.bind_ok (M.history_apply ..), M.bind_ok (M.history_apply ..), M.bind_ok (M.note_apply ..),
    M.bind_ok (M.note_apply ..), M.bind_apply, M.bind_apply, ← hw.log]
  rcases runSat_whole p hf hg _ (henv w.log env.sd ctx) .open s _ _ (hw.addLog [.asked p ctx]) with
    ⟨e, cr', s', w', h1, h2⟩ | ⟨o, s', w', w₀', h1, h2, h3⟩
  · rw [h1]
    have he : filterNoValue (filterEarly (.error e)) = .error e := by
      unfold filterEarly
      split
      · cases ‹_ = _›
      · next heq => cases heq; exact absurd h2.1 hF.early
      · next heq =>
        cases heq
        unfold filterNoValue
        split
        · cases ‹_ = _›
        · next heq => cases heq; exact absurd h2.1 hF.noValue
        · next heq => cases heq; rfl
    refine .inl ⟨e, s', w', ?_, h2.1, h2.2.trans ?_⟩
    rotate_left
    · generalize runSat p f (env.callback w.log env.sd ctx) CR.open s
        (w₀.addLog [Event.asked p ctx]) = x
      rcases x with ⟨o, s1, w1⟩
      cases o with
      | ok x =>
        exact (Grows.bind (Grows.lift _) fun _ =>
          (Grows.still fun _ _ => rfl : Grows (Pure.pure x.2.tryUnwrap))).on s1 w1
      | err e => exact .refl _
      | panic => exact .refl _
    dsimp only
    rw [he, M.bind_err (M.lift_error ..)]
  · rw [h1, h2]
    cases o with
    | ok x =>
      dsimp only
      cases filterNoValue (filterEarly x.1) with
      | error e =>
        rw [M.bind_err (M.lift_error ..), M.bind_err (M.lift_error ..)]
        exact .inr ⟨_, _, _, _, rfl, rfl, h3⟩
      | ok u =>
        rw [M.bind_ok (M.lift_ok ..), M.bind_ok (M.lift_ok ..)]
        exact .inr ⟨_, _, _, _, rfl, rfl, h3⟩
    | err e => exact .inr ⟨_, _, _, _, rfl, rfl, h3⟩
    | panic => exact .inr ⟨_, _, _, _, rfl, rfl, h3⟩

end

/-- Code that does not look at the writer: with another one it does the same. -/
def Blind (m : M S α) : Prop :=
  ∀ s w wr, m s { w with wr := wr } =
    ((m s w).1, (m s w).2.1, { (m s w).2.2 with wr := wr }) ∧ (m s w).2.2.wr = w.wr

theorem Blind.whole {C : List WResp → Prop} {E : SessionError → Prop} {m : M S α} (h : Blind m) :
    Whole C E m := by
  rintro s w w₀ ⟨h0, sched, hC, rfl⟩
  obtain ⟨h1, h2⟩ := h s w₀ ⟨w₀.wr.out, sched⟩
  refine .inr ⟨_, _, _, _, h1, rfl, by rw [h2]; exact h0, sched, hC, by rw [h2]⟩

theorem Blind.bind {m : M S α} {f : α → M S β} (hm : Blind m) (hf : ∀ a, Blind (f a)) :
    Blind (m >>= f) := by
  intro s w wr
  obtain ⟨h1, h2⟩ := hm s w wr
  rcases hx : m s w with ⟨o, s', w'⟩
  rw [hx] at h1 h2
  cases o with
  | ok a =>
    rw [M.bind_ok h1, M.bind_ok hx]
    obtain ⟨h3, h4⟩ := hf a s' w' wr
    exact ⟨h3, h4.trans h2⟩
  | err e => rw [M.bind_err h1, M.bind_err hx]; exact ⟨rfl, h2⟩
  | panic => rw [M.bind_panic h1, M.bind_panic hx]; exact ⟨rfl, h2⟩

theorem runAct_blind (p : Property) (prog : CbProg) (cur : Option p.Value) :
    Blind (runAct p prog cur : M S _) := by
  induction prog generalizing cur with
  | ret r => exact fun _ _ _ => ⟨rfl, rfl⟩
  | satisfy q v k ih => unfold runAct; exact ih _ cur
  | satisfyWith q v k ih => unfold runAct; exact ih _ cur
  | is q k ih => unfold runAct; exact ih _ cur
  | getAction q k ih =>
    unfold runAct
    split
    · next hq =>
      subst hq
      cases cur with
      | none => exact ih none none
      | some v => exact Blind.bind (fun _ _ _ => ⟨rfl, rfl⟩) fun _ => ih _ none
    · exact ih _ cur

theorem runVal_blind (vtag : Nat) (prog : ValProg) : Blind (runVal vtag prog : M S _) := by
  induction prog with
  | ret r => exact fun _ _ _ => ⟨rfl, rfl⟩
  | finalize t v k ih =>
    intro s w wr
    unfold runVal
    dsimp only
    split
    · exact ih s { w with slot := some v } wr
    · exact ih s w wr
  | «with» t f k ih =>
    intro s w wr
    unfold runVal
    dsimp only
    split
    · cases f with
      | error e => exact ih _ s { w with log := w.log ++ [.vEvaluated t] } wr
      | ok v => exact ih _ s { w with log := w.log ++ [.vEvaluated t], slot := some v } wr
    · exact ih _ s w wr
  | is t k ih => exact ih _

theorem action_blind (env : Env) (p : Property) (ctx : Provider) (v : p.Value) :
    Blind (action env p ctx v : M S Unit) := by
  unfold action
  refine .bind (fun _ _ _ => ⟨rfl, rfl⟩) fun _ => .bind (fun _ _ _ => ⟨rfl, rfl⟩) fun _ =>
    .bind (runAct_blind _ _ _) fun ⟨r, cur⟩ => .bind ?_ fun _ => ?_
  · cases filterEarly r <;> exact fun _ _ _ => ⟨rfl, rfl⟩
  · cases cur <;> exact fun _ _ _ => ⟨rfl, rfl⟩

theorem validate_blind (env : Env) (ctx : Provider) : Blind (validate env ctx : M S Unit) := by
  unfold validate
  refine .bind (fun _ _ _ => ⟨rfl, rfl⟩) fun _ => .bind (fun _ _ _ => ⟨rfl, rfl⟩) fun _ =>
    .bind (runVal_blind _ _) fun r => ?_
  rcases r with e | u <;> exact fun _ _ _ => ⟨rfl, rfl⟩

/-- All code is of this kind. -/
theorem Code.whole {vec : Prop} {C : List WResp → Prop} {E : SessionError → Prop} {env : Env}
    {m : M S α} (hF : Fair vec C E) (henv : env.HandsOn E) (h : Code vec env m) : Whole C E m := by
  induction h with
  | pure a => exact Blind.whole fun _ _ _ => ⟨rfl, rfl⟩
  | fail e => exact Blind.whole fun _ _ _ => ⟨rfl, rfl⟩
  | panic => exact Blind.whole fun _ _ _ => ⟨rfl, rfl⟩
  | get => exact Blind.whole fun _ _ _ => ⟨rfl, rfl⟩
  | set s => exact Blind.whole fun _ _ _ => ⟨rfl, rfl⟩
  | modify f => exact Blind.whole fun _ _ _ => ⟨rfl, rfl⟩
  | draw n => exact Blind.whole fun _ _ _ => ⟨rfl, rfl⟩
  | writeAll b => exact .writeAll hF b
  | writeVectored hv bs => exact .writeVectored hF hv bs
  | writeJson bs => exact .writeJson hF bs
  | bind _ h2 ih1 ih2 => exact .bind ih1 ih2 fun a => (h2 a).grows
  | @withLocal S T α t m _ ih =>
    intro s w w₀ hw
    rcases ih (s, t) w w₀ hw with ⟨e, s', w', h1, h2⟩ | ⟨o, s', w', w₀', h1, h2, h3⟩
    · exact .inl ⟨e, s'.1, w', by simp only [M.withLocal, h1], h2⟩
    · exact .inr ⟨o, s'.1, w', w₀', by simp only [M.withLocal, h1], by simp only [M.withLocal, h2], h3⟩
  | ask p ctx h ih => exact .ask hF henv p ctx ih fun v => (h v).grows
  | action p ctx v => exact (action_blind env p ctx v).whole
  | tryAction p ctx v =>
    refine Blind.whole fun s w wr => ?_
    obtain ⟨h1, h2⟩ := action_blind env p ctx v s w wr
    unfold M.attempt
    rw [h1]
    rcases hx : Rsasl.action env p ctx v s w with ⟨o, s', w'⟩
    rw [hx] at h2
    cases o <;> exact ⟨rfl, h2⟩
  | validate ctx => exact (validate_blind env ctx).whole

end Rsasl

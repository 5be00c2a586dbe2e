/-
A program logic for what a piece of mechanism code writes, depending on its result.
-/
import Verif.Proofs.Post
import Verif.Model.Mech.OAuth
import Verif.Model.Mech.Gssapi

namespace Rsasl

variable {S T α β G : Type} {C : Prop} {R : α → Bytes → Prop} {env : Env}

/-- The code adds something to what was written, and `R` holds of its good results and what it
wrote with them. If `C` holds the writer is cooperative. -/
structure Says (C : Prop) (R : α → Bytes → Prop) (m : M S α) : Prop where
  says : ∀ s w, (C → Cooperative w.wr.sched) →
    ∃ d, (m s w).2.2.wr.out = w.wr.out ++ d ∧ (m s w).2.2.wr.sched <:+ w.wr.sched ∧
      ∀ a, (m s w).1 = .ok a → R a d

/-- The code writes nothing. -/
abbrev Mute (C : Prop) (m : M S α) : Prop := Says C (fun _ d => d = []) m

namespace Says

theorem mono {R' : α → Bytes → Prop} {m : M S α} (h : Says C R m) (hR : ∀ a d, R a d → R' a d) :
    Says C R' m := by
  constructor
  intro s w hw
  obtain ⟨d, h1, h2, h3⟩ := h.says s w hw
  exact ⟨d, h1, h2, fun a ha => hR _ _ (h3 a ha)⟩

/-- Code that leaves the writer alone. -/
theorem still {m : M S α} (h : ∀ s w, (m s w).2.2.wr = w.wr)
    (hR : ∀ s w a, (m s w).1 = .ok a → R a []) : Says C R m :=
  ⟨fun s w _ => ⟨[], by rw [h]; simp, by rw [h]; exact List.suffix_refl _, hR s w⟩⟩

theorem pure {a : α} (h : R a []) : Says C R (Pure.pure a : M S α) :=
  still (fun _ _ => rfl) fun _ _ b hb => by cases hb; exact h
theorem fail (e : SessionError) : Says C R (M.fail e : M S α) := still (fun _ _ => rfl) nofun
theorem panic : Says C R (M.panic : M S α) := still (fun _ _ => rfl) nofun
theorem writeAll (b : Bytes) : Says C (fun _ d => d = b) (M.writeAll b : M S Unit) := by
  constructor
  intro s w _
  obtain ⟨n, sc, _, hs, h | ⟨e, h⟩⟩ := M.writeAll_cases b s w
  · rw [h]; exact ⟨b, rfl, hs, fun _ _ => rfl⟩
  · rw [h]; exact ⟨b.take n, rfl, hs, nofun⟩

theorem writeVectored (bs : List Bytes) :
    Says C (fun _ d => C → d = bs.flatten) (M.writeVectored bs : M S Unit) := by
  constructor
  intro s w hw
  by_cases hC : C
  · obtain ⟨sc, hs, h⟩ := M.writeVectored_cooperative bs s w (hw hC)
    rw [h]; exact ⟨_, rfl, hs, fun _ _ _ => rfl⟩
  · obtain ⟨n, sc, _, hs, h | ⟨e, h⟩⟩ := M.writeVectored_cases bs s w
    · rw [h]; exact ⟨_, rfl, hs, fun _ _ h => absurd h hC⟩
    · rw [h]; exact ⟨_, rfl, hs, nofun⟩

theorem bind {Q : α → Bytes → Prop} {R : β → Bytes → Prop} {m : M S α} {f : α → M S β}
    (h1 : Says C Q m) (h2 : ∀ a d, Q a d → Says C (fun b d' => R b (d ++ d')) (f a)) :
    Says C R (m >>= f) := by
  constructor
  intro s w hw
  obtain ⟨d, e1, e2, e3⟩ := h1.says s w hw
  rcases hm : m s w with ⟨o, s1, w1⟩
  rw [hm] at e1 e2 e3
  cases o with
  | ok a =>
    rw [M.bind_ok hm]
    obtain ⟨d', g1, g2, g3⟩ := (h2 a d (e3 a rfl)).says s1 w1
      fun hC => (hw hC).suffix e2
    refine ⟨d ++ d', ?_, g2.trans e2, g3⟩
    rw [g1]
    simp only at e1
    rw [e1, List.append_assoc]
  | err e => rw [M.bind_err hm]; exact ⟨d, e1, e2, nofun⟩
  | panic => rw [M.bind_panic hm]; exact ⟨d, e1, e2, nofun⟩

/-- Sequencing after code that writes nothing. -/
theorem after {R : β → Bytes → Prop} {m : M S α} {f : α → M S β}
    (h1 : Mute C m) (h2 : ∀ a, Says C R (f a)) : Says C R (m >>= f) :=
  bind h1 fun a d hd => by subst hd; exact h2 a

theorem any {m : M S α} (h : Says C R m) : Says C (fun _ _ => True) m := h.mono fun _ _ _ => trivial

theorem withLocal {l : T} {m : M (S × T) α} (h : Says C R m) : Says C R (M.withLocal l m) :=
  ⟨fun s w hw => h.says (s, l) w hw⟩

theorem attempt {m : M S α} (h : Says C R m) :
    Says C (fun r d => ∀ a, r = .ok a → R a d) (M.attempt m) := by
  constructor
  intro s w hw
  obtain ⟨d, h1, h2, h3⟩ := h.says s w hw
  refine ⟨d, ?_, ?_, ?_⟩
  all_goals
    unfold M.attempt
    split <;> rename_i hm <;> rw [hm] at h1 h2 h3
  · exact h1
  · exact h1
  · exact h1
  · exact h2
  · exact h2
  · exact h2
  · intro r hr a ha; cases hr; cases ha; exact h3 _ rfl
  · intro r hr a ha; cases hr; cases ha
  · nofun

theorem ask {p : Property} {ctx : Provider} {f : p.Value → M S G} {R : G → Bytes → Prop}
    (hf : ∀ v, Says C R (f v)) :
    Says C (fun o d => ∀ g, o = some g → R g d) (maybeNeedWith env p ctx f) := by
  constructor
  intro s w hw
  have hr := maybeNeedWith_run env p ctx f s w
  generalize maybeNeedWith env p ctx f s w = x at hr
  cases hr with
  | none o es hq ho =>
    refine ⟨[], by simp, List.suffix_refl _, ?_⟩
    rcases ho with rfl | ⟨e, rfl⟩
    · intro a ha g hg; cases ha; cases hg
    · nofun
  | ok v es es' g s' w' o hq hq' hf' ho =>
    obtain ⟨d, h1, h2, h3⟩ := (hf v).says s (w.addLog (.asked p ctx :: es ++ [.answered p v])) hw
    rw [hf'] at h1 h2 h3
    refine ⟨d, h1, h2, ?_⟩
    rcases ho with rfl | rfl | ⟨e, rfl⟩
    · intro a ha g' hg; cases ha; cases hg; exact h3 _ rfl
    · intro a ha g' hg; cases ha; cases hg
    · nofun
  | err v es es' e s' w' o hq hq' hf' ho =>
    obtain ⟨d, h1, h2, h3⟩ := (hf v).says s (w.addLog (.asked p ctx :: es ++ [.answered p v])) hw
    rw [hf'] at h1 h2 h3
    refine ⟨d, h1, h2, ?_⟩
    rcases ho with rfl | ⟨e, rfl⟩
    · intro a ha g' hg; cases ha; cases hg
    · nofun
  | panic v es s' w' hq hf' =>
    obtain ⟨d, h1, h2, h3⟩ := (hf v).says s (w.addLog (.asked p ctx :: es ++ [.answered p v])) hw
    rw [hf'] at h1 h2 h3
    exact ⟨d, h1, h2, nofun⟩

theorem needWith {p : Property} {ctx : Provider} {f : p.Value → M S G} {R : G → Bytes → Prop}
    (hf : ∀ v, Says C R (f v)) : Says C R (Rsasl.needWith env p ctx f) := by
  refine bind (ask hf) fun o d h => ?_
  cases o with
  | none => exact fail _
  | some g => exact pure (by rw [List.append_nil]; exact h g rfl)

end Says

/-- The code leaves the writer alone. -/
structure Still (m : M S α) : Prop where
  wr : ∀ s w, (m s w).2.2.wr = w.wr

namespace Still

theorem mute {m : M S α} (h : Still m) : Mute C m := Says.still h.wr fun _ _ _ _ => rfl

theorem pure (a : α) : Still (Pure.pure a : M S α) := ⟨fun _ _ => rfl⟩
theorem fail (e : SessionError) : Still (M.fail e : M S α) := ⟨fun _ _ => rfl⟩
theorem panic : Still (M.panic : M S α) := ⟨fun _ _ => rfl⟩
theorem get : Still (M.get : M S S) := ⟨fun _ _ => rfl⟩
theorem set (s : S) : Still (M.set s) := ⟨fun _ _ => rfl⟩
theorem modify (f : S → S) : Still (M.modify f) := ⟨fun _ _ => rfl⟩
theorem history : Still (M.history : M S (List Event)) := ⟨fun _ _ => rfl⟩
theorem note (e : Event) : Still (M.note e : M S Unit) := ⟨fun _ _ => rfl⟩
theorem draw (n : Nat) : Still (M.draw n : M S (List Nat)) := ⟨fun _ _ => rfl⟩
theorem okOr (e : SessionError) (o : Option α) : Still (M.okOr e o : M S α) := by
  cases o
  · exact fail _
  · exact pure _
theorem lift (r : Except SessionError α) : Still (M.lift r : M S α) := by
  cases r
  · exact fail _
  · exact pure _
theorem liftOutcome (r : Outcome α) : Still (M.liftOutcome r : M S α) := by
  cases r
  · exact pure _
  · exact fail _
  · exact panic
theorem liftGss (r : Except Nat α) : Still (Gssapi.liftGss r : M S α) := by
  cases r
  · exact fail _
  · exact pure _

theorem bind {m : M S α} {f : α → M S β} (h1 : Still m) (h2 : ∀ a, Still (f a)) :
    Still (m >>= f) := by
  constructor
  intro s w
  have h := h1.wr s w
  rcases hm : m s w with ⟨o, s1, w1⟩
  rw [hm] at h
  cases o with
  | ok a => rw [M.bind_ok hm, (h2 a).wr]; exact h
  | err e => rw [M.bind_err hm]; exact h
  | panic => rw [M.bind_panic hm]; exact h

theorem withLocal {l : T} {m : M (S × T) α} (h : Still m) : Still (M.withLocal l m) :=
  ⟨fun s w => h.wr (s, l) w⟩

theorem attempt {m : M S α} (h : Still m) : Still (M.attempt m) := by
  constructor
  intro s w
  have h := h.wr s w
  unfold M.attempt
  split <;> rename_i hm <;> rw [hm] at h <;> exact h

theorem ask {p : Property} {ctx : Provider} {f : p.Value → M S G} (hf : ∀ v, Still (f v)) :
    Still (maybeNeedWith env p ctx f) := by
  constructor
  intro s w
  have hr := maybeNeedWith_run env p ctx f s w
  generalize maybeNeedWith env p ctx f s w = x at hr
  cases hr with
  | none o es hq ho => rfl
  | ok v es es' g s' w' o hq hq' hf' ho =>
    have := (hf v).wr s (w.addLog (.asked p ctx :: es ++ [.answered p v]))
    rw [hf'] at this; exact this
  | err v es es' e s' w' o hq hq' hf' ho =>
    have := (hf v).wr s (w.addLog (.asked p ctx :: es ++ [.answered p v]))
    rw [hf'] at this; exact this
  | panic v es s' w' hq hf' =>
    have := (hf v).wr s (w.addLog (.asked p ctx :: es ++ [.answered p v]))
    rw [hf'] at this; exact this

theorem needWith {p : Property} {ctx : Provider} {f : p.Value → M S G} (hf : ∀ v, Still (f v)) :
    Still (Rsasl.needWith env p ctx f) := bind (ask hf) fun _ => okOr _ _

theorem maybeNeedCbData {n : Str} {ctx : Provider} {f : Bytes → M S G} (hf : ∀ v, Still (f v)) :
    Still (Rsasl.maybeNeedCbData env n ctx f) := by
  unfold Rsasl.maybeNeedCbData
  split
  · exact bind (hf _) fun _ => pure _
  · exact ask hf

theorem needCbData {n : Str} {ctx : Provider} {f : Bytes → M S G} (hf : ∀ v, Still (f v)) :
    Still (Rsasl.needCbData env n ctx f) := bind (maybeNeedCbData hf) fun _ => okOr _ _

theorem runAct (p : Property) (prog : CbProg) :
    ∀ cur, Still (Rsasl.runAct p prog cur : M S _) := by
  induction prog with
  | ret r => exact fun _ => pure _
  | satisfy q v k ih => exact fun cur => ih _ cur
  | satisfyWith q v k ih => exact fun cur => ih _ cur
  | getAction q k ih =>
    intro cur
    unfold Rsasl.runAct
    split
    · next hq =>
      subst hq
      dsimp only
      cases cur
      · exact bind (pure _) fun _ => ih _ _
      · exact bind (note _) fun _ => ih _ _
    · exact ih _ _
  | is q k ih => exact fun cur => ih _ cur

theorem action {p : Property} {ctx : Provider} {v : p.Value} :
    Still (Rsasl.action env p ctx v : M S Unit) := by
  unfold Rsasl.action
  refine bind history fun _ => bind (note _) fun _ => bind (runAct _ _ _) fun _ =>
    bind (lift _) fun _ => ?_
  split
  · exact fail _
  · exact pure _

theorem runVal (t : Nat) (prog : ValProg) : Still (Rsasl.runVal t prog : M S _) := by
  constructor
  induction prog with
  | ret r => exact fun _ _ => rfl
  | finalize tag v k ih =>
    intro s w
    unfold Rsasl.runVal
    rw [ih]
    split <;> rfl
  | «with» tag f k ih =>
    intro s w
    unfold Rsasl.runVal
    split
    · cases f <;> exact (ih _ _ _)
    · exact ih _ _ _
  | is tag k ih => exact fun s w => ih _ s w

theorem validate {ctx : Provider} : Still (Rsasl.validate env ctx : M S Unit) := by
  unfold Rsasl.validate
  refine bind history fun _ => bind (note _) fun _ => bind (runVal _ _) fun _ => ?_
  split
  · exact pure _
  · exact fail _

end Still

/-- Sequencing after code that leaves the writer alone. -/
theorem Says.next {R : β → Bytes → Prop} {m : M S α} {f : α → M S β}
    (h1 : Still m) (h2 : ∀ a, Says C R (f a)) : Says C R (m >>= f) := Says.after h1.mute h2

end Rsasl

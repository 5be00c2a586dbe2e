/-
A program logic for how mechanism code changes the mechanism's state, for all writers, random
streams and callbacks.
-/
import Verif.Proofs.Message

namespace Rsasl

variable {S T α β G : Type} {P : S → Prop} {Q : Outcome α → S → Prop} {env : Env}

/-- From a state in `P` the code gets to an outcome and state in `Q`. -/
structure Leads (P : S → Prop) (m : M S α) (Q : Outcome α → S → Prop) : Prop where
  leads : ∀ s w, P s → Q (m s w).1 (m s w).2.1

/-- The code keeps the state in `P`. -/
abbrev Stays (P : S → Prop) (m : M S α) : Prop := Leads P m fun _ => P

namespace Leads

theorem mono {P' : S → Prop} {Q' : Outcome α → S → Prop} {m : M S α} (h : Leads P m Q)
    (hP : ∀ s, P' s → P s) (hQ : ∀ o s, Q o s → Q' o s) : Leads P' m Q' :=
  ⟨fun s w hs => hQ _ _ (h.leads s w (hP s hs))⟩

theorem triv {m : M S α} : Leads P m fun _ _ => True := ⟨fun _ _ _ => trivial⟩

theorem pure {a : α} (h : ∀ s, P s → Q (.ok a) s) : Leads P (Pure.pure a : M S α) Q :=
  ⟨fun s _ hs => h s hs⟩
theorem fail {e : SessionError} (h : ∀ s, P s → Q (.err e) s) : Leads P (M.fail e : M S α) Q :=
  ⟨fun s _ hs => h s hs⟩
theorem panic (h : ∀ s, P s → Q .panic s) : Leads P (M.panic : M S α) Q :=
  ⟨fun s _ hs => h s hs⟩

theorem getBind {f : S → M S α} (h : ∀ s, P s → Leads (· = s) (f s) Q) :
    Leads P (M.get >>= f) Q := ⟨fun s w hs => (h s hs).leads s w rfl⟩

theorem setBind {s' : S} {f : Unit → M S α} (h : Leads (· = s') (f ()) Q) :
    Leads P (M.set s' >>= f) Q := ⟨fun _ w _ => h.leads s' w rfl⟩

theorem bind {R : Outcome α → S → Prop} {Q : Outcome β → S → Prop} {m : M S α} {f : α → M S β}
    (h1 : Leads P m R) (h2 : ∀ a, Leads (R (.ok a)) (f a) Q) (he : ∀ e s, R (.err e) s → Q (.err e) s)
    (hp : ∀ s, R .panic s → Q .panic s) : Leads P (m >>= f) Q := by
  constructor
  intro s w hs
  have h := h1.leads s w hs
  rcases hm : m s w with ⟨o, s1, w1⟩
  rw [hm] at h
  cases o with
  | ok a => rw [M.bind_ok hm]; exact (h2 a).leads s1 w1 h
  | err e => rw [M.bind_err hm]; exact he e s1 h
  | panic => rw [M.bind_panic hm]; exact hp s1 h

/-- Sequencing, where only good results matter. -/
theorem seq {R : α → S → Prop} {Q : β → S → Prop} {m : M S α} {f : α → M S β}
    (h1 : Leads P m fun o s => ∀ a, o = .ok a → R a s)
    (h2 : ∀ a, Leads (R a) (f a) fun o s => ∀ b, o = .ok b → Q b s) :
    Leads P (m >>= f) fun o s => ∀ b, o = .ok b → Q b s :=
  bind h1 (fun a => (h2 a).mono (fun _ h => h a rfl) fun _ _ h => h) nofun nofun

/-- Sequencing after code that keeps `P`. -/
theorem after {Q : Outcome β → S → Prop} {m : M S α} {f : α → M S β} (h1 : Stays P m)
    (h2 : ∀ a, Leads P (f a) Q) (he : ∀ e s, P s → Q (.err e) s) (hp : ∀ s, P s → Q .panic s) :
    Leads P (m >>= f) Q := bind h1 h2 he hp

end Leads

namespace Stays

theorem pure (a : α) : Stays P (Pure.pure a : M S α) := ⟨fun _ _ h => h⟩
theorem fail (e : SessionError) : Stays P (M.fail e : M S α) := ⟨fun _ _ h => h⟩
theorem panic : Stays P (M.panic : M S α) := ⟨fun _ _ h => h⟩
theorem get : Stays P (M.get : M S S) := ⟨fun _ _ h => h⟩
theorem set {s : S} (h : P s) : Stays P (M.set s) := ⟨fun _ _ _ => h⟩
theorem modify {f : S → S} (h : ∀ s, P s → P (f s)) : Stays P (M.modify f) := ⟨fun s _ hs => h s hs⟩
theorem history : Stays P (M.history : M S (List Event)) := ⟨fun _ _ h => h⟩
theorem note (e : Event) : Stays P (M.note e : M S Unit) := ⟨fun _ _ h => h⟩
theorem draw (n : Nat) : Stays P (M.draw n : M S (List Nat)) := ⟨fun _ _ h => h⟩
theorem okOr (e : SessionError) (o : Option α) : Stays P (M.okOr e o : M S α) := by
  cases o
  · exact fail _
  · exact pure _
theorem lift (r : Except SessionError α) : Stays P (M.lift r : M S α) := by
  cases r
  · exact fail _
  · exact pure _
theorem liftOutcome (r : Outcome α) : Stays P (M.liftOutcome r : M S α) := by
  cases r
  · exact pure _
  · exact fail _
  · exact panic
theorem liftGss (r : Except Nat α) : Stays P (Gssapi.liftGss r : M S α) := by
  cases r
  · exact fail _
  · exact pure _

theorem writeAll (b : Bytes) : Stays P (M.writeAll b : M S Unit) := by
  constructor
  intro s w hs
  obtain ⟨n, sc, _, _, h | ⟨e, h⟩⟩ := M.writeAll_cases b s w <;> rw [h] <;> exact hs

theorem writeVectored (bs : List Bytes) : Stays P (M.writeVectored bs : M S Unit) := by
  constructor
  intro s w hs
  obtain ⟨n, sc, _, _, h | ⟨e, h⟩⟩ := M.writeVectored_cases bs s w <;> rw [h] <;> exact hs

theorem bind {m : M S α} {f : α → M S β} (h1 : Stays P m) (h2 : ∀ a, Stays P (f a)) :
    Stays P (m >>= f) := Leads.bind h1 h2 (fun _ _ h => h) fun _ h => h

theorem withLocal {l : T} {m : M (S × T) α} (h : Stays (fun x => P x.1) m) :
    Stays P (M.withLocal l m) := ⟨fun s w hs => h.leads (s, l) w hs⟩

theorem attempt {m : M S α} (h : Stays P m) : Stays P (M.attempt m) := by
  constructor
  intro s w hs
  have h := h.leads s w hs
  unfold M.attempt
  split <;> rename_i hm <;> rw [hm] at h <;> exact h

theorem writeJson (bs : List Bytes) : Stays P (OAuthBearer.writeJson bs : M S Unit) := by
  induction bs with
  | nil => exact pure _
  | cons b bs ih =>
    unfold OAuthBearer.writeJson
    refine bind (attempt (writeAll _)) fun r => ?_
    split
    · exact ih
    · exact fail _

theorem ask {p : Property} {ctx : Provider} {f : p.Value → M S G} (hf : ∀ v, Stays P (f v)) :
    Stays P (maybeNeedWith env p ctx f) := by
  constructor
  intro s w hs
  have hr := maybeNeedWith_run env p ctx f s w
  generalize maybeNeedWith env p ctx f s w = x at hr
  cases hr with
  | none o es hq ho => exact hs
  | ok v es es' g s' w' o hq hq' hf' ho =>
    have := (hf v).leads s (w.addLog (.asked p ctx :: es ++ [.answered p v])) hs
    rw [hf'] at this; exact this
  | err v es es' e s' w' o hq hq' hf' ho =>
    have := (hf v).leads s (w.addLog (.asked p ctx :: es ++ [.answered p v])) hs
    rw [hf'] at this; exact this
  | panic v es s' w' hq hf' =>
    have := (hf v).leads s (w.addLog (.asked p ctx :: es ++ [.answered p v])) hs
    rw [hf'] at this; exact this

theorem needWith {p : Property} {ctx : Provider} {f : p.Value → M S G} (hf : ∀ v, Stays P (f v)) :
    Stays P (Rsasl.needWith env p ctx f) := bind (ask hf) fun _ => okOr _ _

theorem maybeNeedCbData {n : Str} {ctx : Provider} {f : Bytes → M S G} (hf : ∀ v, Stays P (f v)) :
    Stays P (Rsasl.maybeNeedCbData env n ctx f) := by
  unfold Rsasl.maybeNeedCbData
  split
  · exact bind (hf _) fun _ => pure _
  · exact ask hf

theorem needCbData {n : Str} {ctx : Provider} {f : Bytes → M S G} (hf : ∀ v, Stays P (f v)) :
    Stays P (Rsasl.needCbData env n ctx f) := bind (maybeNeedCbData hf) fun _ => okOr _ _

theorem runAct (p : Property) (prog : CbProg) :
    ∀ cur, Stays P (Rsasl.runAct p prog cur : M S _) := by
  induction prog with
  | ret r => exact fun _ => pure _
  | satisfy q v k ih => exact fun cur => ih _ cur
  | satisfyWith q v k ih => exact fun cur => ih _ cur
  | getAction q k ih =>
    intro cur
    unfold Rsasl.runAct
    split
    · next hq =>
      subst hq
      dsimp only
      cases cur
      · exact bind (pure _) fun _ => ih _ _
      · exact bind (note _) fun _ => ih _ _
    · exact ih _ _
  | is q k ih => exact fun cur => ih _ cur

theorem action {p : Property} {ctx : Provider} {v : p.Value} :
    Stays P (Rsasl.action env p ctx v : M S Unit) := by
  unfold Rsasl.action
  refine bind history fun _ => bind (note _) fun _ => bind (runAct _ _ _) fun _ =>
    bind (lift _) fun _ => ?_
  split
  · exact fail _
  · exact pure _

theorem runVal (t : Nat) (prog : ValProg) : Stays P (Rsasl.runVal t prog : M S _) := by
  constructor
  induction prog with
  | ret r => exact fun _ _ h => h
  | finalize tag v k ih => exact fun s w hs => ih _ _ hs
  | «with» tag f k ih =>
    intro s w hs
    unfold Rsasl.runVal
    split
    · cases f <;> exact (ih _ _ _ hs)
    · exact ih _ _ _ hs
  | is tag k ih => exact fun s w => ih _ s w

theorem validate {ctx : Provider} : Stays P (Rsasl.validate env ctx : M S Unit) := by
  unfold Rsasl.validate
  refine bind history fun _ => bind (note _) fun _ => bind (runVal _ _) fun _ => ?_
  split
  · exact pure _
  · exact fail _

end Stays

end Rsasl

/-
How code uses up a list of contacts.
-/
import Verif.Proofs.Contacts
import Verif.Proofs.Leads
import Verif.Proofs.Run
import Verif.Spec.Order

namespace Rsasl

variable {S α β G : Type}

/-- The contacts after the first `c`. -/
def restAfter (c : Contact) : List Contact → List Contact
  | [] => []
  | x :: l => if x = c then l else restAfter c l

theorem restAfter_sublist {c : Contact} {l : List Contact} (h : c ∈ l) :
    (c :: restAfter c l).Sublist l := by
  induction l with
  | nil => cases h
  | cons x l ih =>
    unfold restAfter
    split
    · next hx => rw [hx]; exact List.Sublist.refl _
    · next hx =>
      rcases List.mem_cons.1 h with rfl | h
      · exact absurd rfl hx
      · exact (ih h).cons x

theorem contactsOf_append (a b : List Event) : contactsOf (a ++ b) = contactsOf a ++ contactsOf b :=
  List.filterMap_append

/-- The code does not turn to the callback; `P` stays true. -/
structure Uncalling (P : S → Prop) (m : M S α) : Prop where
  logs : Logs (fun e => e.contact = none) P m

namespace Uncalling

variable {P : S → Prop}

theorem pure (a : α) : Uncalling P (Pure.pure a : M S α) := ⟨Logs.pure a⟩
theorem fail (e : SessionError) : Uncalling P (M.fail e : M S α) := ⟨Logs.fail e⟩
theorem panic : Uncalling P (M.panic : M S α) := ⟨Logs.panic⟩
theorem get : Uncalling P (M.get : M S S) := ⟨Logs.get⟩
theorem set {s : S} (h : P s) : Uncalling P (M.set s) := ⟨Logs.set h⟩
theorem modify {f : S → S} (h : ∀ s, P s → P (f s)) : Uncalling P (M.modify f) := ⟨Logs.modify h⟩
theorem okOr (e : SessionError) (o : Option α) : Uncalling P (M.okOr e o : M S α) := ⟨Logs.okOr e o⟩
theorem lift (r : Except SessionError α) : Uncalling P (M.lift r : M S α) := ⟨Logs.lift r⟩
theorem liftOutcome (o : Outcome α) : Uncalling P (M.liftOutcome o : M S α) := ⟨Logs.liftOutcome o⟩
theorem liftGss (r : Except Nat α) : Uncalling P (Gssapi.liftGss r : M S α) := ⟨Logs.liftGss r⟩
theorem writeAll (b : Bytes) : Uncalling P (M.writeAll b : M S Unit) := ⟨Logs.writeAll b⟩
theorem writeVectored (bs : List Bytes) : Uncalling P (M.writeVectored bs : M S Unit) :=
  ⟨Logs.writeVectored bs⟩
theorem writeJson (bs : List Bytes) : Uncalling P (OAuthBearer.writeJson bs : M S Unit) :=
  ⟨Logs.writeJson bs⟩
theorem draw (n : Nat) : Uncalling P (M.draw n : M S (List Nat)) := ⟨Logs.draw n⟩
theorem history : Uncalling P (M.history : M S (List Event)) := ⟨Logs.history⟩

theorem bind {m : M S α} {f : α → M S β} (h1 : Uncalling P m)
    (h2 : ∀ a, Uncalling P (f a)) : Uncalling P (m >>= f) := ⟨Logs.bind h1.logs fun a => (h2 a).logs⟩

end Uncalling

/-- From state `s` the code makes the contacts `l` in order, leaving out some; when it succeeds those
of `K` are still left. -/
structure Spends (l : List Contact) (s : S) (m : M S α) (K : S → α → List Contact) : Prop where
  run : ∀ w, ∃ es, (m s w).2.2.log = w.log ++ es ∧ (contactsOf es).Sublist l ∧
    ∀ a, (m s w).1 = .ok a → (contactsOf es ++ K (m s w).2.1 a).Sublist l

namespace Spends

variable {l : List Contact} {s : S} {K : S → β → List Contact}

theorem pure {a : β} (h : (K s a).Sublist l) : Spends l s (Pure.pure a : M S β) K :=
  ⟨fun w => ⟨[], by simp [Pure.pure, M.pure], List.nil_sublist _, fun b hb => by cases hb; exact h⟩⟩

theorem fail (e : SessionError) : Spends l s (M.fail e : M S β) K :=
  ⟨fun w => ⟨[], by simp [M.fail], List.nil_sublist _, fun b hb => nomatch hb⟩⟩

theorem panic : Spends l s (M.panic : M S β) K :=
  ⟨fun w => ⟨[], by simp [M.panic], List.nil_sublist _, fun b hb => nomatch hb⟩⟩

theorem weaken {l' : List Contact} {m : M S β} (h : Spends l' s m K) (hl : l'.Sublist l) :
    Spends l s m K :=
  ⟨fun w => let ⟨es, h1, h2, h3⟩ := h.run w
    ⟨es, h1, h2.trans hl, fun a ha => (h3 a ha).trans hl⟩⟩

theorem bind {K' : S → α → List Contact} {m : M S α} {f : α → M S β} (h1 : Spends l s m K')
    (h2 : ∀ a s', Spends (K' s' a) s' (f a) K) : Spends l s (m >>= f) K := by
  constructor
  intro w
  obtain ⟨es, e1, l1, k1⟩ := h1.run w
  rcases hm : m s w with ⟨o, s1, w1⟩
  rw [hm] at e1 k1
  cases o with
  | ok a =>
    obtain ⟨es', e2, l2, k2⟩ := (h2 a s1).run w1
    rw [M.bind_ok hm]
    refine ⟨es ++ es', by rw [e2, e1, List.append_assoc], ?_, fun b hb => ?_⟩
    · rw [contactsOf_append]
      exact ((List.Sublist.refl _).append l2).trans (k1 a rfl)
    · rw [contactsOf_append, List.append_assoc]
      exact ((List.Sublist.refl _).append (k2 b hb)).trans (k1 a rfl)
  | err e => rw [M.bind_err hm]; exact ⟨es, e1, l1, fun b hb => nomatch hb⟩
  | panic => rw [M.bind_panic hm]; exact ⟨es, e1, l1, fun b hb => nomatch hb⟩

theorem quiet {m : M S α} (h : Uncalling (fun _ => True) m) : Spends l s m (fun _ _ => l) := by
  constructor
  intro w
  obtain ⟨-, es, e1, l1⟩ := h.logs s w trivial
  have : contactsOf es = [] := by
    unfold contactsOf
    rw [List.filterMap_eq_nil_iff]
    exact l1
  exact ⟨es, e1, by rw [this]; exact List.nil_sublist _, fun a _ => by rw [this]; exact List.Sublist.refl _⟩

theorem bindQuiet {m : M S α} {f : α → M S β} (h1 : Uncalling (fun _ => True) m)
    (h2 : ∀ a s', Spends l s' (f a) K) : Spends l s (m >>= f) K :=
  bind (quiet h1) h2

theorem bindStay {m : M S α} {f : α → M S β} (h1 : Uncalling (· = s) m)
    (h2 : ∀ a, Spends l s (f a) K) : Spends l s (m >>= f) K := by
  constructor
  intro w
  obtain ⟨p1, es, e1, l1⟩ := h1.logs s w rfl
  have hn : contactsOf es = [] := by
    unfold contactsOf
    rw [List.filterMap_eq_nil_iff]
    exact l1
  rcases hm : m s w with ⟨o, s1, w1⟩
  rw [hm] at e1 p1
  dsimp only at e1 p1
  subst p1
  cases o with
  | ok a =>
    obtain ⟨es', e2, l2, k2⟩ := (h2 a).run w1
    rw [M.bind_ok hm]
    refine ⟨es ++ es', by rw [e2, e1, List.append_assoc], ?_, fun b hb => ?_⟩
    · rw [contactsOf_append, hn]
      exact l2
    · rw [contactsOf_append, hn]
      exact k2 b hb
  | err e =>
    rw [M.bind_err hm]
    exact ⟨es, e1, by rw [hn]; exact List.nil_sublist _, fun b hb => nomatch hb⟩
  | panic =>
    rw [M.bind_panic hm]
    exact ⟨es, e1, by rw [hn]; exact List.nil_sublist _, fun b hb => nomatch hb⟩

theorem getBind {f : S → M S β} (h : Spends l s (f s) K) : Spends l s (M.get >>= f) K :=
  ⟨fun w => h.run w⟩

theorem setBind {s' : S} {f : Unit → M S β} (h : Spends l s' (f ()) K) :
    Spends l s (M.set s' >>= f) K :=
  ⟨fun w => h.run w⟩

theorem note {e : Event} {c : Contact} (hc : e.contact = some c) (h : c ∈ l) :
    Spends l s (M.note e) (fun _ _ => restAfter c l) := by
  constructor
  intro w
  have : contactsOf [e] = [c] := by simp [contactsOf, hc]
  refine ⟨[e], rfl, ?_, fun a _ => ?_⟩
  · rw [this]
    exact ((List.nil_sublist _).cons_cons c).trans (restAfter_sublist h)
  · rw [this]
    exact restAfter_sublist h

variable {env : Env}

theorem ask {p : Property} {ctx : Provider} {f : p.Value → M S G} (h : .asks p ∈ l)
    (hf : ∀ v, Uncalling (fun _ => True) (f v)) :
    Spends l s (maybeNeedWith env p ctx f) (fun _ _ => restAfter (.asks p) l) :=
  bindQuiet .history fun _ _ => bind (note rfl h) fun _ _ =>
    quiet ⟨Logs.bind (Logs.runSat (fun v => (hf v).logs) (fun _ => rfl) rfl _ _) fun _ =>
      Logs.bind (Logs.lift _) fun _ => Logs.pure _⟩

theorem needWith {p : Property} {ctx : Provider} {f : p.Value → M S G} (h : .asks p ∈ l)
    (hf : ∀ v, Uncalling (fun _ => True) (f v)) :
    Spends l s (needWith env p ctx f) (fun _ _ => restAfter (.asks p) l) :=
  bind (ask h hf) fun _ _ => quiet (.okOr _ _)

theorem maybeNeedCbData {n : Str} {ctx : Provider} {f : Bytes → M S G}
    (h : .asks .channelBindings ∈ l) (hf : ∀ v, Uncalling (fun _ => True) (f v)) :
    Spends l s (maybeNeedCbData env n ctx f) (fun _ _ => restAfter (.asks .channelBindings) l) := by
  unfold Rsasl.maybeNeedCbData
  dsimp only
  split
  · refine bindQuiet (hf _) fun _ _ => pure ?_
    exact (List.sublist_cons_self _ _).trans (restAfter_sublist h)
  · exact ask h hf

theorem needCbData {n : Str} {ctx : Provider} {f : Bytes → M S G}
    (h : .asks .channelBindings ∈ l) (hf : ∀ v, Uncalling (fun _ => True) (f v)) :
    Spends l s (needCbData env n ctx f) (fun _ _ => restAfter (.asks .channelBindings) l) :=
  bind (maybeNeedCbData h hf) fun _ _ => quiet (.okOr _ _)

theorem action {p : Property} {ctx : Provider} {v : p.Value} (h : .tells p ∈ l) :
    Spends l s (action env p ctx v) (fun _ _ => restAfter (.tells p) l) := by
  refine bindQuiet .history fun _ _ => bind (note rfl h) fun _ _ =>
    quiet ⟨Logs.bind (Logs.runAct (fun _ => rfl) _ _) fun _ => Logs.bind (Logs.lift _) fun _ => ?_⟩
  split
  · exact Logs.fail _
  · exact Logs.pure _

theorem validate {ctx : Provider} (h : .shows ∈ l) :
    Spends l s (validate env ctx) (fun _ _ => restAfter .shows l) := by
  refine bindQuiet .history fun _ _ => bind (note rfl h) fun _ _ =>
    quiet ⟨Logs.bind (Logs.runVal (fun _ => rfl) _ _) fun _ => ?_⟩
  split
  · exact Logs.pure _
  · exact Logs.fail _

theorem attempt {m : M S α} {l' : List Contact} (h : Spends l s m (fun _ _ => l'))  :
    Spends l s (M.attempt m) (fun _ _ => []) := by
  constructor
  intro w
  obtain ⟨es, e1, l1, k1⟩ := h.run w
  unfold M.attempt
  rcases hm : m s w with ⟨o, s1, w1⟩
  rw [hm] at e1
  cases o <;> exact ⟨es, e1, l1, fun b hb => by simpa using l1⟩

theorem withLocal {T : Type} {t : T} {L : α → List Contact} {m : M (S × T) α}
    (h : Spends l (s, t) m (fun _ => L)) : Spends l s (M.withLocal t m) (fun _ => L) :=
  ⟨fun w => h.run w⟩

/-- Sequencing where more is known about the result. -/
theorem bindKnow {Q : α → S → Prop} {K' : S → α → List Contact} {m : M S α} {f : α → M S β}
    (h1 : Spends l s m K') (hQ : Leads (· = s) m fun o s' => ∀ a, o = .ok a → Q a s')
    (h2 : ∀ a s', Q a s' → Spends (K' s' a) s' (f a) K) : Spends l s (m >>= f) K := by
  constructor
  intro w
  obtain ⟨es, e1, l1, k1⟩ := h1.run w
  have hq := hQ.leads s w rfl
  rcases hm : m s w with ⟨o, s1, w1⟩
  rw [hm] at e1 k1 hq
  cases o with
  | ok a =>
    obtain ⟨es', e2, l2, k2⟩ := (h2 a s1 (hq a rfl)).run w1
    rw [M.bind_ok hm]
    refine ⟨es ++ es', by rw [e2, e1, List.append_assoc], ?_, fun b hb => ?_⟩
    · rw [contactsOf_append]
      exact ((List.Sublist.refl _).append l2).trans (k1 a rfl)
    · rw [contactsOf_append, List.append_assoc]
      exact ((List.Sublist.refl _).append (k2 b hb)).trans (k1 a rfl)
  | err e => rw [M.bind_err hm]; exact ⟨es, e1, l1, fun b hb => nomatch hb⟩
  | panic => rw [M.bind_panic hm]; exact ⟨es, e1, l1, fun b hb => nomatch hb⟩

end Spends

/-- What the closure of a request says about its good results holds for those of the request. -/
theorem Leads.request {env : Env} {p : Property} {ctx : Provider} {f : p.Value → M S G}
    {P : S → Prop} {Q : G → S → Prop}
    (hf : ∀ v, Leads P (f v) fun o s => ∀ g, o = .ok g → Q g s) :
    Leads P (needWith env p ctx f) fun o s => ∀ g, o = .ok g → Q g s := by
  refine Leads.seq (R := fun r s => ∀ g, r = some g → Q g s) ⟨fun s w hs => ?_⟩ fun r => ⟨?_⟩
  · have hr := maybeNeedWith_run env p ctx f s w
    generalize maybeNeedWith env p ctx f s w = x at hr
    rintro a ha g rfl
    cases hr with
    | none o es hq ho =>
      cases (ha : o = _)
      rcases ho with ho | ⟨e, ho⟩ <;> cases ho
    | ok v es es' g' s' w' o hq hq' hf' ho =>
      have := (hf v).leads s (w.addLog (.asked p ctx :: es ++ [.answered p v])) hs
      rw [hf'] at this
      cases (ha : o = _)
      rcases ho with ho | ho | ⟨e, ho⟩ <;> cases ho
      exact this g rfl
    | err v es es' e s' w' o hq hq' hf' ho =>
      cases (ha : o = _)
      rcases ho with ho | ⟨e, ho⟩ <;> cases ho
    | panic v es s' w' hq hf' => cases ha
  · rintro s w hs b hb
    cases r with
    | none => cases hb
    | some g => cases hb; exact hs b rfl

/-- What a step leaves of the contacts if the exchange goes on. -/
def leaving (rest : S → List Contact) : S → State → List Contact
  | s, .running => rest s
  | _, .finished _ => []

theorem Spends.finished {rest : S → List Contact} {l : List Contact} {s : S} (m : MessageSent) :
    Spends l s (Pure.pure (State.finished m) : M S State) (leaving rest) :=
  Spends.pure (List.nil_sublist _)

theorem Spends.running {rest : S → List Contact} {l : List Contact} {s : S}
    (h : (rest s).Sublist l) : Spends l s (Pure.pure State.running : M S State) (leaving rest) :=
  Spends.pure h

/-- A session of a mechanism whose steps use up the list `rest`. -/
theorem Spends.inOrder {st : Started} (rest : st.mech.S → List Contact)
    (h : ∀ env input s, Spends (rest s) s (st.mech.step env input) (leaving rest))
    {order : List Contact} (h0 : (rest st.init).Sublist order) : Spec.InOrder st order := by
  intro env rng calls hu
  have key : ∀ (calls : List Call) (ses : Session st.mech.S) (pre : List Contact),
      Spec.UnderWay (ses.run st.mech env calls).1 →
      ∃ es, (ses.run st.mech env calls).2.log = ses.log ++ es ∧
        (contactsOf es).Sublist (rest ses.st) := by
    intro calls
    induction calls with
    | nil => exact fun ses _ _ => ⟨[], by simp [Session.run], List.nil_sublist _⟩
    | cons c calls ih =>
      intro ses pre hu
      rw [run_cons] at hu ⊢
      obtain ⟨es, e1, l1, k1⟩ := (h env c.input ses.st).run
        { wr := ⟨[], c.sched⟩, rng := ses.rng, slot := ses.slot, log := ses.log }
      cases calls with
      | nil => exact ⟨es, e1, l1⟩
      | cons c' calls =>
        have hr : (ses.step st.mech env c).1.res = .ok .running := by
          refine hu _ ?_
          rw [run_cons]
          simp
        have hu' : Spec.UnderWay ((ses.step st.mech env c).2.run st.mech env (c' :: calls)).1 := by
          intro r hr
          refine hu r ?_
          rw [run_cons] at hr ⊢
          simp only [List.dropLast_cons_cons, List.mem_cons]
          exact .inr hr
        obtain ⟨es', e2, l2⟩ := ih _ [] hu'
        refine ⟨es ++ es', ?_, ?_⟩
        · rw [← List.append_assoc]
          exact e2.trans (congrArg (· ++ es') e1)
        · rw [contactsOf_append]
          exact ((List.Sublist.refl _).append l2).trans (k1 .running hr)
  obtain ⟨es, e1, l1⟩ := key calls (st.session rng) [] hu
  rw [e1]
  exact (by simpa [Started.session] using l1 : (contactsOf es).Sublist _).trans h0

end Rsasl

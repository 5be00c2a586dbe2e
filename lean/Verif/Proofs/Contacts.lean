/-
Which events code can add to the log.
-/
import Verif.Proofs.Code
import Verif.Spec.Contacts

namespace Rsasl

variable {S α β G : Type} {L : Event → Prop} {P : S → Prop}

namespace Logs

theorem pure (a : α) : Logs L P (Pure.pure a : M S α) := (Keeps.pure a).logs

theorem fail (e : SessionError) : Logs L P (M.fail e : M S α) := (Keeps.fail e).logs

theorem panic : Logs L P (M.panic : M S α) := Keeps.panic.logs

theorem get : Logs L P (M.get : M S S) := Keeps.get.logs

theorem set {s : S} (h : P s) : Logs L P (M.set s) :=
  fun _ w _ => ⟨h, [], by simp [M.set], nofun⟩

theorem modify {f : S → S} (h : ∀ s, P s → P (f s)) : Logs L P (M.modify f) :=
  (Keeps.modify h).logs

theorem okOr (e : SessionError) (o : Option α) : Logs L P (M.okOr e o : M S α) :=
  (Keeps.okOr e o).logs

theorem lift (r : Except SessionError α) : Logs L P (M.lift r : M S α) := by
  cases r with
  | error e => exact fail e
  | ok a => exact Logs.pure a

theorem liftOutcome (o : Outcome α) : Logs L P (M.liftOutcome o : M S α) := by
  cases o with
  | ok a => exact Logs.pure a
  | err e => exact fail e
  | panic => exact panic

theorem liftGss (r : Except Nat α) : Logs L P (Gssapi.liftGss r : M S α) := by
  cases r with
  | error e => exact fail _
  | ok a => exact Logs.pure a

theorem writeAll (b : Bytes) : Logs L P (M.writeAll b : M S Unit) := by
  intro s w hs
  obtain ⟨n, sched, -, -, h | ⟨e, h⟩⟩ := M.writeAll_cases b s w
  · rw [h]; exact ⟨hs, [], by simp, nofun⟩
  · rw [h]; exact ⟨hs, [], by simp, nofun⟩

theorem attempt {m : M S α} (h : Logs L P m) : Logs L P (M.attempt m) := by
  intro s w hs
  have h' := h s w hs
  unfold M.attempt
  rcases hm : m s w with ⟨o, s', w'⟩
  rw [hm] at h'
  cases o <;> exact h'

theorem writeJson (bs : List Bytes) : Logs L P (OAuthBearer.writeJson bs : M S Unit) := by
  induction bs with
  | nil => exact Logs.pure _
  | cons b bs ih =>
    unfold OAuthBearer.writeJson
    refine Logs.bind (Logs.attempt (writeAll b)) fun r => ?_
    split
    · exact ih
    · exact fail _

theorem note {e : Event} (h : L e) : Logs L P (M.note e : M S Unit) :=
  fun s w hs => ⟨hs, [e], rfl, by simpa using h⟩

theorem history : Logs L P (M.history : M S (List Event)) :=
  fun s w hs => ⟨hs, [], by simp [M.history], nofun⟩

theorem satisfy {p : Property} {f : p.Value → M S G} (hf : ∀ v, Logs L P (f v))
    (ha : ∀ v, L (.answered p v)) (v : p.Value) (cr : CR G) : Logs L P (cr.satisfy p f v) := by
  cases cr with
  | «open» =>
    refine Logs.bind (note (ha v)) fun _ => Logs.bind (Logs.attempt (hf v)) fun r => ?_
    split
    · exact Logs.pure _
    · exact Logs.pure _
  | satisfied g => exact Logs.pure _
  | gone => exact Logs.pure _

theorem runSat {p : Property} {f : p.Value → M S G} (hf : ∀ v, Logs L P (f v))
    (ha : ∀ v, L (.answered p v)) (he : L (.evaluated p)) (prog : CbProg) (cr : CR G) :
    Logs L P (Rsasl.runSat p f prog cr) := by
  induction prog generalizing cr with
  | ret r => exact Logs.pure _
  | satisfy q v k ih =>
    unfold Rsasl.runSat
    split
    · exact Logs.bind (satisfy hf ha _ _) fun _ => ih _ _
    · exact ih _ _
  | satisfyWith q v k ih =>
    unfold Rsasl.runSat
    split
    · refine Logs.bind (note he) fun _ => ?_
      split
      · exact ih _ _
      · exact Logs.bind (satisfy hf ha _ _) fun _ => ih _ _
    · exact ih _ _
  | getAction q k ih => exact ih _ _
  | is q k ih => exact ih _ _

end Logs

/-- The contacts include a request for `p` with this on offer. -/
def Contacts.MayAsk (t : Contacts) (p : Property) (ctx : Provider) : Prop :=
  ∃ ps, (p, ps) ∈ t.asks ∧ ctx.Offering ps

/-- The contacts include a notification of `p` with this on offer. -/
def Contacts.MayTell (t : Contacts) (p : Property) (ctx : Provider) : Prop :=
  ∃ ps, (p, ps) ∈ t.tells ∧ ctx.Offering ps

/-- The contacts include a validation with this on offer. -/
def Contacts.MayShow (t : Contacts) (ctx : Provider) : Prop :=
  ∃ ps, ps ∈ t.shows ∧ ctx.Offering ps

/-- All the code does belongs to the contacts `t`; `P` stays true. -/
structure Within (t : Contacts) (P : S → Prop) (m : M S α) : Prop where
  logs : Logs t.Allows P m

theorem Logs.runAct {p : Property} (h : ∀ v, L (.delivered p v)) (prog : CbProg)
    (cur : Option p.Value) : Logs L P (Rsasl.runAct p prog cur : M S _) := by
  induction prog generalizing cur with
  | ret r => exact Logs.pure _
  | satisfy q v k ih => exact ih _ _
  | satisfyWith q v k ih => exact ih _ _
  | is q k ih => exact ih _ _
  | getAction q k ih =>
    unfold Rsasl.runAct
    split
    · dsimp only
      split
      · exact Logs.bind (Logs.note (h _)) fun _ => ih _ _
      · exact ih _ _
    · exact ih _ _

theorem Logs.runVal (h : ∀ tag, L (.vEvaluated tag)) (tag : Nat) (prog : ValProg) :
    Logs L P (Rsasl.runVal tag prog : M S _) := by
  induction prog with
  | ret r => exact Logs.pure _
  | finalize tg v k ih =>
    intro s w hs
    unfold Rsasl.runVal
    have := ih s (if tg = tag ∧ w.slot = none then { w with slot := some v } else w) hs
    refine ⟨this.1, ?_⟩
    obtain ⟨es, h1, h2⟩ := this.2
    exact ⟨es, h1.trans (by split <;> rfl), h2⟩
  | «with» tg f k ih =>
    intro s w hs
    unfold Rsasl.runVal
    split
    · dsimp only
      split
      · obtain ⟨h1, es, h2, h3⟩ := ih (.error _) s { w with log := w.log ++ [.vEvaluated tg] } hs
        refine ⟨h1, .vEvaluated tg :: es, by rw [h2]; simp, fun e he => ?_⟩
        rcases List.mem_cons.1 he with rfl | he
        · exact h _
        · exact h3 e he
      · obtain ⟨h1, es, h2, h3⟩ := ih (.ok ()) s
          { w with log := w.log ++ [.vEvaluated tg], slot := some _ } hs
        refine ⟨h1, .vEvaluated tg :: es, by rw [h2]; simp, fun e he => ?_⟩
        rcases List.mem_cons.1 he with rfl | he
        · exact h _
        · exact h3 e he
    · exact ih _ s w hs
  | is tg k ih => exact ih _

namespace Within

variable {t : Contacts} {env : Env}

theorem pure (a : α) : Within t P (Pure.pure a : M S α) := ⟨Logs.pure a⟩
theorem fail (e : SessionError) : Within t P (M.fail e : M S α) := ⟨Logs.fail e⟩
theorem panic : Within t P (M.panic : M S α) := ⟨Logs.panic⟩
theorem get : Within t P (M.get : M S S) := ⟨Logs.get⟩
theorem set {s : S} (h : P s) : Within t P (M.set s) := ⟨Logs.set h⟩
theorem modify {f : S → S} (h : ∀ s, P s → P (f s)) : Within t P (M.modify f) := ⟨Logs.modify h⟩
theorem okOr (e : SessionError) (o : Option α) : Within t P (M.okOr e o : M S α) :=
  ⟨Logs.okOr e o⟩
theorem lift (r : Except SessionError α) : Within t P (M.lift r : M S α) := ⟨Logs.lift r⟩
theorem liftOutcome (o : Outcome α) : Within t P (M.liftOutcome o : M S α) := ⟨Logs.liftOutcome o⟩
theorem liftGss (r : Except Nat α) : Within t P (Gssapi.liftGss r : M S α) := ⟨Logs.liftGss r⟩
theorem writeAll (b : Bytes) : Within t P (M.writeAll b : M S Unit) := ⟨Logs.writeAll b⟩
theorem writeVectored (bs : List Bytes) : Within t P (M.writeVectored bs : M S Unit) :=
  ⟨Logs.writeVectored bs⟩
theorem writeJson (bs : List Bytes) : Within t P (OAuthBearer.writeJson bs : M S Unit) :=
  ⟨Logs.writeJson bs⟩
theorem draw (n : Nat) : Within t P (M.draw n : M S (List Nat)) := ⟨Logs.draw n⟩

theorem bind {m : M S α} {f : α → M S β} (h1 : Within t P m) (h2 : ∀ a, Within t P (f a)) :
    Within t P (m >>= f) := ⟨Logs.bind h1.logs fun a => (h2 a).logs⟩

theorem withLocal {T : Type} {l : T} {m : M (S × T) α} (h : Within t (fun x => P x.1) m) :
    Within t P (M.withLocal l m) := ⟨Logs.withLocal h.logs⟩

theorem attempt {m : M S α} (h : Within t P m) : Within t P (M.attempt m) :=
  ⟨Logs.attempt h.logs⟩

theorem ask {p : Property} {ctx : Provider} {f : p.Value → M S G} (h : t.MayAsk p ctx)
    (hf : ∀ v, Within t P (f v)) : Within t P (maybeNeedWith env p ctx f) := by
  obtain ⟨ps, h1, h2⟩ := h
  exact ⟨Logs.bind Logs.history fun _ => Logs.bind (Logs.note ⟨ps, h1, h2⟩) fun _ =>
    Logs.bind (Logs.runSat (fun v => (hf v).logs) (fun _ => ⟨ps, h1⟩) ⟨ps, h1⟩ _ _) fun _ =>
    Logs.bind (Logs.lift _) fun _ => Logs.pure _⟩

theorem needWith {p : Property} {ctx : Provider} {f : p.Value → M S G} (h : t.MayAsk p ctx)
    (hf : ∀ v, Within t P (f v)) : Within t P (needWith env p ctx f) :=
  bind (ask h hf) fun _ => okOr _ _

theorem maybeNeedCbData {n : Str} {ctx : Provider} {f : Bytes → M S G}
    (h : t.MayAsk .channelBindings (Provider.and (.this ⟨.channelBindingName, n⟩) ctx))
    (hf : ∀ v, Within t P (f v)) : Within t P (maybeNeedCbData env n ctx f) := by
  unfold Rsasl.maybeNeedCbData
  dsimp only
  split
  · exact bind (hf _) fun _ => Within.pure _
  · exact ask h hf

theorem needCbData {n : Str} {ctx : Provider} {f : Bytes → M S G}
    (h : t.MayAsk .channelBindings (Provider.and (.this ⟨.channelBindingName, n⟩) ctx))
    (hf : ∀ v, Within t P (f v)) : Within t P (needCbData env n ctx f) :=
  bind (maybeNeedCbData h hf) fun _ => okOr _ _

theorem action {p : Property} {ctx : Provider} {v : p.Value} (h : t.MayTell p ctx) :
    Within t P (action env p ctx v : M S Unit) := by
  obtain ⟨ps, h1, h2⟩ := h
  refine ⟨Logs.bind Logs.history fun _ => Logs.bind (Logs.note ⟨ps, h1, h2⟩) fun _ =>
    Logs.bind (Logs.runAct (fun _ => ⟨ps, h1⟩) _ _) fun _ => Logs.bind (Logs.lift _) fun _ => ?_⟩
  split
  · exact Logs.fail _
  · exact Logs.pure _

theorem validate {ctx : Provider} (h : t.MayShow ctx) :
    Within t P (validate env ctx : M S Unit) := by
  obtain ⟨ps, h1, h2⟩ := h
  refine ⟨Logs.bind Logs.history fun _ => Logs.bind (Logs.note ⟨ps, h1, h2⟩) fun _ =>
    Logs.bind (Logs.runVal (fun _ => List.ne_nil_of_mem h1) _ _) fun _ => ?_⟩
  split
  · exact Logs.pure _
  · exact Logs.fail _

/-- All good results of the code are in `R`. -/
def _root_.Rsasl.Yields (R : α → Prop) (m : M S α) : Prop :=
  ∀ s w a, (m s w).1 = .ok a → R a

theorem _root_.Rsasl.Yields.pure {R : α → Prop} {a : α} (h : R a) :
    Yields R (Pure.pure a : M S α) := by
  intro s w b hb
  cases hb
  exact h

theorem _root_.Rsasl.Yields.bind {R : β → Prop} {m : M S α} {f : α → M S β}
    (h : ∀ a, Yields R (f a)) : Yields R (m >>= f) := by
  intro s w b hb
  rcases hm : m s w with ⟨o, s', w'⟩
  cases o with
  | ok a => rw [M.bind_ok hm] at hb; exact h a _ _ b hb
  | err e => rw [M.bind_err hm] at hb; cases hb
  | panic => rw [M.bind_panic hm] at hb; cases hb

theorem _root_.Rsasl.Yields.withLocal {T : Type} {l : T} {R : α → Prop} {m : M (S × T) α}
    (h : Yields R m) : Yields R (M.withLocal l m) := fun s w a ha => h (s, l) w a ha

theorem bindYields {R : α → Prop} {m : M S α} {f : α → M S β} (h1 : Within t P m)
    (hR : Yields R m) (h2 : ∀ a, R a → Within t P (f a)) : Within t P (m >>= f) := by
  constructor
  intro s w hs
  obtain ⟨p1, es, e1, l1⟩ := h1.logs s w hs
  have hr := hR s w
  rcases hm : m s w with ⟨o, s1, w1⟩
  rw [hm] at p1 e1 hr
  cases o with
  | ok a =>
    rw [M.bind_ok hm]
    obtain ⟨p2, es', e2, l2⟩ := (h2 a (hr a rfl)).logs s1 w1 p1
    refine ⟨p2, es ++ es', by rw [e2, e1, List.append_assoc], fun e he => ?_⟩
    rcases List.mem_append.1 he with he | he
    · exact l1 e he
    · exact l2 e he
  | err e => rw [M.bind_err hm]; exact ⟨p1, es, e1, l1⟩
  | panic => rw [M.bind_panic hm]; exact ⟨p1, es, e1, l1⟩

theorem getBind {f : S → M S α} (h : ∀ s, P s → Within t P (f s)) :
    Within t P (M.get >>= f) := ⟨fun s w hs => (h s hs).logs s w hs⟩

end Within

/-! ## What providers offer -/

theorem Provider.offering_empty : Provider.empty.Offering [] := by
  intro p; simp [Provider.getRef, Provider.provide]

theorem chainProvide_isSome (p : Property) (pvs : List PV) :
    (chainProvide p pvs none).2.isSome ↔ p ∈ pvs.map (·.prop) := by
  induction pvs with
  | nil => simp [chainProvide]
  | cons pv pvs ih =>
    unfold chainProvide demandProvide
    split
    · next h =>
      split at h
      · next hp => cases h; simp [hp]
      · cases h
    · next h =>
      split at h
      · simp at h
      · next hn =>
        cases h
        rw [ih]
        simp [Ne.symm hn]

theorem Provider.offering_chain (pvs : List PV) :
    (Provider.chain pvs).Offering (pvs.map (·.prop)) := fun p => chainProvide_isSome p pvs

theorem demandProvide_none {p : Property} {pv : PV} :
    demandProvide p none pv = if h : pv.prop = p then (.break, some (h ▸ pv.val))
      else (.continue, none) := rfl

theorem Provider.offering_this (pv : PV) : (Provider.this pv).Offering [pv.prop] := by
  intro p
  unfold Provider.getRef Provider.provide
  rw [demandProvide_none]
  split
  · next h => simp [h]
  · next h => simp [Ne.symm h]

theorem Provider.Offering.and_this {r : Provider} {ps : List Property} (pv : PV)
    (h : r.Offering ps) : (Provider.and (.this pv) r).Offering (pv.prop :: ps) := by
  intro p
  have hr := h p
  unfold Provider.getRef at *
  unfold Provider.provide
  simp only [Provider.provide, demandProvide_none]
  by_cases hp : pv.prop = p
  · simp [hp]
  · simp only [hp, dite_false]
    rw [hr]
    simp [Ne.symm hp]

end Rsasl

/-
A program logic for code whose errors about the callback are about what was last said to it.
-/
import Verif.Spec.Blame
import Verif.Proofs.Order
import Verif.Proofs.StepErrors

namespace Rsasl

open Spec

variable {S T α β G : Type} {env : Env}

namespace Spec

theorem Blameless.blames {e : SessionError} (h : Blameless e) (cs : List Contact) : Blames e cs := by
  unfold Blames
  split
  · exact absurd rfl (h.1 _)
  · exact absurd rfl (h.2.1 _)
  · exact absurd rfl (h.2.2 _)
  · trivial

theorem Blames.later {e : SessionError} {cs : List Contact} (h : Blames e cs)
    (pre : List Contact) : Blames e (pre ++ cs) := by
  have key : ∀ c, cs.getLast? = some c → (pre ++ cs).getLast? = some c := by
    intro c hc
    rw [List.getLast?_append, hc]
    rfl
  unfold Blames at h ⊢
  split at h
  · exact h.imp (key _) (key _)
  · exact key _ h
  · exact key _ h
  · trivial

end Spec

/-- The code does not turn to the callback, and does not complain about it. -/
structure Hushed (m : M S α) : Prop where
  still : Uncalling (fun _ => True) m
  errs : Raises Blameless m

namespace Hushed

theorem pure (a : α) : Hushed (Pure.pure a : M S α) := ⟨.pure a, .pure a⟩
theorem fail {e : SessionError} (h : Blameless e) : Hushed (M.fail e : M S α) := ⟨.fail e, .fail h⟩
theorem panic : Hushed (M.panic : M S α) := ⟨.panic, .panic⟩
theorem get : Hushed (M.get : M S S) := ⟨.get, .get⟩
theorem set (s : S) : Hushed (M.set s) := ⟨.set trivial, .set s⟩
theorem modify (f : S → S) : Hushed (M.modify f) := ⟨.modify fun _ _ => trivial, .modify f⟩
theorem draw (n : Nat) : Hushed (M.draw n : M S (List Nat)) := ⟨.draw n, .draw n⟩

theorem io (e : IoErr) : Blameless (.io e) := ⟨nofun, nofun, nofun⟩
theorem mech (e : MechErr) : Blameless (.mechanismError e) := ⟨nofun, nofun, nofun⟩
theorem input : Blameless .inputDataRequired := ⟨nofun, nofun, nofun⟩

theorem okOr {e : SessionError} (h : Blameless e) (o : Option α) : Hushed (M.okOr e o : M S α) :=
  ⟨.okOr e o, .okOr fun _ => h⟩
theorem lift {r : Except SessionError α} (h : ∀ e, r = .error e → Blameless e) :
    Hushed (M.lift r : M S α) := ⟨.lift r, .lift h⟩
theorem liftOutcome {r : Outcome α} (h : ∀ e, r = .err e → Blameless e) :
    Hushed (M.liftOutcome r : M S α) := ⟨.liftOutcome r, .liftOutcome h⟩
theorem liftGss (r : Except Nat α) : Hushed (Gssapi.liftGss r : M S α) :=
  ⟨.liftGss r, .liftGss fun _ => mech _⟩
theorem writeAll (b : Bytes) : Hushed (M.writeAll b : M S Unit) :=
  ⟨.writeAll b, .writeAll fun _ _ => io _⟩
theorem writeVectored (bs : List Bytes) : Hushed (M.writeVectored bs : M S Unit) :=
  ⟨.writeVectored bs, .writeVectored io⟩
theorem writeJson (bs : List Bytes) : Hushed (OAuthBearer.writeJson bs : M S Unit) :=
  ⟨.writeJson bs, .writeJson (mech _)⟩
theorem bind {m : M S α} {f : α → M S β} (h1 : Hushed m) (h2 : ∀ a, Hushed (f a)) : Hushed (m >>= f) :=
  ⟨.bind h1.still fun a => (h2 a).still, .bind h1.errs fun a => (h2 a).errs⟩

end Hushed

/-- An error of the code that is about the callback is about what the code last said to it. -/
structure Accounts (m : M S α) : Prop where
  run : ∀ s w, ∃ es, (m s w).2.2.log = w.log ++ es ∧
    ∀ e, (m s w).1 = .err e → Blames e (contactsOf es)

namespace Accounts

theorem hushed {m : M S α} (h : Hushed m) : Accounts m := by
  constructor
  intro s w
  obtain ⟨-, es, e1, -⟩ := h.still.logs s w trivial
  exact ⟨es, e1, fun e he => (h.errs.errs s w e he).blames _⟩

theorem bind {m : M S α} {f : α → M S β} (h1 : Accounts m) (h2 : ∀ a, Accounts (f a)) :
    Accounts (m >>= f) := by
  constructor
  intro s w
  obtain ⟨es, e1, k1⟩ := h1.run s w
  rcases hm : m s w with ⟨o, s1, w1⟩
  rw [hm] at e1 k1
  cases o with
  | ok a =>
    obtain ⟨es', e2, k2⟩ := (h2 a).run s1 w1
    rw [M.bind_ok hm]
    refine ⟨es ++ es', by rw [e2, e1, List.append_assoc], fun e he => ?_⟩
    rw [contactsOf_append]
    exact (k2 e he).later _
  | err e =>
    rw [M.bind_err hm]
    exact ⟨es, e1, fun e' he => by cases he; exact k1 e rfl⟩
  | panic => rw [M.bind_panic hm]; exact ⟨es, e1, fun e he => nomatch he⟩

theorem withLocal {l : T} {m : M (S × T) α} (h : Accounts m) : Accounts (M.withLocal l m) :=
  ⟨fun s w => h.run (s, l) w⟩

theorem attempt {m : M S α} (h : Accounts m) : Accounts (M.attempt m) := by
  constructor
  intro s w
  obtain ⟨es, e1, -⟩ := h.run s w
  unfold M.attempt
  rcases hm : m s w with ⟨o, s1, w1⟩
  rw [hm] at e1
  cases o <;> exact ⟨es, e1, fun e he => nomatch he⟩

/-- A contact, and code that follows it without another one. -/
theorem noted {e : Event} {c : Contact} (hc : e.contact = some c) {k : List Event → Unit → M S α}
    (hk : ∀ h, Uncalling (fun _ => True) (k h ())) (s : S) (w : World) :
    ∃ es, ((M.history >>= fun h => M.note e >>= k h) s w).2.2.log = w.log ++ es ∧
      contactsOf es = [c] := by
  rw [M.bind_ok (M.history_apply ..), M.bind_ok (M.note_apply ..)]
  obtain ⟨-, es, e1, l1⟩ := (hk w.log).logs s (w.addLog [e]) trivial
  refine ⟨e :: es, ?_, ?_⟩
  · rw [e1]; simp
  · show List.filterMap Event.contact (e :: es) = [c]
    rw [List.filterMap_cons, hc]
    show c :: List.filterMap Event.contact es = [c]
    rw [List.filterMap_eq_nil_iff.2 l1]

theorem ask_log {p : Property} {ctx : Provider} {f : p.Value → M S G} (hf : ∀ v, Hushed (f v))
    (s : S) (w : World) : ∃ es, (maybeNeedWith env p ctx f s w).2.2.log = w.log ++ es ∧
      contactsOf es = [.asks p] :=
  noted (e := .asked p ctx) rfl (fun _ => ⟨Logs.bind (Logs.runSat (fun v => (hf v).still.logs) (fun _ => rfl) rfl _ _)
    fun _ => Logs.bind (Logs.lift _) fun _ => Logs.pure _⟩) s w

theorem ask_errs {p : Property} {ctx : Provider} {f : p.Value → M S G}
    (henv : env.ErrsIn Blameless) (hf : ∀ v, Hushed (f v)) :
    Raises Blameless (maybeNeedWith env p ctx f) :=
  .ask henv fun v => (hf v).errs.mono fun _ => .inl

theorem ask {p : Property} {ctx : Provider} {f : p.Value → M S G}
    (henv : env.ErrsIn Blameless) (hf : ∀ v, Hushed (f v)) :
    Accounts (maybeNeedWith env p ctx f) := by
  constructor
  intro s w
  obtain ⟨es, e1, -⟩ := ask_log (env := env) (ctx := ctx) hf s w
  exact ⟨es, e1, fun e he => ((ask_errs henv hf).errs s w e he).blames _⟩

/-- The error `e` for want of an answer is about the request. -/
theorem orFail {p : Property} {ctx : Provider} {f : p.Value → M S G} {e : SessionError}
    (henv : env.ErrsIn Blameless) (hf : ∀ v, Hushed (f v)) (h : Blames e [.asks p]) :
    Accounts (maybeNeedWith env p ctx f >>= M.okOr e) := by
  constructor
  intro s w
  obtain ⟨es, e1, k1⟩ := ask_log (env := env) (ctx := ctx) hf s w
  have he := (ask_errs (ctx := ctx) henv hf).errs s w
  rcases hm : maybeNeedWith env p ctx f s w with ⟨o, s1, w1⟩
  rw [hm] at e1 he
  rcases o with (_ | g) | e' | _
  · rw [M.bind_ok hm]
    refine ⟨es, e1, fun e' he' => ?_⟩
    cases he'
    rw [k1]; exact h
  · rw [M.bind_ok hm]
    exact ⟨es, e1, fun e' he' => nomatch he'⟩
  · rw [M.bind_err hm]
    exact ⟨es, e1, fun e'' he' => by cases he'; exact (he e' rfl).blames _⟩
  · rw [M.bind_panic hm]
    exact ⟨es, e1, fun e' he' => nomatch he'⟩

theorem needWith {p : Property} {ctx : Provider} {f : p.Value → M S G}
    (henv : env.ErrsIn Blameless) (hf : ∀ v, Hushed (f v)) : Accounts (needWith env p ctx f) :=
  orFail henv hf (.inl rfl)

theorem maybeNeedCbData {n : Str} {ctx : Provider} {f : Bytes → M S G}
    (henv : env.ErrsIn Blameless) (hf : ∀ v, Hushed (f v)) :
    Accounts (maybeNeedCbData env n ctx f) := by
  unfold Rsasl.maybeNeedCbData
  dsimp only
  split
  · exact bind (hushed (hf _)) fun _ => hushed (.pure _)
  · exact ask henv hf

theorem needCbData {n : Str} {ctx : Provider} {f : Bytes → M S G}
    (henv : env.ErrsIn Blameless) (hf : ∀ v, Hushed (f v)) :
    Accounts (needCbData env n ctx f) := by
  unfold Rsasl.needCbData Rsasl.maybeNeedCbData
  dsimp only
  split
  · next d _ =>
    constructor
    intro s w
    obtain ⟨es, e1, k1⟩ := (hushed (hf d)).run s w
    rcases hm : f d s w with ⟨o, s1, w1⟩
    rw [hm] at e1 k1
    cases o with
    | ok a =>
      rw [M.bind_ok (M.bind_ok hm)]
      exact ⟨es, e1, fun e he => nomatch he⟩
    | err e =>
      rw [M.bind_err (M.bind_err hm)]
      exact ⟨es, e1, fun e' he => by cases he; exact k1 e rfl⟩
    | panic =>
      rw [M.bind_panic (M.bind_panic hm)]
      exact ⟨es, e1, fun e he => nomatch he⟩
  · exact orFail henv hf rfl

theorem action {p : Property} {ctx : Provider} {v : p.Value} (henv : env.ErrsIn Blameless) :
    Accounts (action env p ctx v : M S Unit) := by
  constructor
  intro s w
  obtain ⟨es, e1, k1⟩ : ∃ es, (Rsasl.action env p ctx v s w).2.2.log = w.log ++ es ∧
      contactsOf es = [.tells p] := by
    refine noted (e := .notified p ctx) rfl (fun _ =>
      ⟨Logs.bind (Logs.runAct (fun _ => rfl) _ _) fun _ => Logs.bind (Logs.lift _) fun _ => ?_⟩) s w
    split
    · exact Logs.fail _
    · exact Logs.pure _
  refine ⟨es, e1, fun e he => ?_⟩
  rw [k1]
  have := (Raises.actionOf (E' := fun e => Blameless e ∨ e = .callbackError (.noCallback p)) (v := v)
    (ctx := ctx) henv (fun _ => .inl) (.inl ⟨nofun, nofun, nofun⟩) (.inr rfl)).errs s w e he
  rcases this with h | rfl
  · exact h.blames _
  · exact .inr rfl

theorem validate {ctx : Provider} : Accounts (validate env ctx : M S Unit) := by
  constructor
  intro s w
  obtain ⟨es, e1, k1⟩ : ∃ es, (Rsasl.validate env ctx s w).2.2.log = w.log ++ es ∧
      contactsOf es = [.shows] := by
    refine noted (e := .validated ctx) rfl (fun _ =>
      ⟨Logs.bind (Logs.runVal (fun _ => rfl) _ _) fun _ => ?_⟩) s w
    split
    · exact Logs.pure _
    · exact Logs.fail _
  refine ⟨es, e1, fun e he => ?_⟩
  rw [k1]
  have := (Raises.validate (env := env) (ctx := ctx) (E := isRefused) fun e => trivial).errs s w e he
  cases e <;> first | exact rfl | exact absurd this id

end Accounts

end Rsasl

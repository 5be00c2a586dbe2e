/-
A program logic for how much code writes. Events have weights; what is written is paid for by a budget, by a potential of the
state and by the weight of what happens, and what is left is handed on with the result.
-/
import Verif.Proofs.Message
import Verif.Proofs.Run

namespace Rsasl

variable {S T α β G : Type} {wt : Event → Nat} {φ : S → Nat} {n k : Nat} {c : α → Nat} {env : Env}

/-- The weight of what happened. -/
def weigh (wt : Event → Nat) (l : List Event) : Nat := (l.map wt).sum

@[simp] theorem weigh_append (wt : Event → Nat) (a b : List Event) : weigh wt (a ++ b) = weigh wt a + weigh wt b := by
  simp [weigh]

@[simp] theorem weigh_cons (wt : Event → Nat) (e : Event) (b : List Event) : weigh wt (e :: b) = wt e + weigh wt b := by
  simp [weigh]

@[simp] theorem weigh_nil (wt : Event → Nat) : weigh wt [] = 0 := rfl

/-- What is left, if the code comes to a result. -/
def leftOver (c : α → Nat) : Outcome α → Nat
  | .ok a => c a
  | _ => 0

/-- The code writes no more than it can pay for, and leaves `c a` if its result is `a`. -/
structure Pays (wt : Event → Nat) (φ : S → Nat) (n : Nat) (c : α → Nat) (m : M S α) : Prop where
  on : ∀ s w, (m s w).2.2.wr.out.length + leftOver c (m s w).1 + φ (m s w).2.1 + weigh wt w.log ≤
    w.wr.out.length + n + φ s + weigh wt (m s w).2.2.log

namespace Pays

theorem weaken {m : M S α} {n' : Nat} {c' : α → Nat} (h : Pays wt φ n c m) (hn : n ≤ n') (hc : ∀ a, c' a ≤ c a) :
    Pays wt φ n' c' m := by
  refine ⟨fun s w => ?_⟩
  have h := h.on s w
  have : leftOver c' (m s w).1 ≤ leftOver c (m s w).1 := by
    cases (m s w).1 <;> simp [leftOver, hc]
  omega

/-- What is not needed is left. -/
theorem frame {m : M S α} (h : Pays wt φ n c m) (k : Nat) : Pays wt φ (n + k) (fun a => c a + k) m := by
  refine ⟨fun s w => ?_⟩
  have h := h.on s w
  have : leftOver (fun a => c a + k) (m s w).1 ≤ leftOver c (m s w).1 + k := by
    cases (m s w).1 <;> simp [leftOver]
  omega

/-- Code that leaves the writer, the state and the log alone. -/
theorem still {m : M S α} (h : ∀ s w, (m s w).2.2.wr = w.wr ∧ (m s w).2.1 = s ∧ (m s w).2.2.log = w.log)
    (hc : ∀ a, c a ≤ n) : Pays wt φ n c m := by
  refine ⟨fun s w => ?_⟩
  obtain ⟨h1, h2, h3⟩ := h s w
  rw [h1, h2, h3]
  have : leftOver c (m s w).1 ≤ n := by
    cases (m s w).1 <;> simp [leftOver, hc]
  omega

theorem pure {a : α} (h : c a ≤ n) : Pays wt φ n c (Pure.pure a : M S α) :=
  ⟨fun s w => by
    show w.wr.out.length + c a + φ s + weigh wt w.log ≤ w.wr.out.length + n + φ s + weigh wt w.log
    omega⟩

theorem fail (e : SessionError) : Pays wt φ n c (M.fail e : M S α) :=
  ⟨fun s w => by
    show w.wr.out.length + 0 + φ s + weigh wt w.log ≤ w.wr.out.length + n + φ s + weigh wt w.log
    omega⟩

theorem panic : Pays wt φ n c (M.panic : M S α) :=
  ⟨fun s w => by
    show w.wr.out.length + 0 + φ s + weigh wt w.log ≤ w.wr.out.length + n + φ s + weigh wt w.log
    omega⟩

theorem get : Pays wt φ n (fun _ => n) (M.get : M S S) := still (fun _ _ => ⟨rfl, rfl, rfl⟩) fun _ => Nat.le_refl _

theorem draw (k : Nat) : Pays wt φ n (fun _ => n) (M.draw k : M S (List Nat)) :=
  still (fun _ _ => ⟨rfl, rfl, rfl⟩) fun _ => Nat.le_refl _

theorem modify {f : S → S} (h : ∀ s, φ (f s) ≤ φ s) : Pays wt φ n (fun _ => n) (M.modify f) :=
  ⟨fun s w => by
    show w.wr.out.length + n + φ (f s) + weigh wt w.log ≤ w.wr.out.length + n + φ s + weigh wt w.log
    have := h s
    omega⟩

theorem set {s' : S} : Pays wt φ (n + φ s') (fun _ => n) (M.set s') :=
  ⟨fun s w => by
    show w.wr.out.length + n + φ s' + weigh wt w.log ≤ w.wr.out.length + (n + φ s') + φ s + weigh wt w.log
    omega⟩

theorem okOr (e : SessionError) (o : Option α) : Pays wt φ n (fun _ => n) (M.okOr e o : M S α) := by
  cases o
  · exact fail _
  · exact pure (Nat.le_refl _)

theorem lift (r : Except SessionError α) : Pays wt φ n (fun _ => n) (M.lift r : M S α) := by
  cases r
  · exact fail _
  · exact pure (Nat.le_refl _)

theorem liftOutcome (r : Outcome α) : Pays wt φ n (fun _ => n) (M.liftOutcome r : M S α) := by
  cases r
  · exact pure (Nat.le_refl _)
  · exact fail _
  · exact panic

theorem liftGss (r : Except Nat α) : Pays wt φ n (fun _ => n) (Gssapi.liftGss r : M S α) := by
  cases r
  · exact fail _
  · exact pure (Nat.le_refl _)

theorem bind {m : M S α} {f : α → M S β} {c' : β → Nat} (h1 : Pays wt φ n c m) (h2 : ∀ a, Pays wt φ (c a) c' (f a)) :
    Pays wt φ n c' (m >>= f) := by
  refine ⟨fun s w => ?_⟩
  have h := h1.on s w
  rcases hm : m s w with ⟨o, s1, w1⟩
  rw [hm] at h
  cases o with
  | ok a =>
    rw [M.bind_ok hm]
    have h' := (h2 a).on s1 w1
    simp only [leftOver] at h
    omega
  | err e => rw [M.bind_err hm]; exact h
  | panic => rw [M.bind_panic hm]; exact h

theorem writeAll (b : Bytes) : Pays wt φ (b.length + k) (fun _ => k) (M.writeAll b : M S Unit) := by
  refine ⟨fun s w => ?_⟩
  obtain ⟨i, sc, hi, -, h | ⟨e, h⟩⟩ := M.writeAll_cases b s w <;> rw [h] <;> simp [leftOver] <;> omega

theorem writeVectored (bs : List Bytes) :
    Pays wt φ (bs.flatten.length + k) (fun _ => k) (M.writeVectored bs : M S Unit) := by
  refine ⟨fun s w => ?_⟩
  obtain ⟨i, sc, hi, -, h | ⟨e, h⟩⟩ := M.writeVectored_cases bs s w <;> rw [h] <;>
    simp only [leftOver, List.length_append, List.length_take] <;> omega

theorem withLocal {l : T} {m : M (S × T) α} (h : Pays wt (fun x => φ x.1) n c m) : Pays wt φ n c (M.withLocal l m) :=
  ⟨fun s w => h.on (s, l) w⟩

theorem attempt {m : M S α} (h : Pays wt φ n c m) :
    Pays wt φ n (fun r => match r with | .ok a => c a | .error _ => 0) (M.attempt m) := by
  refine ⟨fun s w => ?_⟩
  have h := h.on s w
  unfold M.attempt
  generalize m s w = x at h
  rcases x with ⟨o, s', w'⟩
  cases o <;> exact h

/-- Asking costs nothing; an answer brings its own weight along. -/
theorem ask {p : Property} {ctx : Provider} {f : p.Value → M S G} {c : G → Nat}
    (hf : ∀ v, Pays wt φ (wt (.answered p v)) c (f v)) :
    Pays wt φ n (fun o => (match o with | some g => c g | none => 0) + n) (maybeNeedWith env p ctx f) := by
  have key : Pays wt φ 0 (fun o => (match o with | some g => c g | none => 0)) (maybeNeedWith env p ctx f) := by
    refine ⟨fun s w => ?_⟩
    have hr := maybeNeedWith_run env p ctx f s w
    generalize maybeNeedWith env p ctx f s w = x at hr
    cases hr with
    | none o es hq ho =>
      rcases ho with rfl | ⟨e, rfl⟩ <;> simp [leftOver, World.addLog] <;> omega
    | ok v es es' g s' w' o hq hq' hf' ho =>
      have h := (hf v).on s (w.addLog (.asked p ctx :: es ++ [.answered p v]))
      rw [hf'] at h
      rcases ho with rfl | rfl | ⟨e, rfl⟩ <;> simp [leftOver, World.addLog] at h ⊢ <;> omega
    | err v es es' e s' w' o hq hq' hf' ho =>
      have h := (hf v).on s (w.addLog (.asked p ctx :: es ++ [.answered p v]))
      rw [hf'] at h
      rcases ho with rfl | ⟨e, rfl⟩ <;> simp [leftOver, World.addLog] at h ⊢ <;> omega
    | panic v es s' w' hq hf' =>
      have h := (hf v).on s (w.addLog (.asked p ctx :: es ++ [.answered p v]))
      rw [hf'] at h
      simp [leftOver, World.addLog] at h ⊢
      omega
  exact (key.frame n).weaken (by omega) fun _ => Nat.le_refl _

theorem needWith {p : Property} {ctx : Provider} {f : p.Value → M S G} {c : G → Nat}
    (hf : ∀ v, Pays wt φ (wt (.answered p v)) c (f v)) :
    Pays wt φ n (fun g => c g + n) (Rsasl.needWith env p ctx f) := by
  refine bind (ask hf) fun o => ?_
  cases o with
  | none => exact fail _
  | some g => exact pure (Nat.le_refl _)

theorem needCbData {name : Str} {ctx : Provider} {f : Bytes → M S Unit} (hf : ∀ k v, Pays wt φ k (fun _ => k) (f v)) :
    Pays wt φ n (fun _ => n) (Rsasl.needCbData env name ctx f) := by
  unfold Rsasl.needCbData Rsasl.maybeNeedCbData
  refine bind (c := fun _ => n) ?_ fun o => okOr _ _
  dsimp only
  split
  · exact bind (hf n _) fun _ => pure (Nat.le_refl _)
  · exact (ask (p := .channelBindings) (c := fun _ => 0)
      fun v => (hf 0 v).weaken (Nat.zero_le _) fun _ => Nat.le_refl _).weaken
      (Nat.le_refl _) fun o => by cases o <;> simp

theorem validate {ctx : Provider} : Pays wt φ n (fun _ => n) (Rsasl.validate env ctx : M S Unit) := by
  refine ⟨fun s w => ?_⟩
  obtain ⟨o, slot, es, h, -, -, ho⟩ := validate_run env ctx s w
  rw [h]
  rcases ho with rfl | ⟨e, rfl⟩ <;> simp [leftOver] <;> omega

theorem pure_bind {a : α} {f : α → M S β} {c' : β → Nat} (h : Pays wt φ n c' (f a)) :
    Pays wt φ n c' (Pure.pure a >>= f) := ⟨h.on⟩

theorem fail_bind {e : SessionError} {f : α → M S β} {c' : β → Nat} : Pays wt φ n c' (M.fail e >>= f) :=
  ⟨(fail e).on⟩

theorem panic_bind {f : α → M S β} {c' : β → Nat} : Pays wt φ n c' (M.panic >>= f) := ⟨panic.on⟩

theorem draw_bind {f : List Nat → M S β} {c' : β → Nat} (h : ∀ l, l.length = k → Pays wt φ n c' (f l)) :
    Pays wt φ n c' (M.draw k >>= f) :=
  ⟨fun s w => (h ((List.range k).map w.rng) (by simp)).on s { w with rng := fun i => w.rng (i + k) }⟩

/-- The potential of a state that is taken out can be spent. -/
theorem take {s0 : S} {f : S → M S β} {c' : β → Nat} (h0 : φ s0 = 0) (h : ∀ st, Pays wt φ (n + φ st) c' (f st)) :
    Pays wt φ n c' (M.get >>= fun st => M.set s0 >>= fun _ => f st) := by
  refine ⟨fun s w => ?_⟩
  have h := (h s).on s0 w
  show (f s s0 w).2.2.wr.out.length + leftOver c' (f s s0 w).1 + φ (f s s0 w).2.1 + weigh wt w.log ≤
    w.wr.out.length + n + φ s + weigh wt (f s s0 w).2.2.log
  omega

end Pays

/-- A step costs at most what it was sent, and `extra`. -/
def Cheap (m : Mech) (wt : Event → Nat) (φ : m.S → Nat) (extra : Outcome State → Nat) : Prop :=
  ∀ env input s w, (m.step env input s w).2.2.wr.out.length + φ (m.step env input s w).2.1 + weigh wt w.log ≤
    w.wr.out.length + (input.getD []).length + φ s + extra (m.step env input s w).1 +
      weigh wt (m.step env input s w).2.2.log

theorem Pays.cheap {m : Mech} {φ : m.S → Nat} {extra : Outcome State → Nat}
    (h : ∀ env input, Pays wt φ (input.getD []).length (fun _ => 0) (m.step env input)) : Cheap m wt φ extra := by
  intro env input s w
  have := (h env input).on s w
  omega

/-- Whole sessions. -/
theorem Cheap.run {m : Mech} {φ : m.S → Nat} {extra : Outcome State → Nat} (h : Cheap m wt φ extra) (env : Env)
    (calls : List Call) (ses : Session m.S) :
    ((ses.run m env calls).1.map fun r => r.out.length).sum + weigh wt ses.log ≤
      φ ses.st + (calls.map fun c => (c.input.getD []).length).sum +
        ((ses.run m env calls).1.map fun r => extra r.res).sum + weigh wt (ses.run m env calls).2.log := by
  induction calls generalizing ses with
  | nil => simp [Session.run]
  | cons c cs ih =>
    have h1 := ih (ses.step m env c).2
    have h2 := h env c.input ses.st ⟨⟨[], c.sched⟩, ses.rng, ses.slot, ses.log⟩
    rcases hm : m.step env c.input ses.st ⟨⟨[], c.sched⟩, ses.rng, ses.slot, ses.log⟩ with ⟨o, s', w'⟩
    rw [hm] at h2
    rw [run_cons]
    rw [step_of hm] at h1 ⊢
    simp only [List.map_cons, List.sum_cons, List.length_nil] at *
    omega

end Rsasl

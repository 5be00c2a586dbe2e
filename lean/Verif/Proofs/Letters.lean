/-
A program logic for code that writes nothing but text, to a writer that takes everything.
-/
import Verif.Proofs.Bytes
import Verif.Proofs.Message
import Verif.Proofs.Run
import Verif.Proofs.Silent
import Verif.Spec.Letters

namespace Rsasl

open Spec

variable {S T α β G : Type} {I : S → Prop} {Q : α → Prop} {env : Env}

theorem Spec.IsText.nil : IsText [] := ⟨[], rfl⟩

theorem Spec.IsText.str (s : Str) : IsText (Str.bytes s) := ⟨s, rfl⟩

theorem Spec.IsText.append {a b : Bytes} : IsText a → IsText b → IsText (a ++ b)
  | ⟨s, hs⟩, ⟨t, ht⟩ => ⟨s ++ t, by rw [hs, ht, Str.bytes_append]⟩

theorem Spec.IsText.flatten : ∀ {l : List Bytes}, (∀ b ∈ l, IsText b) → IsText l.flatten
  | [], _ => .nil
  | b :: l, h => by
    rw [List.flatten_cons]
    exact (h b (by simp)).append (flatten fun c hc => h c (by simp [hc]))

/-- In a text, what is on either side of a byte below 128 is text. -/
theorem Spec.IsText.split {x : UInt8} (hx : x.toNat < 128) {a b : Bytes} (h : IsText (a ++ x :: b)) : IsText a ∧ IsText b := by
  obtain ⟨s, hs⟩ := h
  induction s generalizing a with
  | nil => simp [Str.bytes] at hs
  | cons c s ih =>
    rw [Str.bytes_cons] at hs
    rcases List.append_eq_append_iff.1 hs with ⟨a', h1, h2⟩ | ⟨c', h1, h2⟩
    · cases a' with
      | nil =>
        rw [List.append_nil] at h1
        refine ⟨⟨[c], by rw [← h1]; simp [Str.bytes]⟩, ?_⟩
        exact (ih (a := []) h2).2
      | cons y a' =>
        have hm : x ∈ encodeChar c := by
          rw [h1]
          rw [List.cons_append] at h2
          cases h2
          simp
        have hone : encodeChar c = [x] := by
          have := (mem_encodeChar_ascii hx c).1 hm
          unfold encodeChar
          simp [this, hx]
        rw [hone] at h1
        cases a with
        | nil =>
          cases h1
          cases h2
          exact ⟨.nil, s, rfl⟩
        | cons z a => simp at h1
    · obtain ⟨h3, h4⟩ := ih h2.symm
      refine ⟨?_, h4⟩
      rw [h1]
      exact IsText.append ⟨[c], by simp [Str.bytes]⟩ h3

/-- Whatever is written is text; `I` is kept, and `Q` holds of the result. -/
structure Letters (I : S → Prop) (Q : α → Prop) (m : M S α) : Prop where
  on : ∀ s w, I s → Cooperative w.wr.sched → I (m s w).2.1 ∧ Cooperative (m s w).2.2.wr.sched ∧
    (∃ t, IsText t ∧ (m s w).2.2.wr.out = w.wr.out ++ t) ∧ ∀ a, (m s w).1 = .ok a → Q a

namespace Letters

/-- Code that leaves the writer and the state alone. -/
theorem still {m : M S α} (h : ∀ s w, (m s w).2.2.wr = w.wr ∧ (m s w).2.1 = s ∧ ∀ a, (m s w).1 = .ok a → Q a) :
    Letters I Q m := by
  refine ⟨fun s w hi hw => ?_⟩
  obtain ⟨h1, h2, h3⟩ := h s w
  rw [h1, h2]
  exact ⟨hi, hw, ⟨[], .nil, by simp⟩, h3⟩

theorem weaken {m : M S α} {Q' : α → Prop} (h : Letters I Q m) (hq : ∀ a, Q a → Q' a) : Letters I Q' m := by
  refine ⟨fun s w hi hw => ?_⟩
  obtain ⟨h1, h2, h3, h4⟩ := h.on s w hi hw
  exact ⟨h1, h2, h3, fun a ha => hq a (h4 a ha)⟩

theorem pure {a : α} (h : Q a) : Letters I Q (Pure.pure a : M S α) :=
  still fun _ _ => ⟨rfl, rfl, fun b hb => by cases hb; exact h⟩

theorem fail (e : SessionError) : Letters I Q (M.fail e : M S α) :=
  still fun _ _ => ⟨rfl, rfl, fun b hb => by cases hb⟩

theorem panic : Letters I Q (M.panic : M S α) :=
  still fun _ _ => ⟨rfl, rfl, fun b hb => by cases hb⟩

theorem get : Letters I I (M.get : M S S) :=
  ⟨fun s _ hi hw => ⟨hi, hw, ⟨[], .nil, (List.append_nil _).symm⟩, fun b hb => by cases hb; exact hi⟩⟩

theorem set {s' : S} (h : I s') : Letters I (fun _ => True) (M.set s') :=
  ⟨fun _ _ _ hw => ⟨h, hw, ⟨[], .nil, (List.append_nil _).symm⟩, fun _ _ => trivial⟩⟩

theorem modify {f : S → S} (h : ∀ s, I s → I (f s)) : Letters I (fun _ => True) (M.modify f) :=
  ⟨fun s _ hi hw => ⟨h s hi, hw, ⟨[], .nil, (List.append_nil _).symm⟩, fun _ _ => trivial⟩⟩

theorem draw (k : Nat) : Letters I (fun _ => True) (M.draw k : M S (List Nat)) :=
  still fun _ _ => ⟨rfl, rfl, fun _ _ => trivial⟩

theorem okOr (e : SessionError) {o : Option α} (h : ∀ a, o = some a → Q a) : Letters I Q (M.okOr e o : M S α) := by
  cases o with
  | none => exact fail _
  | some a => exact pure (h a rfl)

theorem lift {r : Except SessionError α} (h : ∀ a, r = .ok a → Q a) : Letters I Q (M.lift r : M S α) := by
  cases r with
  | error e => exact fail _
  | ok a => exact pure (h a rfl)

theorem liftOutcome {r : Outcome α} (h : ∀ a, r = .ok a → Q a) : Letters I Q (M.liftOutcome r : M S α) := by
  cases r with
  | ok a => exact pure (h a rfl)
  | err e => exact fail _
  | panic => exact panic

theorem bind {m : M S α} {f : α → M S β} {Q' : β → Prop} (h1 : Letters I Q m) (h2 : ∀ a, Q a → Letters I Q' (f a)) :
    Letters I Q' (m >>= f) := by
  refine ⟨fun s w hi hw => ?_⟩
  have h := h1.on s w hi hw
  rcases hm : m s w with ⟨o, s1, w1⟩
  rw [hm] at h
  obtain ⟨k1, k2, ⟨t, ht, k3⟩, k4⟩ := h
  cases o with
  | ok a =>
    rw [M.bind_ok hm]
    obtain ⟨j1, j2, ⟨u, hu, j3⟩, j4⟩ := (h2 a (k4 a rfl)).on s1 w1 k1 k2
    refine ⟨j1, j2, ⟨t ++ u, ht.append hu, ?_⟩, j4⟩
    rw [j3]
    show w1.wr.out ++ u = _
    rw [k3, List.append_assoc]
  | err e =>
    rw [M.bind_err hm]
    exact ⟨k1, k2, ⟨t, ht, k3⟩, fun a ha => by cases ha⟩
  | panic =>
    rw [M.bind_panic hm]
    exact ⟨k1, k2, ⟨t, ht, k3⟩, fun a ha => by cases ha⟩

theorem writeAll {b : Bytes} (h : IsText b) : Letters I (fun _ => True) (M.writeAll b : M S Unit) := by
  refine ⟨fun s w hi hw => ?_⟩
  obtain ⟨sc, h1, h2⟩ := M.writeAll_patient b s w hw.patient
  rw [h2]
  exact ⟨hi, hw.suffix h1, ⟨b, h, rfl⟩, fun _ _ => trivial⟩

theorem writeVectored {bs : List Bytes} (h : ∀ b ∈ bs, IsText b) :
    Letters I (fun _ => True) (M.writeVectored bs : M S Unit) := by
  refine ⟨fun s w hi hw => ?_⟩
  obtain ⟨sc, h1, h2⟩ := M.writeVectored_cooperative bs s w hw
  rw [h2]
  exact ⟨hi, hw.suffix h1, ⟨bs.flatten, .flatten h, rfl⟩, fun _ _ => trivial⟩

theorem withLocal {l : T} {J : T → Prop} {m : M (S × T) α} (hl : J l) (h : Letters (fun x => I x.1 ∧ J x.2) Q m) :
    Letters I Q (M.withLocal l m) := by
  refine ⟨fun s w hi hw => ?_⟩
  obtain ⟨h1, h2, h3, h4⟩ := h.on (s, l) w ⟨hi, hl⟩ hw
  exact ⟨h1.1, h2, h3, h4⟩

theorem attempt {m : M S α} (h : Letters I Q m) : Letters I (fun _ => True) (M.attempt m) := by
  refine ⟨fun s w hi hw => ?_⟩
  have h := h.on s w hi hw
  unfold M.attempt
  generalize m s w = x at h
  rcases x with ⟨o, s', w'⟩
  obtain ⟨h1, h2, h3, -⟩ := h
  cases o <;> exact ⟨h1, h2, h3, fun _ _ => trivial⟩

/-- Whatever is supplied. -/
theorem ask' {p : Property} {ctx : Provider} {f : p.Value → M S G} {Q : G → Prop} (hf : ∀ v, Letters I Q (f v)) :
    Letters I (fun o => ∀ g, o = some g → Q g) (maybeNeedWith env p ctx f) := by
  refine ⟨fun s w hi hw => ?_⟩
  have hr := maybeNeedWith_run env p ctx f s w
  generalize maybeNeedWith env p ctx f s w = x at hr
  cases hr with
  | none o es hq ho =>
    refine ⟨hi, hw, ⟨[], .nil, by simp [World.addLog]⟩, ?_⟩
    rcases ho with rfl | ⟨e, rfl⟩ <;> intro o ho <;> cases ho
    intro g hg
    cases hg
  | ok v es es' g s' w' o hq hq' hf' ho =>
    have h := (hf v).on s (w.addLog (.asked p ctx :: es ++ [.answered p v])) hi hw
    rw [hf'] at h
    obtain ⟨h1, h2, h3, h4⟩ := h
    refine ⟨h1, h2, h3, ?_⟩
    rcases ho with rfl | rfl | ⟨e, rfl⟩ <;> intro o ho <;> cases ho <;> intro g' hg' <;> cases hg'
    exact h4 _ rfl
  | err v es es' e s' w' o hq hq' hf' ho =>
    have h := (hf v).on s (w.addLog (.asked p ctx :: es ++ [.answered p v])) hi hw
    rw [hf'] at h
    obtain ⟨h1, h2, h3, h4⟩ := h
    refine ⟨h1, h2, h3, ?_⟩
    rcases ho with rfl | ⟨e, rfl⟩ <;> intro o ho <;> cases ho
    intro g' hg'
    cases hg'
  | panic v es s' w' hq hf' =>
    have h := (hf v).on s (w.addLog (.asked p ctx :: es ++ [.answered p v])) hi hw
    rw [hf'] at h
    obtain ⟨h1, h2, h3, h4⟩ := h
    exact ⟨h1, h2, h3, fun a ha => by cases ha⟩

/-- The values are those the callback may supply. -/
theorem ask {p : Property} {V : p.Value → Prop} (hp : env.Supplies p V) {ctx : Provider} {f : p.Value → M S G} {Q : G → Prop}
    (hf : ∀ v, V v → Letters I Q (f v)) :
    Letters I (fun o => ∀ g, o = some g → Q g) (maybeNeedWith env p ctx f) := by
  have : maybeNeedWith env p ctx f =
      maybeNeedWith env p ctx (open Classical in fun v => if V v then f v else M.fail .noSecurityLayer) := by
    unfold maybeNeedWith
    congr 1
    funext l
    rw [runSat_congr (hp l ctx) (fun v hv => (if_pos hv).symm)]
  rw [this]
  refine ask' fun v => ?_
  split
  · next h => exact hf v h
  · exact fail _

theorem needWith {p : Property} {V : p.Value → Prop} (hp : env.Supplies p V) {ctx : Provider} {f : p.Value → M S G} {Q : G → Prop}
    (hf : ∀ v, V v → Letters I Q (f v)) : Letters I Q (Rsasl.needWith env p ctx f) :=
  bind (ask hp hf) fun _ h => okOr _ h

theorem needWith' {p : Property} {ctx : Provider} {f : p.Value → M S G} {Q : G → Prop}
    (hf : ∀ v, Letters I Q (f v)) : Letters I Q (Rsasl.needWith env p ctx f) :=
  needWith (env.supplies_true p) fun v _ => hf v

theorem maybeNeedCbData {name : Str} {ctx : Provider} {f : Bytes → M S G} {Q : G → Prop} (hf : ∀ v, Letters I Q (f v)) :
    Letters I (fun o => ∀ g, o = some g → Q g) (Rsasl.maybeNeedCbData env name ctx f) := by
  unfold Rsasl.maybeNeedCbData
  dsimp only
  split
  · exact bind (hf _) fun g h => pure fun g' hg' => by cases hg'; exact h
  · exact ask' hf

theorem needCbData {name : Str} {ctx : Provider} {f : Bytes → M S G} {Q : G → Prop} (hf : ∀ v, Letters I Q (f v)) :
    Letters I Q (Rsasl.needCbData env name ctx f) :=
  bind (maybeNeedCbData hf) fun _ h => okOr _ h

theorem validate {ctx : Provider} : Letters I (fun _ => True) (Rsasl.validate env ctx : M S Unit) := by
  refine still fun s w => ?_
  obtain ⟨o, slot, es, h, -, -, ho⟩ := validate_run env ctx s w
  rw [h]
  exact ⟨rfl, rfl, fun _ _ => trivial⟩

theorem action {p : Property} {ctx : Provider} {v : p.Value} :
    Letters I (fun _ => True) (Rsasl.action env p ctx v : M S Unit) := by
  refine still fun s w => ?_
  obtain ⟨o, es, h, -, -⟩ := action_log env p ctx v s w
  rw [h]
  exact ⟨rfl, rfl, fun _ _ => trivial⟩

/-- A state that is taken out. -/
theorem take {s0 : S} {f : S → M S β} {Q : β → Prop} (h0 : I s0) (h : ∀ st, I st → Letters I Q (f st)) :
    Letters I Q (M.get >>= fun st => M.set s0 >>= fun _ => f st) :=
  bind get fun st hi => bind (set h0) fun _ _ => h st hi

/-- Whole sessions. -/
theorem run {m : Mech} {I : m.S → Prop} {D : Option Bytes → Prop}
    (h : ∀ input, D input → Letters I (fun _ => True) (m.step env input)) (calls : List Call)
    (hw : ∀ c ∈ calls, Cooperative c.sched) (hd : ∀ c ∈ calls, D c.input) (ses : Session m.S) (hi : I ses.st) :
    ∀ r ∈ (ses.run m env calls).1, IsText r.out := by
  induction calls generalizing ses with
  | nil => intro r hr; simp [Session.run] at hr
  | cons c cs ih =>
    have h2 := (h c.input (hd c (by simp))).on ses.st ⟨⟨[], c.sched⟩, ses.rng, ses.slot, ses.log⟩ hi (hw c (by simp))
    rcases hm : m.step env c.input ses.st ⟨⟨[], c.sched⟩, ses.rng, ses.slot, ses.log⟩ with ⟨o, s', w'⟩
    rw [hm] at h2
    obtain ⟨k1, -, ⟨t, ht, k3⟩, -⟩ := h2
    rw [run_cons, step_of hm]
    intro r hr
    rcases List.mem_cons.1 hr with rfl | hr
    · exact k3 ▸ ht
    · exact ih (fun c hc => hw c (by simp [hc])) (fun c hc => hd c (by simp [hc])) _ k1 r hr

end Letters

end Rsasl

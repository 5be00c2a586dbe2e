/-
Mechanism code over the base64 encoder: there are buffers it hands over.
-/
import Verif.Proofs.Encoder
import Verif.Proofs.Whole

namespace Rsasl

variable {S α β G : Type}

theorem Encoder.serve_append (e : Encoder) (bs cs : List Bytes) :
    e.serve (bs ++ cs) = ((e.serve bs).1 ++ ((e.serve bs).2.2.serve cs).1,
      (e.serve bs).2.1 ++ ((e.serve bs).2.2.serve cs).2.1, ((e.serve bs).2.2.serve cs).2.2) := by
  induction bs generalizing e with
  | nil => rfl
  | cons b bs ih =>
    rw [List.cons_append, Encoder.serve, Encoder.serve]
    rcases e.write b with ⟨r, e'⟩
    dsimp only
    rw [ih]
    simp only [List.cons_append, List.append_assoc]

/-- Over every encoder the code makes a definite number of calls with definite buffers, none of
them empty. `rest`, what is answered after those calls, is never looked at. -/
def Serves (m : M S α) : Prop :=
  ∀ (s : S) (w : World) (e : Encoder) (base d : Bytes), e.Holds base d →
    ∃ offered : List Bytes, (∀ b ∈ offered, b ≠ []) ∧ ∃ (o : Outcome α) (s' : S) (w' : World), ∀ rest,
      m s { w with wr := ⟨w.wr.out, (e.serve offered).1 ++ rest⟩ } =
        (o, s', { w' with wr := ⟨w.wr.out ++ (e.serve offered).2.1, rest⟩ })

namespace Serves

theorem blind {m : M S α} (h : Blind m) : Serves m := by
  intro s w e base d _
  refine ⟨[], nofun, (m s w).1, (m s w).2.1, (m s w).2.2, fun rest => ?_⟩
  rw [(h s w _).1]
  simp only [Encoder.serve, List.append_nil, List.nil_append]

theorem bind {m : M S α} {f : α → M S β} (hm : Serves m) (hf : ∀ a, Serves (f a)) :
    Serves (m >>= f) := by
  intro s w e base d h
  obtain ⟨off, h1, o, s', w', h2⟩ := hm s w e base d h
  cases o with
  | ok a =>
    obtain ⟨off', h3, o, s'', w'', h4⟩ := hf a s'
      { w' with wr := ⟨w.wr.out ++ (e.serve off).2.1, []⟩ } _ _ _ (e.serve_holds off h)
    refine ⟨off ++ off', ?_, o, s'', w'', fun rest => ?_⟩
    · intro b hb
      rcases List.mem_append.mp hb with hb | hb
      · exact h1 b hb
      · exact h3 b hb
    · rw [e.serve_append, List.append_assoc, M.bind_ok (h2 _), ← List.append_assoc]
      exact h4 rest
  | err er => exact ⟨off, h1, .err er, s', w', fun rest => M.bind_err (h2 rest)⟩
  | panic => exact ⟨off, h1, .panic, s', w', fun rest => M.bind_panic (h2 rest)⟩

theorem attempt {m : M S α} (hm : Serves m) : Serves (M.attempt m) := by
  intro s w e base d h
  obtain ⟨off, h1, o, s', w', h2⟩ := hm s w e base d h
  unfold M.attempt
  cases o with
  | ok a => exact ⟨off, h1, .ok (.ok a), s', w', fun rest => by rw [h2]⟩
  | err er => exact ⟨off, h1, .ok (.error er), s', w', fun rest => by rw [h2]⟩
  | panic => exact ⟨off, h1, .panic, s', w', fun rest => by rw [h2]⟩

theorem withLocal {T : Type} (t : T) {m : M (S × T) α} (hm : Serves m) :
    Serves (M.withLocal t m) := by
  intro s w e base d h
  obtain ⟨off, h1, o, s', w', h2⟩ := hm (s, t) w e base d h
  exact ⟨off, h1, o, s'.1, w', fun rest => by unfold M.withLocal; rw [h2]⟩

theorem pure (a : α) : Serves (Pure.pure a : M S α) := blind fun _ _ _ => ⟨rfl, rfl⟩

theorem note (ev : Event) : Serves (M.note ev : M S Unit) := blind fun _ _ _ => ⟨rfl, rfl⟩

theorem writeAll (b : Bytes) : Serves (M.writeAll b : M S Unit) := by
  intro s w e base d h
  obtain ⟨off, h1, -, h2⟩ := e.writeAll_serves (b.length + e.outer.sched.length + 1) b h
    (e.writeAll_ends _ _ (by omega))
  unfold M.writeAll Writer.writeAll
  rcases hr : (e.writeAll (b.length + e.outer.sched.length + 1) b).1 with n | er | _ | _ <;>
    rw [hr] at h2 <;>
    exact ⟨off, h1, _, s, w, fun rest => by dsimp only; rw [h2]⟩

theorem writeVectored (bs : List Bytes) (hne : bs.flatten ≠ []) :
    Serves (M.writeVectored bs : M S Unit) := by
  intro s w e base d h
  obtain ⟨off, h1, -, h2⟩ := (VectoredWriter.new bs).writeAll_serves (bs.flatten.length + 1) e h
    (by simpa [VectoredWriter.rest, VectoredWriter.new] using hne)
    (by simp [VectoredWriter.rest, VectoredWriter.new])
  unfold M.writeVectored
  rcases hr : ((VectoredWriter.new bs).writeAllOver (bs.flatten.length + 1) e).1 with n | er | _ | _ <;>
    rw [hr] at h2 <;>
    exact ⟨off, h1, _, s, w, fun rest => by dsimp only; rw [h2]⟩

theorem writeJson (bs : List Bytes) : Serves (OAuthBearer.writeJson bs : M S Unit) := by
  induction bs with
  | nil => exact pure _
  | cons b bs ih =>
    refine bind (attempt (writeAll b)) fun r => ?_
    cases r with
    | ok u => exact ih
    | error e => exact blind fun _ _ _ => ⟨rfl, rfl⟩

theorem satisfy (p : Property) {f : p.Value → M S G} (hf : ∀ v, Serves (f v)) (v : p.Value)
    (cr : CR G) : Serves (cr.satisfy p f v) := by
  cases cr with
  | «open» =>
    refine bind (note _) fun _ => bind (attempt (hf v)) fun r => ?_
    cases r <;> exact pure _
  | satisfied g => exact pure _
  | gone => exact blind fun _ _ _ => ⟨rfl, rfl⟩

theorem runSat (p : Property) {f : p.Value → M S G} (hf : ∀ v, Serves (f v)) (prog : CbProg)
    (cr : CR G) : Serves (Rsasl.runSat p f prog cr) := by
  induction prog generalizing cr with
  | ret r => exact pure _
  | satisfy q v k ih =>
    unfold Rsasl.runSat
    split
    · next hq => subst hq; exact bind (satisfy _ hf _ _) fun _ => ih _ _
    · exact ih _ _
  | satisfyWith q g k ih =>
    unfold Rsasl.runSat
    split
    · next hq =>
      subst hq
      refine bind (note _) fun _ => ?_
      cases g with
      | error e => exact ih _ _
      | ok v => exact bind (satisfy _ hf _ _) fun _ => ih _ _
    · exact ih _ _
  | getAction q k ih => unfold Rsasl.runSat; exact ih _ _
  | is q k ih => unfold Rsasl.runSat; exact ih _ _

theorem ask (env : Env) (p : Property) (ctx : Provider) {f : p.Value → M S G}
    (hf : ∀ v, Serves (f v)) : Serves (maybeNeedWith env p ctx f) := by
  unfold maybeNeedWith
  refine bind (blind fun _ _ _ => ⟨rfl, rfl⟩) fun _ => bind (note _) fun _ =>
    bind (runSat p hf _ _) fun ⟨r, cr⟩ => bind ?_ fun _ => pure _
  cases filterNoValue (filterEarly r) <;> exact blind fun _ _ _ => ⟨rfl, rfl⟩

end Serves

/-- All code is of this kind. -/
theorem Code.serves {vec : Prop} {env : Env} {m : M S α} (h : Code vec env m) : Serves m := by
  induction h with
  | pure a => exact .pure a
  | fail e => exact .blind fun _ _ _ => ⟨rfl, rfl⟩
  | panic => exact .blind fun _ _ _ => ⟨rfl, rfl⟩
  | get => exact .blind fun _ _ _ => ⟨rfl, rfl⟩
  | set s => exact .blind fun _ _ _ => ⟨rfl, rfl⟩
  | modify f => exact .blind fun _ _ _ => ⟨rfl, rfl⟩
  | draw n => exact .blind fun _ _ _ => ⟨rfl, rfl⟩
  | writeAll b => exact .writeAll b
  | writeVectored hv bs hne => exact .writeVectored bs hne
  | writeJson bs => exact .writeJson bs
  | bind _ _ ih1 ih2 => exact .bind ih1 ih2
  | withLocal t _ ih => exact .withLocal t ih
  | ask p ctx _ ih => exact .ask _ p ctx ih
  | action p ctx v => exact .blind (action_blind _ p ctx v)
  | tryAction p ctx v => exact .attempt (.blind (action_blind _ p ctx v))
  | validate ctx => exact .blind (validate_blind _ ctx)

end Rsasl

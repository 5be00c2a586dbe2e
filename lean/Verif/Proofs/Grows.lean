/-
Code only ever adds to what was written and to the log.
-/
import Verif.Proofs.Code

namespace Rsasl

variable {S α β G : Type}

/-- What happened in `w` is the beginning of what happened in `w₀`. -/
structure Behind (w w₀ : World) : Prop where
  out : w.wr.out <+: w₀.wr.out
  log : w.log <+: w₀.log

theorem Behind.refl (w : World) : Behind w w := ⟨List.prefix_rfl, List.prefix_rfl⟩

theorem Behind.trans {w w' w'' : World} (h : Behind w w') (h' : Behind w' w'') : Behind w w'' :=
  ⟨h.out.trans h'.out, h.log.trans h'.log⟩

theorem Behind.addLog (w : World) (es : List Event) : Behind w (w.addLog es) :=
  ⟨List.prefix_rfl, List.prefix_append _ _⟩

/-- Code that only adds. -/
structure Grows (m : M S α) : Prop where
  on : ∀ s w, Behind w (m s w).2.2

namespace Grows

theorem still {m : M S α} (h : ∀ s w, (m s w).2.2 = w) : Grows m :=
  ⟨fun s w => by rw [h]; exact .refl w⟩

theorem bind {m : M S α} {f : α → M S β} (hm : Grows m) (hf : ∀ a, Grows (f a)) :
    Grows (m >>= f) := by
  refine ⟨fun s w => ?_⟩
  have h := hm.on s w
  rcases hx : m s w with ⟨o, s', w'⟩
  rw [hx] at h
  cases o with
  | ok a => rw [M.bind_ok hx]; exact h.trans ((hf a).on s' w')
  | err e => rw [M.bind_err hx]; exact h
  | panic => rw [M.bind_panic hx]; exact h

theorem attempt {m : M S α} (hm : Grows m) : Grows (M.attempt m) := by
  refine ⟨fun s w => ?_⟩
  have h := hm.on s w
  unfold M.attempt
  generalize m s w = x at h
  rcases x with ⟨o, s', w'⟩
  cases o <;> exact h

theorem note (e : Event) : Grows (M.note e : M S Unit) :=
  ⟨fun s w => by rw [M.note_apply]; exact .addLog w [e]⟩

theorem writeAll (b : Bytes) : Grows (M.writeAll b : M S Unit) := by
  refine ⟨fun s w => ?_⟩
  obtain ⟨n, sched, -, -, h | ⟨e, h⟩⟩ := M.writeAll_cases b s w <;> rw [h] <;>
    exact ⟨List.prefix_append _ _, List.prefix_rfl⟩

theorem writeVectored (bs : List Bytes) : Grows (M.writeVectored bs : M S Unit) := by
  refine ⟨fun s w => ?_⟩
  obtain ⟨n, sched, -, -, h | ⟨e, h⟩⟩ := M.writeVectored_cases bs s w <;> rw [h] <;>
    exact ⟨List.prefix_append _ _, List.prefix_rfl⟩

theorem writeJson (bs : List Bytes) : Grows (OAuthBearer.writeJson bs : M S Unit) := by
  induction bs with
  | nil => exact still fun _ _ => rfl
  | cons b bs ih =>
    refine bind (attempt (writeAll b)) fun r => ?_
    cases r with
    | ok u => exact ih
    | error e => exact still fun _ _ => rfl

theorem lift (r : Except SessionError α) : Grows (M.lift r : M S α) := by
  cases r <;> exact still fun _ _ => rfl

theorem satisfy (p : Property) {f : p.Value → M S G} (hf : ∀ v, Grows (f v)) (v : p.Value)
    (cr : CR G) : Grows (cr.satisfy p f v) := by
  cases cr with
  | «open» =>
    refine bind (note _) fun _ => bind (attempt (hf v)) fun r => ?_
    cases r <;> exact still fun _ _ => rfl
  | satisfied g => exact still fun _ _ => rfl
  | gone => exact still fun _ _ => rfl

theorem runSat (p : Property) {f : p.Value → M S G} (hf : ∀ v, Grows (f v)) (prog : CbProg)
    (cr : CR G) : Grows (Rsasl.runSat p f prog cr) := by
  induction prog generalizing cr with
  | ret r => exact still fun _ _ => rfl
  | satisfy q v k ih =>
    unfold Rsasl.runSat
    split
    · next hq => subst hq; exact bind (satisfy _ hf _ _) fun _ => ih _ _
    · exact ih _ _
  | satisfyWith q g k ih =>
    unfold Rsasl.runSat
    split
    · next hq =>
      subst hq
      refine bind (note _) fun _ => ?_
      cases g with
      | error e => exact ih _ _
      | ok v => exact bind (satisfy _ hf _ _) fun _ => ih _ _
    · exact ih _ _
  | getAction q k ih => unfold Rsasl.runSat; exact ih _ _
  | is q k ih => unfold Rsasl.runSat; exact ih _ _

theorem ask (env : Env) (p : Property) (ctx : Provider) {f : p.Value → M S G}
    (hf : ∀ v, Grows (f v)) : Grows (maybeNeedWith env p ctx f) := by
  unfold maybeNeedWith
  refine bind (still fun _ _ => rfl) fun _ => bind (note _) fun _ =>
    bind (runSat p hf _ _) fun ⟨r, cr⟩ => bind (lift _) fun _ => ?_
  exact still fun _ _ => rfl

theorem runAct (p : Property) (prog : CbProg) (cur : Option p.Value) :
    Grows (Rsasl.runAct p prog cur : M S _) := by
  induction prog generalizing cur with
  | ret r => exact still fun _ _ => rfl
  | satisfy q v k ih => unfold Rsasl.runAct; exact ih _ cur
  | satisfyWith q v k ih => unfold Rsasl.runAct; exact ih _ cur
  | is q k ih => unfold Rsasl.runAct; exact ih _ cur
  | getAction q k ih =>
    unfold Rsasl.runAct
    split
    · next hq =>
      subst hq
      cases cur with
      | none => exact ih none none
      | some v => exact bind (note _) fun _ => ih _ none
    · exact ih _ cur

theorem action (env : Env) (p : Property) (ctx : Provider) (v : p.Value) :
    Grows (Rsasl.action env p ctx v : M S Unit) := by
  unfold Rsasl.action
  refine bind (still fun _ _ => rfl) fun _ => bind (note _) fun _ =>
    bind (runAct _ _ _) fun ⟨r, cur⟩ => bind (lift _) fun _ => ?_
  cases cur <;> exact still fun _ _ => rfl

theorem runVal (vtag : Nat) (prog : ValProg) : Grows (Rsasl.runVal vtag prog : M S _) := by
  induction prog with
  | ret r => exact still fun _ _ => rfl
  | finalize t v k ih =>
    refine ⟨fun s w => ?_⟩
    unfold Rsasl.runVal
    split
    · exact Behind.trans (w' := { w with slot := some v }) ⟨List.prefix_rfl, List.prefix_rfl⟩
        (ih.on s _)
    · exact ih.on s w
  | «with» t f k ih =>
    refine ⟨fun s w => ?_⟩
    unfold Rsasl.runVal
    split
    · cases f with
      | error e => exact (Behind.addLog w [.vEvaluated t]).trans ((ih _).on s _)
      | ok v =>
        exact Behind.trans (w' := { w with log := w.log ++ [.vEvaluated t], slot := some v })
          ⟨List.prefix_rfl, List.prefix_append _ _⟩ ((ih _).on s _)
    · exact (ih _).on s w
  | is t k ih => exact ih _

theorem validate (env : Env) (ctx : Provider) : Grows (Rsasl.validate env ctx : M S Unit) := by
  unfold Rsasl.validate
  refine bind (still fun _ _ => rfl) fun _ => bind (note _) fun _ =>
    bind (runVal _ _) fun r => ?_
  rcases r with e | u <;> exact still fun _ _ => rfl

end Grows

theorem Code.grows {vec : Prop} {env : Env} {m : M S α} (h : Code vec env m) : Grows m := by
  induction h with
  | pure a => exact .still fun _ _ => rfl
  | fail e => exact .still fun _ _ => rfl
  | panic => exact .still fun _ _ => rfl
  | get => exact .still fun _ _ => rfl
  | set s => exact .still fun _ _ => rfl
  | modify f => exact .still fun _ _ => rfl
  | draw n => exact ⟨fun _ _ => ⟨List.prefix_rfl, List.prefix_rfl⟩⟩
  | writeAll b => exact .writeAll b
  | writeVectored hv bs => exact .writeVectored bs
  | writeJson bs => exact .writeJson bs
  | bind _ _ ih1 ih2 => exact .bind ih1 ih2
  | withLocal t _ ih => exact ⟨fun s w => ih.on (s, t) w⟩
  | ask p ctx _ ih => exact .ask _ p ctx ih
  | action p ctx v => exact .action _ p ctx v
  | tryAction p ctx v => exact .attempt (.action _ p ctx v)
  | validate ctx => exact .validate _ ctx

end Rsasl

/-
Code depends on the random draws it makes, of which there are finitely many, and no others.
-/
import Verif.Proofs.Code

namespace Rsasl

variable {S α β G : Type}

/-- From `s` and `w` the code makes `k` draws: with any stream starting with the same `k` numbers it
does the same, and leaves the rest of that stream. -/
def DrawsAt (m : M S α) (s : S) (w : World) (k : Nat) : Prop :=
  ∀ rng, (∀ i < k, rng i = w.rng i) →
    m s { w with rng := rng } =
      ((m s w).1, (m s w).2.1, { (m s w).2.2 with rng := fun i => rng (i + k) })

def Draws (m : M S α) : Prop := ∀ s w, ∃ k, DrawsAt m s w k

theorem Draws.none {m : M S α} (h : ∀ s w rng, m s { w with rng := rng } =
    ((m s w).1, (m s w).2.1, { (m s w).2.2 with rng := rng })) : Draws m :=
  fun s w => ⟨0, fun rng _ => h s w rng⟩

theorem DrawsAt.rng {m : M S α} {s : S} {w : World} {k : Nat} (h : DrawsAt m s w k) :
    (m s w).2.2.rng = fun i => w.rng (i + k) := by
  have := h w.rng fun _ _ => rfl
  have := congrArg (fun x => x.2.2.rng) this
  exact this

theorem Draws.bind {m : M S α} {f : α → M S β} (hm : Draws m) (hf : ∀ a, Draws (f a)) :
    Draws (m >>= f) := by
  intro s w
  obtain ⟨k, hk⟩ := hm s w
  have hr := hk.rng
  unfold DrawsAt at hk
  rcases hx : m s w with ⟨o, s', w'⟩
  rw [hx] at hk hr
  simp only at hk hr
  cases o with
  | ok a =>
    obtain ⟨l, hl⟩ := hf a s' w'
    refine ⟨k + l, fun rng h => ?_⟩
    rw [M.bind_ok (hk rng fun i hi => h i (by omega)), M.bind_ok hx]
    refine (hl (fun i => rng (i + k)) fun i hi => ?_).trans ?_
    · rw [hr]; exact h (i + k) (by omega)
    · have : (fun i => rng (i + l + k)) = fun i => rng (i + (k + l)) := by
        funext i; congr 1; omega
      simp only [this]
  | err e =>
    refine ⟨k, fun rng h => ?_⟩
    rw [M.bind_err (hk rng h), M.bind_err hx]
  | panic =>
    refine ⟨k, fun rng h => ?_⟩
    rw [M.bind_panic (hk rng h), M.bind_panic hx]

theorem Draws.attempt {m : M S α} (hm : Draws m) : Draws (M.attempt m) := by
  intro s w
  obtain ⟨k, hk⟩ := hm s w
  refine ⟨k, fun rng h => ?_⟩
  unfold M.attempt
  rw [hk rng h]
  rcases m s w with ⟨o, s', w'⟩
  cases o <;> rfl

theorem Draws.pure (a : α) : Draws (Pure.pure a : M S α) := .none fun _ _ _ => rfl

theorem Draws.lift (r : Except SessionError α) : Draws (M.lift r : M S α) := by
  cases r <;> exact .none fun _ _ _ => rfl

theorem Draws.writeAll (b : Bytes) : Draws (M.writeAll b : M S Unit) := by
  refine .none fun s w rng => ?_
  unfold M.writeAll
  dsimp only
  split <;> rfl

theorem Draws.writeVectored (bs : List Bytes) : Draws (M.writeVectored bs : M S Unit) := by
  refine .none fun s w rng => ?_
  unfold M.writeVectored
  dsimp only
  split <;> rfl

theorem Draws.writeJson (bs : List Bytes) : Draws (OAuthBearer.writeJson bs : M S Unit) := by
  induction bs with
  | nil => exact .pure _
  | cons b bs ih =>
    unfold OAuthBearer.writeJson
    refine .bind (.attempt (.writeAll b)) fun r => ?_
    cases r with
    | ok u => exact ih
    | error e => exact .none fun _ _ _ => rfl

theorem Draws.satisfy (p : Property) {f : p.Value → M S G} (hf : ∀ v, Draws (f v)) (v : p.Value)
    (cr : CR G) : Draws (cr.satisfy p f v) := by
  cases cr with
  | «open» =>
    unfold CR.satisfy
    refine .bind (.none fun _ _ _ => rfl) fun _ => .bind (.attempt (hf v)) fun r => ?_
    cases r <;> exact .pure _
  | satisfied g => exact .pure _
  | gone => exact .pure _

theorem Draws.runSat (p : Property) {f : p.Value → M S G} (hf : ∀ v, Draws (f v)) (prog : CbProg)
    (cr : CR G) : Draws (runSat p f prog cr) := by
  induction prog generalizing cr with
  | ret r => exact .pure _
  | satisfy q v k ih =>
    unfold Rsasl.runSat
    split
    · next hq => subst hq; exact .bind (.satisfy q hf v cr) fun x => ih _ _
    · exact ih _ _
  | satisfyWith q g k ih =>
    unfold Rsasl.runSat
    split
    · next hq =>
      subst hq
      refine .bind (.none fun _ _ _ => rfl) fun _ => ?_
      cases g with
      | error e => exact ih _ _
      | ok v => exact .bind (.satisfy q hf v cr) fun x => ih _ _
    · exact ih _ _
  | getAction q k ih => unfold Rsasl.runSat; exact ih _ _
  | is q k ih => unfold Rsasl.runSat; exact ih _ _

theorem Draws.runAct (p : Property) (prog : CbProg) (cur : Option p.Value) :
    Draws (runAct p prog cur : M S _) := by
  induction prog generalizing cur with
  | ret r => exact .pure _
  | satisfy q v k ih => unfold Rsasl.runAct; exact ih _ cur
  | satisfyWith q v k ih => unfold Rsasl.runAct; exact ih _ cur
  | is q k ih => unfold Rsasl.runAct; exact ih _ cur
  | getAction q k ih =>
    unfold Rsasl.runAct
    split
    · next hq =>
      subst hq
      cases cur with
      | none => exact ih Option.none Option.none
      | some v => exact .bind (.none fun _ _ _ => rfl) fun _ => ih _ Option.none
    · exact ih _ cur

theorem Draws.runVal (vtag : Nat) (prog : ValProg) : Draws (runVal vtag prog : M S _) := by
  refine .none ?_
  induction prog with
  | ret r => exact fun _ _ _ => rfl
  | finalize t v k ih =>
    intro s w rng
    unfold Rsasl.runVal
    dsimp only
    split
    · exact ih s { w with slot := some v } rng
    · exact ih s w rng
  | «with» t f k ih =>
    intro s w rng
    unfold Rsasl.runVal
    dsimp only
    split
    · cases f with
      | error e => exact ih _ s { w with log := w.log ++ [.vEvaluated t] } rng
      | ok v => exact ih _ s { w with log := w.log ++ [.vEvaluated t], slot := some v } rng
    · exact ih _ s w rng
  | is t k ih => exact ih _

theorem Draws.action (env : Env) (p : Property) (ctx : Provider) (v : p.Value) :
    Draws (action env p ctx v : M S Unit) := by
  unfold Rsasl.action
  refine .bind (.none fun _ _ _ => rfl) fun _ => .bind (.none fun _ _ _ => rfl) fun _ =>
    .bind (.runAct _ _ _) fun ⟨r, cur⟩ => .bind (.lift _) fun _ => ?_
  cases cur <;> exact .none fun _ _ _ => rfl

theorem Draws.ask (env : Env) (p : Property) (ctx : Provider) {f : p.Value → M S G}
    (hf : ∀ v, Draws (f v)) : Draws (maybeNeedWith env p ctx f) := by
  unfold maybeNeedWith
  exact .bind (.none fun _ _ _ => rfl) fun _ => .bind (.none fun _ _ _ => rfl) fun _ =>
    .bind (.runSat p hf _ _) fun ⟨r, cr⟩ => .bind (.lift _) fun _ => .pure _

theorem Code.draws {vec : Prop} {env : Env} {m : M S α} (h : Code vec env m) : Draws m := by
  induction h with
  | pure a => exact .pure _
  | fail e => exact .none fun _ _ _ => rfl
  | panic => exact .none fun _ _ _ => rfl
  | get => exact .none fun _ _ _ => rfl
  | set s => exact .none fun _ _ _ => rfl
  | modify f => exact .none fun _ _ _ => rfl
  | draw n =>
    refine fun s w => ⟨n, fun rng h => ?_⟩
    unfold M.draw
    have : (List.range n).map rng = (List.range n).map w.rng :=
      List.map_congr_left fun i hi => h i (List.mem_range.1 hi)
    simp only [this]
  | writeAll b => exact .writeAll b
  | writeVectored _ bs => exact .writeVectored bs
  | writeJson bs => exact .writeJson bs
  | bind _ _ ih1 ih2 => exact .bind ih1 ih2
  | @withLocal S T α t m _ ih =>
    intro s w
    obtain ⟨k, hk⟩ := ih (s, t) w
    refine ⟨k, fun rng h => ?_⟩
    unfold M.withLocal
    rw [hk rng h]
  | ask p ctx _ ih => exact .ask env p ctx ih
  | action p ctx v => exact .action env p ctx v
  | tryAction p ctx v => exact .attempt (.action env p ctx v)
  | validate ctx =>
    unfold Rsasl.validate
    refine .bind (.none fun _ _ _ => rfl) fun _ => .bind (.none fun _ _ _ => rfl) fun _ =>
      .bind (.runVal _ _) fun r => ?_
    cases r <;> exact .none fun _ _ _ => rfl

end Rsasl

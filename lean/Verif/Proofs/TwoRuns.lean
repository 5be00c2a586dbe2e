/-
Code run twice, with callbacks that do the same except for some of the values they give.
-/
import Verif.Spec.TwoRuns
import Verif.Proofs.Silent

namespace Rsasl

open Spec

variable {S T α β G : Type} {L : ValueRel} {V : Provider → ValueRel} {env env' : Env}

/-- Two worlds that only differ in the values that were used. -/
structure WorldsAlike (L : ValueRel) (w w' : World) : Prop where
  wr : w.wr = w'.wr
  rng : w.rng = w'.rng
  slot : w.slot = w'.slot
  log : LogsAlike L w.log w'.log

/-- From such worlds the two do the same. -/
def TwoRuns (L : ValueRel) (m m' : M S α) : Prop :=
  ∀ s w w', WorldsAlike L w w' → (m s w).1 = (m' s w').1 ∧ (m s w).2.1 = (m' s w').2.1 ∧
    WorldsAlike L (m s w).2.2 (m' s w').2.2

theorem LogsAlike.refl (l : List Event) : LogsAlike L l l := by
  have : ∀ r : List Event, LogsAlike L r.reverse r.reverse := by
    intro r
    induction r with
    | nil => exact .nil
    | cons e r ih => rw [List.reverse_cons]; exact .same e ih
  simpa using this l.reverse

namespace TwoRuns

theorem bind {m m' : M S α} {f f' : α → M S β} (h : TwoRuns L m m')
    (hf : ∀ a, TwoRuns L (f a) (f' a)) : TwoRuns L (m >>= f) (m' >>= f') := by
  intro s w w' hw
  obtain ⟨h1, h2, h3⟩ := h s w w' hw
  rcases hx : m s w with ⟨o, s1, w1⟩
  rcases hx' : m' s w' with ⟨o', s1', w1'⟩
  rw [hx, hx'] at h1 h2 h3
  simp only at h1 h2 h3
  subst h1 h2
  cases o with
  | ok a => rw [M.bind_ok hx, M.bind_ok hx']; exact hf a _ _ _ h3
  | err e => rw [M.bind_err hx, M.bind_err hx']; exact ⟨rfl, rfl, h3⟩
  | panic => rw [M.bind_panic hx, M.bind_panic hx']; exact ⟨rfl, rfl, h3⟩

theorem attempt {m m' : M S α} (h : TwoRuns L m m') : TwoRuns L (M.attempt m) (M.attempt m') := by
  intro s w w' hw
  obtain ⟨h1, h2, h3⟩ := h s w w' hw
  unfold M.attempt
  rcases hx : m s w with ⟨o, s1, w1⟩
  rcases hx' : m' s w' with ⟨o', s1', w1'⟩
  rw [hx, hx'] at h1 h2 h3
  simp only at h1 h2 h3
  subst h1 h2
  cases o <;> exact ⟨rfl, rfl, h3⟩

theorem withLocal (t : T) {m m' : M (S × T) α} (h : TwoRuns L m m') :
    TwoRuns L (M.withLocal t m) (M.withLocal t m') := by
  intro s w w' hw
  obtain ⟨h1, h2, h3⟩ := h (s, t) w w' hw
  unfold M.withLocal
  rcases hx : m (s, t) w with ⟨o, s1, w1⟩
  rcases hx' : m' (s, t) w' with ⟨o', s1', w1'⟩
  rw [hx, hx'] at h1 h2 h3
  simp only at h1 h2 h3
  subst h1 h2
  exact ⟨rfl, rfl, h3⟩

theorem pure (a : α) : TwoRuns L (Pure.pure a : M S α) (Pure.pure a) := fun _ _ _ h => ⟨rfl, rfl, h⟩
theorem fail (e : SessionError) : TwoRuns L (M.fail e : M S α) (M.fail e) :=
  fun _ _ _ h => ⟨rfl, rfl, h⟩
theorem panic : TwoRuns L (M.panic : M S α) M.panic := fun _ _ _ h => ⟨rfl, rfl, h⟩
theorem get : TwoRuns L (M.get : M S S) M.get := fun _ _ _ h => ⟨rfl, rfl, h⟩
theorem set (s : S) : TwoRuns L (M.set s) (M.set s) := fun _ _ _ h => ⟨rfl, rfl, h⟩
theorem modify (f : S → S) : TwoRuns L (M.modify f) (M.modify f) := fun _ _ _ h => ⟨rfl, rfl, h⟩

theorem draw (n : Nat) : TwoRuns L (M.draw n : M S (List Nat)) (M.draw n) := by
  intro s w w' h
  refine ⟨?_, rfl, h.wr, ?_, h.slot, h.log⟩ <;> simp [M.draw, h.rng]

theorem note (e : Event) : TwoRuns L (M.note e : M S Unit) (M.note e) :=
  fun _ _ _ h => ⟨rfl, rfl, h.wr, h.rng, h.slot, .same e h.log⟩

theorem note_answered {p : Property} {v v' : p.Value} (hv : L p v v') :
    TwoRuns L (M.note (.answered p v) : M S Unit) (M.note (.answered p v')) :=
  fun _ _ _ h => ⟨rfl, rfl, h.wr, h.rng, h.slot, .answered hv h.log⟩

theorem okOr (e : SessionError) (o : Option α) : TwoRuns L (M.okOr e o : M S α) (M.okOr e o) := by
  cases o
  · exact fail e
  · exact pure _

theorem lift (r : Except SessionError α) : TwoRuns L (M.lift r : M S α) (M.lift r) := by
  cases r
  · exact fail _
  · exact pure _

theorem liftOutcome (o : Outcome α) : TwoRuns L (M.liftOutcome o : M S α) (M.liftOutcome o) := by
  cases o
  · exact pure _
  · exact fail _
  · exact panic

theorem writeAll (b : Bytes) : TwoRuns L (M.writeAll b : M S Unit) (M.writeAll b) := by
  intro s w w' h
  unfold M.writeAll
  rw [h.wr]
  split <;> exact ⟨rfl, rfl, rfl, h.rng, h.slot, h.log⟩

theorem writeVectored (bs : List Bytes) :
    TwoRuns L (M.writeVectored bs : M S Unit) (M.writeVectored bs) := by
  intro s w w' h
  unfold M.writeVectored
  rw [h.wr]
  split <;> exact ⟨rfl, rfl, rfl, h.rng, h.slot, h.log⟩

/-! ## Requests -/

/-- The closure of a request treats related values alike. -/
def Closures (L U : ValueRel) (p : Property) (f f' : p.Value → M S G) : Prop :=
  ∀ v v', U p v v' → L p v v' ∧ TwoRuns L (f v) (f' v')

theorem satisfy {U : ValueRel} {p : Property} {f f' : p.Value → M S G} (hf : Closures L U p f f')
    {v v' : p.Value} (hv : U p v v') (cr : CR G) :
    TwoRuns L (cr.satisfy p f v) (cr.satisfy p f' v') := by
  cases cr with
  | «open» =>
    unfold CR.satisfy
    refine bind (note_answered (hf v v' hv).1) fun _ => bind (attempt (hf v v' hv).2) fun r => ?_
    cases r <;> exact pure _
  | satisfied g => exact pure _
  | gone => exact pure _

theorem runSat {U : ValueRel} {p : Property} {f f' : p.Value → M S G} (hf : Closures L U p f f')
    {prog prog' : CbProg} (hp : ProgsAlike U prog prog') (cr : CR G) :
    TwoRuns L (Rsasl.runSat p f prog cr) (Rsasl.runSat p f' prog' cr) := by
  induction hp generalizing cr with
  | ret r => exact pure _
  | satisfy q hv h ih =>
    unfold Rsasl.runSat
    split
    · next hq => subst hq; exact bind (satisfy hf hv cr) fun _ => ih _ _
    · exact ih _ _
  | satisfyWith q hv h ih =>
    unfold Rsasl.runSat
    split
    · next hq =>
      subst hq
      exact bind (note _) fun _ => bind (satisfy hf hv cr) fun _ => ih _ _
    · exact ih _ _
  | satisfyErr q e h ih =>
    unfold Rsasl.runSat
    split
    · exact bind (note _) fun _ => ih _ _
    · exact ih _ _
  | getAction q h ih => unfold Rsasl.runSat; exact ih _ _
  | is q h ih => unfold Rsasl.runSat; exact ih _ _

theorem runAct {U : ValueRel} {p : Property} {prog prog' : CbProg} (hp : ProgsAlike U prog prog')
    (cur : Option p.Value) :
    TwoRuns L (Rsasl.runAct p prog cur : M S _) (Rsasl.runAct p prog' cur) := by
  induction hp generalizing cur with
  | ret r => exact pure _
  | satisfy q hv h ih => unfold Rsasl.runAct; exact ih _ _
  | satisfyWith q hv h ih => unfold Rsasl.runAct; exact ih _ _
  | satisfyErr q e h ih => unfold Rsasl.runAct; exact ih _ _
  | getAction q h ih =>
    unfold Rsasl.runAct
    split
    · next hq =>
      subst hq
      cases cur with
      | none => exact ih none none
      | some v => exact bind (note _) fun _ => ih _ none
    · exact ih _ _
  | is q h ih => unfold Rsasl.runAct; exact ih _ _

theorem history {f f' : List Event → M S α}
    (h : ∀ l l', LogsAlike L l l' → TwoRuns L (f l) (f' l')) :
    TwoRuns L (M.history >>= f) (M.history >>= f') := by
  intro s w w' hw
  rw [M.bind_ok (M.history_apply ..), M.bind_ok (M.history_apply ..)]
  exact h _ _ hw.log s w w' hw

theorem maybeNeedWith (he : EnvsAlike L V env env') {p : Property} {ctx : Provider}
    {f f' : p.Value → M S G} (hf : Closures L (V ctx) p f f') :
    TwoRuns L (Rsasl.maybeNeedWith env p ctx f) (Rsasl.maybeNeedWith env' p ctx f') := by
  unfold Rsasl.maybeNeedWith
  refine history fun l l' hl => bind (note _) fun _ =>
    bind (runSat hf (he.callback l l' hl ctx) _) fun x => bind (lift _) fun _ => pure _

theorem needWith (he : EnvsAlike L V env env') {p : Property} {ctx : Provider}
    {f f' : p.Value → M S G} (hf : Closures L (V ctx) p f f') :
    TwoRuns L (Rsasl.needWith env p ctx f) (Rsasl.needWith env' p ctx f') :=
  bind (maybeNeedWith he hf) fun _ => okOr _ _

theorem action (he : EnvsAlike L V env env') {p : Property} {ctx : Provider} {v : p.Value} :
    TwoRuns L (Rsasl.action env p ctx v : M S Unit) (Rsasl.action env' p ctx v) := by
  unfold Rsasl.action
  refine history fun l l' hl => bind (note _) fun _ =>
    bind (runAct (he.callback l l' hl ctx) _) fun x => bind (lift _) fun _ => ?_
  cases x.2
  · exact pure _
  · exact fail _

theorem maybeNeedCbData (he : EnvsAlike L V env env') {name : Str} {prov : Provider}
    {f f' : Bytes → M S G}
    (hf : Closures L (V (Provider.and (.this ⟨.channelBindingName, name⟩) prov)) .channelBindings
      f f') (hff : ∀ v, TwoRuns L (f v) (f' v)) :
    TwoRuns L (Rsasl.maybeNeedCbData env name prov f) (Rsasl.maybeNeedCbData env' name prov f') := by
  unfold Rsasl.maybeNeedCbData
  rw [he.chanbind]
  dsimp only
  cases env'.chanbind name with
  | none => exact maybeNeedWith he hf
  | some b => exact bind (hff b) fun _ => pure _

theorem needCbData (he : EnvsAlike L V env env') {name : Str} {prov : Provider}
    {f f' : Bytes → M S G}
    (hf : Closures L (V (Provider.and (.this ⟨.channelBindingName, name⟩) prov)) .channelBindings
      f f') (hff : ∀ v, TwoRuns L (f v) (f' v)) :
    TwoRuns L (Rsasl.needCbData env name prov f) (Rsasl.needCbData env' name prov f') :=
  bind (maybeNeedCbData he hf hff) fun _ => okOr _ _

/-! ## Sessions -/

/-- Two sessions that only differ in the values that were used. -/
structure Sessions (L : ValueRel) (a b : Session S) : Prop where
  st : a.st = b.st
  slot : a.slot = b.slot
  rng : a.rng = b.rng
  log : LogsAlike L a.log b.log

theorem exec {m m' : M S α} (h : TwoRuns L m m') {a b : Session S} (hs : Sessions L a b)
    (sched : List WResp) :
    (a.exec m sched).1 = (b.exec m' sched).1 ∧ Sessions L (a.exec m sched).2 (b.exec m' sched).2 := by
  obtain ⟨h1, h2, h3⟩ := h a.st ⟨⟨[], sched⟩, a.rng, a.slot, a.log⟩ ⟨⟨[], sched⟩, b.rng, b.slot, b.log⟩
    ⟨rfl, hs.rng, hs.slot, hs.log⟩
  unfold Session.exec
  dsimp only
  rw [hs.st] at h1 h2 h3 ⊢
  exact ⟨by rw [h1, h3.wr], h2, h3.slot, h3.rng, h3.log⟩

end TwoRuns

end Rsasl

/-
Code that talks to the callback but does not write, draw or validate.
-/
import Verif.Proofs.Exec
import Verif.Spec.Supplies

namespace Rsasl

variable {S T α β G : Type} {L : Event → Prop}

/-- `m` only adds events in `L` to the log, and from a state in `P` it leads to an outcome and
state in `Q`. -/
def Silent (L : Event → Prop) (P : S → Prop) (m : M S α) (Q : Outcome α → S → Prop) : Prop :=
  ∀ s w, P s → Q (m s w).1 (m s w).2.1 ∧ ∃ es, (m s w).2.2 = w.addLog es ∧ ∀ e ∈ es, L e

theorem Silent.pure {P : S → Prop} {a : α} {Q : Outcome α → S → Prop} (h : ∀ s, P s → Q (.ok a) s) :
    Silent L P (Pure.pure a : M S α) Q := fun s w hs => ⟨h s hs, [], by simp, nofun⟩

theorem Silent.fail {P : S → Prop} {e : SessionError} {Q : Outcome α → S → Prop}
    (h : ∀ s, P s → Q (.err e) s) : Silent L P (M.fail e : M S α) Q :=
  fun s w hs => ⟨h s hs, [], by simp, nofun⟩

theorem Silent.panic {P : S → Prop} {Q : Outcome α → S → Prop}
    (h : ∀ s, P s → Q .panic s) : Silent L P (M.panic : M S α) Q :=
  fun s w hs => ⟨h s hs, [], by simp, nofun⟩

theorem Silent.get {P : S → Prop} {Q : Outcome S → S → Prop}
    (h : ∀ s, P s → Q (.ok s) s) : Silent L P (M.get : M S S) Q :=
  fun s w hs => ⟨h s hs, [], by simp, nofun⟩

theorem Silent.modify {P : S → Prop} {f : S → S} {Q : Outcome Unit → S → Prop}
    (h : ∀ s, P s → Q (.ok ()) (f s)) : Silent L P (M.modify f : M S Unit) Q :=
  fun s w hs => ⟨h s hs, [], by simp [M.modify_apply], nofun⟩

theorem Silent.okOr {P : S → Prop} {e : SessionError} {o : Option α} {Q : Outcome α → S → Prop}
    (h1 : ∀ a s, o = some a → P s → Q (.ok a) s) (h2 : ∀ s, P s → Q (.err e) s) :
    Silent L P (M.okOr e o : M S α) Q := by
  cases o with
  | none => exact Silent.fail h2
  | some a => exact Silent.pure (fun s => h1 a s rfl)

/-- Sequencing; failures of the first part are failures of the whole. -/
theorem Silent.bind {P : S → Prop} {m : M S α} {f : α → M S β} {R : Outcome α → S → Prop}
    {Q : Outcome β → S → Prop} (h1 : Silent L P m R)
    (h2 : ∀ a, Silent L (R (.ok a)) (f a) Q) (he : ∀ e s, R (.err e) s → Q (.err e) s)
    (hp : ∀ s, R .panic s → Q .panic s) : Silent L P (m >>= f) Q := by
  intro s w hs
  obtain ⟨hR, es, hw, hL⟩ := h1 s w hs
  rcases hm : m s w with ⟨o, s', w'⟩
  rw [hm] at hR hw
  simp only at hR hw
  subst hw
  cases o with
  | ok a =>
    rw [M.bind_ok hm]
    obtain ⟨hQ, es', hw', hL'⟩ := h2 a s' (w.addLog es) hR
    refine ⟨hQ, es ++ es', by rw [hw']; simp, ?_⟩
    intro e he'
    rcases List.mem_append.1 he' with h | h
    · exact hL e h
    · exact hL' e h
  | err e => rw [M.bind_err hm]; exact ⟨he e s' hR, es, rfl, hL⟩
  | panic => rw [M.bind_panic hm]; exact ⟨hp s' hR, es, rfl, hL⟩

theorem Silent.mono {P P' : S → Prop} {m : M S α} {Q Q' : Outcome α → S → Prop} {L' : Event → Prop}
    (h : Silent L P m Q) (hP : ∀ s, P' s → P s) (hQ : ∀ o s, Q o s → Q' o s)
    (hL : ∀ e, L e → L' e) : Silent L' P' m Q' := by
  intro s w hs
  obtain ⟨h1, es, h2, h3⟩ := h s w (hP s hs)
  exact ⟨hQ _ _ h1, es, h2, fun e he => hL e (h3 e he)⟩

/-- What the log may get from a request for `p` in context `ctx`. -/
def Requests (L : Event → Prop) (p : Property) (ctx : Provider) : Prop :=
  L (.asked p ctx) ∧ (∀ v, L (.answered p v)) ∧ ∀ q, L (.evaluated q)

theorem Silent.maybeNeedWith {P : S → Prop} {env : Env} {p : Property} {ctx : Provider}
    {f : p.Value → M S G} {R : Outcome G → S → Prop} {Q : Outcome (Option G) → S → Prop}
    (hL : Requests L p ctx) (hf : ∀ v, Silent L P (f v) R)
    (h0 : ∀ s, P s → Q (.ok none) s ∧ ∀ e, Q (.err e) s)
    (h1 : ∀ g s, R (.ok g) s → Q (.ok (some g)) s ∧ Q (.ok none) s ∧ ∀ e, Q (.err e) s)
    (h2 : ∀ e s, R (.err e) s → Q (.ok none) s ∧ ∀ e, Q (.err e) s)
    (h3 : ∀ s, R .panic s → Q .panic s) :
    Silent L P (Rsasl.maybeNeedWith env p ctx f) Q := by
  obtain ⟨hL1, hL2, hL3⟩ := hL
  have hquiet : ∀ es : List Event, Quiet es → ∀ e ∈ es, L e := by
    intro es hq e he
    obtain ⟨q, rfl⟩ := hq e he
    exact hL3 q
  intro s w hs
  have hr := maybeNeedWith_run env p ctx f s w
  have key : ∀ v es es' o s' w', Quiet es → Quiet es' →
      f v s (w.addLog (.asked p ctx :: es ++ [.answered p v])) = (o, s', w') →
      R o s' ∧ ∃ es'', w'.addLog es' = w.addLog es'' ∧ ∀ e ∈ es'', L e := by
    intro v es es' o s' w' hq hq' h
    obtain ⟨hR, es2, hw, hL'⟩ := hf v s (w.addLog (.asked p ctx :: es ++ [.answered p v])) hs
    rw [h] at hR hw
    simp only at hR hw
    subst hw
    refine ⟨hR, (.asked p ctx :: es ++ [.answered p v]) ++ es2 ++ es', by simp, ?_⟩
    intro e he
    simp only [List.cons_append, List.mem_cons, List.mem_append, List.append_assoc,
      List.not_mem_nil, or_false, false_or, List.nil_append] at he
    rcases he with rfl | he | rfl | he | he
    · exact hL1
    · exact hquiet es hq e he
    · exact hL2 v
    · exact hL' e he
    · exact hquiet es' hq' e he
  generalize Rsasl.maybeNeedWith env p ctx f s w = x at hr
  cases hr with
  | none o es hq ho =>
    refine ⟨?_, .asked p ctx :: es, rfl, ?_⟩
    · rcases ho with rfl | ⟨e, rfl⟩
      · exact (h0 s hs).1
      · exact (h0 s hs).2 e
    · intro e he
      rcases List.mem_cons.1 he with rfl | he
      · exact hL1
      · exact hquiet es hq e he
  | ok v es es' g s' w' o hq hq' hf' ho =>
    obtain ⟨hR, h⟩ := key v es es' _ s' w' hq hq' hf'
    refine ⟨?_, h⟩
    rcases ho with rfl | rfl | ⟨e, rfl⟩
    · exact (h1 g s' hR).1
    · exact (h1 g s' hR).2.1
    · exact (h1 g s' hR).2.2 e
  | err v es es' e s' w' o hq hq' hf' ho =>
    obtain ⟨hR, h⟩ := key v es es' _ s' w' hq hq' hf'
    refine ⟨?_, h⟩
    rcases ho with rfl | ⟨e', rfl⟩
    · exact (h2 e s' hR).1
    · exact (h2 e s' hR).2 e'
  | panic v es s' w' hq hf' =>
    obtain ⟨hR, es'', h, h'⟩ := key v es [] _ s' w' hq Quiet.nil hf'
    exact ⟨h3 s' hR, es'', by simpa using h, h'⟩

/-- Code that keeps `P` in every outcome. -/
abbrev Keeps (L : Event → Prop) (P : S → Prop) (m : M S α) : Prop := Silent L P m (fun _ => P)

theorem Keeps.bind {P : S → Prop} {m : M S α} {f : α → M S β} (h1 : Keeps L P m)
    (h2 : ∀ a, Keeps L P (f a)) : Keeps L P (m >>= f) :=
  Silent.bind h1 h2 (fun _ _ h => h) (fun _ h => h)

theorem Keeps.maybeNeedWith {P : S → Prop} {env : Env} {p : Property} {ctx : Provider}
    {f : p.Value → M S G} (hL : Requests L p ctx) (hf : ∀ v, Keeps L P (f v)) :
    Keeps L P (Rsasl.maybeNeedWith env p ctx f) :=
  Silent.maybeNeedWith (R := fun _ => P) hL hf (fun _ h => ⟨h, fun _ => h⟩)
    (fun _ _ h => ⟨h, h, fun _ => h⟩) (fun _ _ h => ⟨h, fun _ => h⟩) (fun _ h => h)

theorem Keeps.pure {P : S → Prop} (a : α) : Keeps L P (Pure.pure a : M S α) :=
  Silent.pure (fun _ h => h)

theorem Keeps.fail {P : S → Prop} (e : SessionError) : Keeps L P (M.fail e : M S α) :=
  Silent.fail (fun _ h => h)

theorem Keeps.panic {P : S → Prop} : Keeps L P (M.panic : M S α) :=
  Silent.panic (fun _ h => h)

theorem Keeps.get {P : S → Prop} : Keeps L P (M.get : M S S) := Silent.get (fun _ h => h)

theorem Keeps.modify {P : S → Prop} {f : S → S} (h : ∀ s, P s → P (f s)) :
    Keeps L P (M.modify f) := Silent.modify h

theorem Keeps.okOr {P : S → Prop} (e : SessionError) (o : Option α) :
    Keeps L P (M.okOr e o : M S α) := Silent.okOr (fun _ _ _ h => h) (fun _ h => h)

theorem Keeps.needWith {P : S → Prop} {env : Env} {p : Property} {ctx : Provider}
    {f : p.Value → M S G} (hL : Requests L p ctx) (hf : ∀ v, Keeps L P (f v)) :
    Keeps L P (Rsasl.needWith env p ctx f) :=
  Keeps.bind (Keeps.maybeNeedWith hL hf) (fun _ => Keeps.okOr _ _)

theorem Keeps.maybeNeedCbData {P : S → Prop} {env : Env} {name : Str} {prov : Provider}
    {f : Bytes → M S G}
    (hL : Requests L .channelBindings (Provider.and (.this ⟨.channelBindingName, name⟩) prov))
    (hf : ∀ v, Keeps L P (f v)) : Keeps L P (Rsasl.maybeNeedCbData env name prov f) := by
  unfold Rsasl.maybeNeedCbData
  cases env.chanbind name with
  | none => exact Keeps.maybeNeedWith hL hf
  | some cb => exact Keeps.bind (hf cb) (fun _ => Keeps.pure _)

theorem Keeps.needCbData {P : S → Prop} {env : Env} {name : Str} {prov : Provider}
    {f : Bytes → M S G}
    (hL : Requests L .channelBindings (Provider.and (.this ⟨.channelBindingName, name⟩) prov))
    (hf : ∀ v, Keeps L P (f v)) : Keeps L P (Rsasl.needCbData env name prov f) :=
  Keeps.bind (Keeps.maybeNeedCbData hL hf) (fun _ => Keeps.okOr _ _)

/-- What `Keeps` says about a good end. -/
theorem Keeps.ok {P : S → Prop} {m : M S α} (h : Keeps L P m) {s s' : S} {w w' : World} {a : α}
    (hs : P s) (hm : m s w = (.ok a, s', w')) :
    P s' ∧ ∃ es, w' = w.addLog es ∧ ∀ e ∈ es, L e := by
  obtain ⟨h1, es, h2, h3⟩ := h s w hs
  rw [hm] at h1 h2
  exact ⟨h1, es, h2, h3⟩

/-- A request that gives something consumed exactly one answer. -/
theorem maybeNeedWith_some {env : Env} {p : Property} {ctx : Provider} {f : p.Value → M S G}
    {s s' : S} {w w' : World} {g : G}
    (h : maybeNeedWith env p ctx f s w = (.ok (some g), s', w')) :
    ∃ v es es' w₁, Quiet es ∧ Quiet es' ∧
      f v s (w.addLog (.asked p ctx :: es ++ [.answered p v])) = (.ok g, s', w₁) ∧
      w' = w₁.addLog es' := by
  refine needWith_ok (env := env) ?_
  unfold needWith
  rw [M.bind_ok h]
  rfl

/-! ## What the callback may supply -/

theorem runSat_congr {p : Property} {V : p.Value → Prop} {f g : p.Value → M S G} {prog : CbProg}
    (hp : prog.Supplies p V) (h : ∀ v, V v → f v = g v) (cr : CR G) :
    runSat p f prog cr = runSat p g prog cr := by
  have hs : ∀ v, V v → ∀ cr : CR G, cr.satisfy p f v = cr.satisfy p g v := by
    intro v hv cr
    cases cr <;> simp [CR.satisfy, h v hv]
  induction prog generalizing cr with
  | ret r => rfl
  | satisfy q v k ih =>
    unfold runSat
    split
    · next hq =>
      subst hq
      simp only [hs v (hp.1 rfl)]
      congr 1
      funext x
      exact ih _ (hp.2 _) _
    · exact ih _ (hp.2 _) _
  | satisfyWith q v k ih =>
    unfold runSat
    split
    · next hq =>
      subst hq
      congr 1
      funext _
      cases v with
      | error e => exact ih _ (hp.2 _) _
      | ok v =>
        simp only [hs v (hp.1 rfl v rfl)]
        congr 1
        funext x
        exact ih _ (hp.2 _) _
    · exact ih _ (hp.2 _) _
  | getAction q k ih => unfold runSat; exact ih _ (hp _) _
  | is q k ih => unfold runSat; exact ih _ (hp _) _

/-- Only values the callback may supply matter. -/
theorem maybeNeedWith_congr {env : Env} {p : Property} {V : p.Value → Prop}
    {offer : (p : Property) → Option p.Value} (hp : env.SuppliesAt offer p V) {ctx : Provider}
    (hctx : ctx.Exactly offer) {f g : p.Value → M S G} (h : ∀ v, V v → f v = g v) :
    maybeNeedWith env p ctx f = maybeNeedWith env p ctx g := by
  unfold maybeNeedWith
  congr 1
  funext l
  rw [runSat_congr (hp l ctx hctx) h]

theorem CbProg.supplies_forall {p : Property} {prog : CbProg} {C : (p.Value → Prop) → Prop}
    (h : ∀ V, C V → prog.Supplies p V) : prog.Supplies p (fun v => ∀ V, C V → V v) := by
  induction prog with
  | ret r => trivial
  | satisfy q v k ih =>
    exact ⟨fun e V hV => (h V hV).1 e, fun r => ih r (fun V hV => (h V hV).2 r)⟩
  | satisfyWith q v k ih =>
    exact ⟨fun e v hv V hV => (h V hV).1 e v hv, fun r => ih r (fun V hV => (h V hV).2 r)⟩
  | getAction q k ih => exact fun v => ih v (fun V hV => h V hV v)
  | is q k ih => exact fun v => ih v (fun V hV => h V hV v)

/-- A request that gives something consumed a value the callback may supply. -/
theorem maybeNeedWith_some' {env : Env} {p : Property} {ctx : Provider} {f : p.Value → M S G}
    {s s' : S} {w w' : World} {g : G} {offer : (p : Property) → Option p.Value}
    (hctx : ctx.Exactly offer) (h : maybeNeedWith env p ctx f s w = (.ok (some g), s', w')) :
    ¬ env.LacksAt offer p ∧ ∃ v es es' w₁, Quiet es ∧ Quiet es' ∧
      f v s (w.addLog (.asked p ctx :: es ++ [.answered p v])) = (.ok g, s', w₁) ∧
      w' = w₁.addLog es' ∧ ∀ V, env.SuppliesAt offer p V → V v := by
  classical
  constructor
  · intro hl
    rw [maybeNeedWith_declines (hl w.log ctx hctx) f s] at h
    cases h
  · have hV : env.SuppliesAt offer p (fun v => ∀ V, env.SuppliesAt offer p V → V v) :=
      fun l c hc => CbProg.supplies_forall (C := fun V => env.SuppliesAt offer p V)
        (fun V hV => hV l c hc)
    rw [maybeNeedWith_congr hV hctx (g := fun v => if ∀ V, env.SuppliesAt offer p V → V v then f v
      else M.fail .noSecurityLayer) (fun v hv => (if_pos hv).symm)] at h
    obtain ⟨v, es, es', w₁, h1, h2, h3, h4⟩ := maybeNeedWith_some h
    split at h3
    · next hv => exact ⟨v, es, es', w₁, h1, h2, h3, h4, hv⟩
    · cases h3

/-! ## Actions -/

theorem runAct_log (p : Property) (prog : CbProg) (cur : Option p.Value) (s : S) (w : World) :
    ∃ r cur' es, runAct p prog cur s w = (.ok (r, cur'), s, w.addLog es) ∧
      (es = [] ∨ ∃ v, cur = some v ∧ es = [.delivered p v]) := by
  induction prog generalizing cur w with
  | ret r => exact ⟨r, cur, [], by simp [runAct], .inl rfl⟩
  | satisfy q v k ih => unfold runAct; exact ih _ cur w
  | satisfyWith q v k ih => unfold runAct; exact ih _ cur w
  | is q k ih => unfold runAct; exact ih _ cur w
  | getAction q k ih =>
    unfold runAct
    split
    · next hq =>
      subst hq
      cases cur with
      | none =>
        obtain ⟨r, cur', es, h1, h2⟩ := ih none none w
        refine ⟨r, cur', es, h1, .inl ?_⟩
        rcases h2 with h2 | ⟨v, h2, -⟩
        · exact h2
        · cases h2
      | some v =>
        obtain ⟨r, cur', es, h1, h2⟩ := ih (some v) none (w.addLog [.delivered q v])
        have hes : es = [] := by
          rcases h2 with h2 | ⟨v, h2, -⟩
          · exact h2
          · cases h2
        subst hes
        exact ⟨r, cur', [.delivered q v], by rw [World.addLog_nil] at h1; exact h1, .inr ⟨v, rfl, rfl⟩⟩
    · exact ih _ cur w

/-- An action notifies the callback and hands the value out at most once. -/
theorem action_log (env : Env) (p : Property) (ctx : Provider) (v : p.Value) (s : S) (w : World) :
    ∃ o es, action env p ctx v s w = (o, s, w.addLog (.notified p ctx :: es)) ∧ o ≠ .panic ∧
      (es = [] ∨ es = [.delivered p v]) := by
  obtain ⟨r, cur', es, h1, h2⟩ := runAct_log p (env.callback w.log env.sd ctx) (some v) s
    (w.addLog [.notified p ctx])
  have h2 : es = [] ∨ es = [.delivered p v] := by
    rcases h2 with h2 | ⟨v', h2, h3⟩
    · exact .inl h2
    · cases h2; exact .inr h3
  unfold action
  rw [M.bind_ok (M.history_apply ..), M.bind_ok (M.note_apply ..), M.bind_ok h1]
  simp only
  cases filterEarly r with
  | error e =>
    rw [M.bind_err (M.lift_error ..)]
    exact ⟨.err e, es, by simp, nofun, h2⟩
  | ok u =>
    rw [M.bind_ok (M.lift_ok ..)]
    cases cur' with
    | none => exact ⟨.ok (), es, by simp, nofun, h2⟩
    | some v => exact ⟨.err (.callbackError (.noCallback p)), es, by simp, nofun, h2⟩

/-! ## Code that writes -/

/-- Preserves `P` and adds only events in `L` to the log, whatever else it does. -/
def Logs (L : Event → Prop) (P : S → Prop) (m : M S α) : Prop :=
  ∀ s w, P s → P (m s w).2.1 ∧ ∃ es, (m s w).2.2.log = w.log ++ es ∧ ∀ e ∈ es, L e

theorem Keeps.logs {P : S → Prop} {m : M S α} (h : Keeps L P m) : Logs L P m := by
  intro s w hs
  obtain ⟨h1, es, h2, h3⟩ := h s w hs
  exact ⟨h1, es, by rw [h2]; rfl, h3⟩

theorem Logs.bind {P : S → Prop} {m : M S α} {f : α → M S β} (h1 : Logs L P m)
    (h2 : ∀ a, Logs L P (f a)) : Logs L P (m >>= f) := by
  intro s w hs
  obtain ⟨p1, es, e1, l1⟩ := h1 s w hs
  rcases hm : m s w with ⟨o, s1, w1⟩
  rw [hm] at p1 e1
  cases o with
  | ok a =>
    rw [M.bind_ok hm]
    obtain ⟨p2, es', e2, l2⟩ := h2 a s1 w1 p1
    refine ⟨p2, es ++ es', by rw [e2, e1, List.append_assoc], fun e he => ?_⟩
    rcases List.mem_append.1 he with he | he
    · exact l1 e he
    · exact l2 e he
  | err e => rw [M.bind_err hm]; exact ⟨p1, es, e1, l1⟩
  | panic => rw [M.bind_panic hm]; exact ⟨p1, es, e1, l1⟩

theorem Logs.writeVectored {P : S → Prop} (bufs : List Bytes) :
    Logs L P (M.writeVectored bufs : M S Unit) := by
  intro s w hs
  obtain ⟨n, sched, -, -, h | ⟨e, h⟩⟩ := M.writeVectored_cases bufs s w
  · rw [h]; exact ⟨hs, [], by simp, nofun⟩
  · rw [h]; exact ⟨hs, [], by simp, nofun⟩

theorem Logs.draw {P : S → Prop} (n : Nat) : Logs L P (M.draw n : M S (List Nat)) :=
  fun s w hs => ⟨hs, [], by simp [M.draw], nofun⟩

theorem Logs.withLocal {T : Type} {P : S → Prop} {t : T} {m : M (S × T) α}
    (h : Logs L (fun x => P x.1) m) : Logs L P (M.withLocal t m) := by
  intro s w hs
  obtain ⟨h1, es, h2, h3⟩ := h (s, t) w hs
  exact ⟨h1, es, h2, h3⟩

end Rsasl

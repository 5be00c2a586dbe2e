/-
How the SCRAM client asks for the keys.
-/
import Verif.Proofs.TwoRuns
import Verif.Proofs.ScramExchange
import Verif.Spec.ScramKeys

namespace Rsasl

open Spec

variable {S G : Type}

/-! ## Requests whose closure only looks at the value -/

/-- A request whose closure changes nothing, in every case. -/
theorem maybeNeedWith_still {env : Env} {p : Property} {ctx : Provider} {f : p.Value → M S G}
    (hf : ∀ v s w, (f v s w).2 = (s, w)) (s : S) (w : World) :
    ∃ o es, maybeNeedWith env p ctx f s w = (o, s, w.addLog (.asked p ctx :: es)) ∧
      (∀ q c, .asked q c ∉ es) ∧
      (∀ v, Answers p v (env.callback w.log env.sd ctx) → (∀ e, (f v s w).1 ≠ .err e) →
        (∀ w', (f v s w').1 = (f v s w).1) → o ≠ .ok none) := by
  have hans : ∀ o s' w', maybeNeedWith env p ctx f s w = (o, s', w') →
      ∀ v, Answers p v (env.callback w.log env.sd ctx) → (∀ e, (f v s w).1 ≠ .err e) →
        (∀ w', (f v s w').1 = (f v s w).1) → o ≠ .ok none := by
    intro o s' w' ho v hv he hi
    obtain ⟨es, -, h⟩ := maybeNeedWith_answers hv f s
    rw [ho] at h
    have hi := hi (w.addLog (.asked p ctx :: es ++ [.answered p v]))
    rcases hx : f v s (w.addLog (.asked p ctx :: es ++ [.answered p v])) with ⟨g | e | _, s1, w1⟩
    · rw [hx] at h; cases h; exact nofun
    · rw [hx] at hi; exact absurd hi.symm (he e)
    · rw [hx] at h; cases h; exact nofun
  have hq : ∀ es : List Event, Quiet es → ∀ q c, .asked q c ∉ es := by
    intro es h q c hm
    obtain ⟨x, hx⟩ := h _ hm
    cases hx
  have hr := maybeNeedWith_run env p ctx f s w
  generalize hx : maybeNeedWith env p ctx f s w = x at hr
  cases hr with
  | none o es hes ho => exact ⟨o, es, rfl, hq es hes, hans _ _ _ hx⟩
  | ok v es es' g s' w' o h1 h2 h3 ho =>
    have := hf v s (w.addLog (.asked p ctx :: es ++ [.answered p v]))
    rw [h3] at this
    cases this
    refine ⟨o, es ++ [.answered p v] ++ es', by simp, ?_, hans _ _ _ hx⟩
    intro q c hm
    simp only [List.mem_append, List.mem_singleton, reduceCtorEq, or_false] at hm
    exact hm.elim (hq es h1 q c) (hq es' h2 q c)
  | err v es es' e s' w' o h1 h2 h3 ho =>
    have := hf v s (w.addLog (.asked p ctx :: es ++ [.answered p v]))
    rw [h3] at this
    cases this
    refine ⟨o, es ++ [.answered p v] ++ es', by simp, ?_, hans _ _ _ hx⟩
    intro q c hm
    simp only [List.mem_append, List.mem_singleton, reduceCtorEq, or_false] at hm
    exact hm.elim (hq es h1 q c) (hq es' h2 q c)
  | panic v es s' w' h1 h3 =>
    have := hf v s (w.addLog (.asked p ctx :: es ++ [.answered p v]))
    rw [h3] at this
    cases this
    refine ⟨.panic, es ++ [.answered p v], by simp, ?_, hans _ _ _ hx⟩
    intro q c hm
    simp only [List.mem_append, List.mem_singleton, reduceCtorEq, or_false] at hm
    exact hq es h1 q c hm

namespace Scram

theorem useCached_still (d : Digest) (v : CachedPassword) (s : CS) (w : World) :
    (useCached d v s w).2 = (s, w) := by
  unfold useCached; split <;> rfl

theorem useSalted_still (d : Digest) (v : Bytes) (s : CS) (w : World) :
    (useSalted d v s w).2 = (s, w) := by
  unfold useSalted; split <;> rfl

theorem useCached_same (d : Digest) (v : CachedPassword) (s : CS) (w w' : World) :
    (useCached d v s w').1 = (useCached d v s w).1 := by
  unfold useCached; split <;> rfl

theorem useSalted_same (d : Digest) (v : Bytes) (s : CS) (w w' : World) :
    (useSalted d v s w').1 = (useSalted d v s w).1 := by
  unfold useSalted; split <;> rfl

theorem useCached_noErr (d : Digest) (v : CachedPassword) (s : CS) (w : World) (e : SessionError) :
    (useCached d v s w).1 ≠ .err e := by
  unfold useCached; split <;> exact nofun

theorem useSalted_noErr (d : Digest) (v : Bytes) (hv : v ≠ []) (s : CS) (w : World)
    (e : SessionError) : (useSalted d v s w).1 ≠ .err e := by
  unfold useSalted; rw [if_neg (by simpa using hv)]; exact nofun

/-- What happens with the callback when the client looks for its keys, in every case. -/
theorem clientKeys_asks (d : Digest) (env : Env) (salt : Bytes) (it : UInt32) (s : CS) (w : World) :
    ∃ o es, clientKeys d env (clientProvider salt it) it salt s w = (o, s, w.addLog es) ∧
      KeyAsks env w.log (clientProvider salt it) es := by
  have h3 : ∀ v s w, (usePassword d it salt v s w).2 = (s, w) := fun _ _ _ => rfl
  obtain ⟨o1, es1, e1, n1, a1⟩ := maybeNeedWith_still (env := env) (p := .scramCachedPassword)
    (ctx := clientProvider salt it) (useCached_still d) s w
  unfold clientKeys
  rw [M.bind_apply, e1]
  cases o1 with
  | err e => exact ⟨_, _, rfl, .cached n1⟩
  | panic => exact ⟨_, _, rfl, .cached n1⟩
  | ok r =>
    cases r with
    | some keys => exact ⟨_, _, rfl, .cached n1⟩
    | none =>
      dsimp only
      have g1 : ∀ v, ¬ Answers .scramCachedPassword v (env.callback w.log env.sd
          (clientProvider salt it)) :=
        fun v hv => a1 v hv (useCached_noErr d v s w) (useCached_same d v s w) rfl
      obtain ⟨o2, es2, e2, n2, a2⟩ := maybeNeedWith_still (env := env) (p := .saltedPassword)
        (ctx := clientProvider salt it) (useSalted_still d) s
        (w.addLog (.asked .scramCachedPassword (clientProvider salt it) :: es1))
      rw [M.bind_apply, e2]
      have hlog : ∀ a b : List Event, (w.addLog a).addLog b = w.addLog (a ++ b) := by simp
      rw [hlog]
      cases o2 with
      | err e => exact ⟨_, _, rfl, .salted n1 g1 n2⟩
      | panic => exact ⟨_, _, rfl, .salted n1 g1 n2⟩
      | ok r =>
        cases r with
        | some keys => exact ⟨_, _, rfl, .salted n1 g1 n2⟩
        | none =>
          dsimp only
          have g2 : ∀ v, v ≠ [] → ¬ Answers .saltedPassword v (env.callback (w.log ++
              (.asked .scramCachedPassword (clientProvider salt it) :: es1)) env.sd
              (clientProvider salt it)) :=
            fun v hv0 hv => a2 v hv (useSalted_noErr d v hv0 s _) (useSalted_same d v s _) rfl
          obtain ⟨o3, es3, e3, n3, -⟩ := maybeNeedWith_still (env := env) (p := .password)
            (ctx := clientProvider salt it) h3 s
            (w.addLog ((.asked .scramCachedPassword (clientProvider salt it) :: es1) ++
              (.asked .saltedPassword (clientProvider salt it) :: es2)))
          unfold needWith
          rw [M.bind_apply, e3, hlog]
          cases o3 with
          | err e => exact ⟨_, _, rfl, .password n1 g1 n2 g2 n3⟩
          | panic => exact ⟨_, _, rfl, .password n1 g1 n2 g2 n3⟩
          | ok x => cases x <;> exact ⟨_, _, rfl, .password n1 g1 n2 g2 n3⟩

/-- Keys are found without a trace in the writer, whoever has them. -/
theorem clientKeys_finds {d : Digest} {env : Env} {salt : Bytes} {it : UInt32} {ck sk : Bytes}
    (h : Spec.ClientKeys d env salt it ck sk) (s : CS) (w : World) :
    ∃ es, clientKeys d env (clientProvider salt it) it salt s w = (.ok (ck, sk), s, w.addLog es) := by
  obtain ⟨o, es, e, -⟩ := clientKeys_asks d env salt it s w
  obtain ⟨es', sched, -, -, hd⟩ := does_clientKeys (C := fun _ => True) (fun _ _ h _ => h) h s w trivial
  rw [e] at hd
  refine ⟨es, ?_⟩
  rw [e]
  have := congrArg Prod.fst hd
  dsimp only at this
  rw [this]

end Scram

end Rsasl

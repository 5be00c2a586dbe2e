/-
From single steps to whole sessions.
-/
import Verif.Proofs.Tame
import Verif.Proofs.TameScram
import Verif.Proofs.TameGss
import Verif.Proofs.NoPanic
import Verif.Spec.Session

namespace Rsasl

variable {m : Mech} {rank count : m.S → Nat} {fin : Nat → Prop} {needs : m.S → Prop} {pan : Prop}

theorem run_cons (m : Mech) (env : Env) (ses : Session m.S) (c : Call) (cs : List Call) :
    ses.run m env (c :: cs) = ((ses.step m env c).1 :: ((ses.step m env c).2.run m env cs).1,
      ((ses.step m env c).2.run m env cs).2) := rfl

/-- A session step from the mechanism's. -/
theorem step_of {m : Mech} {env : Env} {ses : Session m.S} {c : Call} {o : Outcome State} {s' : m.S}
    {w' : World}
    (h : m.step env c.input ses.st ⟨⟨[], c.sched⟩, ses.rng, ses.slot, ses.log⟩ = (o, s', w')) :
    ses.step m env c = (⟨o, w'.wr.out⟩, ⟨s', w'.slot, w'.rng, w'.log⟩) := by
  unfold Session.step Session.exec
  rw [h]

theorem Tame.step (h : Tame m rank count fin needs pan) {E : SessionError → Prop} (hE : Std E)
    {env : Env} (henv : env.Errs E) (ses : Session m.S) (c : Call) :
    TameQ E rank count fin needs pan c.input ses.st (validations ses.log)
      (ses.step m env c).1.res (ses.step m env c).2.st (validations (ses.step m env c).2.log) :=
  (h E hE env henv c.input ses.st (validations ses.log)).exec c.sched

theorem std_true : Std (fun _ => True) := fun _ _ => trivial
theorem std_ne : Std (fun e => e ≠ .inputDataRequired) := fun _ h => h

theorem Spec.AllRunning.of_cons {r : Reply State} {rs : List (Reply State)}
    (h : Spec.AllRunning (r :: rs)) : r.res = .ok .running ∧ Spec.AllRunning rs :=
  ⟨h r (by simp), fun x hx => h x (by simp [hx])⟩

theorem Spec.Completed.of_cons {r : Reply State} {rs : List (Reply State)}
    (h : Spec.Completed (r :: rs)) :
    (rs = [] ∧ ∃ k, r.res = .ok (.finished k)) ∨ (r.res = .ok .running ∧ Spec.Completed rs) := by
  obtain ⟨rs', x, k, h1, h2, h3⟩ := h
  cases rs' with
  | nil => cases h1; exact .inl ⟨rfl, k, h3⟩
  | cons y ys =>
    cases h1
    exact .inr ⟨h2 _ (by simp), ys, x, k, rfl, fun z hz => h2 z (by simp [hz]), h3⟩

theorem Spec.not_completed_nil : ¬ Spec.Completed [] := by
  rintro ⟨rs', x, k, h1, _⟩
  simp at h1

theorem Tame.run_running (h : Tame m rank count fin needs pan) (env : Env) (calls : List Call)
    (ses : Session m.S) (hr : Spec.AllRunning (ses.run m env calls).1) :
    (validations (ses.run m env calls).2.log).length + count ses.st =
      (validations ses.log).length + count (ses.run m env calls).2.st := by
  induction calls generalizing ses with
  | nil => rfl
  | cons c cs ih =>
    rw [run_cons] at hr ⊢
    obtain ⟨h1, h2⟩ := hr.of_cons
    have := ih _ h2
    have := ((h.step std_true env.errs_true ses c).running h1).2
    simp only at *
    omega

theorem Tame.run_completed (h : Tame m rank count fin needs pan) (env : Env) (calls : List Call)
    (ses : Session m.S) (hr : Spec.Completed (ses.run m env calls).1) :
    ∃ n, fin n ∧ (validations (ses.run m env calls).2.log).length + count ses.st =
      (validations ses.log).length + n := by
  induction calls generalizing ses with
  | nil => exact absurd hr Spec.not_completed_nil
  | cons c cs ih =>
    rw [run_cons] at hr ⊢
    have hs := h.step std_true env.errs_true ses c
    rcases hr.of_cons with ⟨h1, k, h2⟩ | ⟨h1, h2⟩
    · cases cs with
      | nil => exact hs.finished k h2
      | cons c' cs' => rw [run_cons] at h1; cases h1
    · obtain ⟨n, hn, he⟩ := ih _ h2
      have := (hs.running h1).2
      refine ⟨n, hn, ?_⟩
      simp only at *
      omega

theorem Tame.run_rank (h : Tame m rank count fin needs pan) (env : Env) (calls : List Call)
    (ses : Session m.S) :
    Spec.runningCount (ses.run m env calls).1 + rank (ses.run m env calls).2.st ≤ rank ses.st := by
  induction calls generalizing ses with
  | nil => simp [Session.run, Spec.runningCount]
  | cons c cs ih =>
    rw [run_cons]
    have hs := h.step std_true env.errs_true ses c
    have := ih (ses.step m env c).2
    have h1 := hs.rank_le
    have h2 := hs.running
    unfold Spec.runningCount
    generalize (ses.step m env c).1.res = o at h2
    match o with
    | .ok .running =>
      have := (h2 rfl).1
      simp only
      omega
    | .ok (.finished _) => simp only; omega
    | .err _ => simp only; omega
    | .panic => simp only; omega

theorem Tame.run_no_panic (h : Tame m rank count fin needs False) (env : Env) (calls : List Call)
    (ses : Session m.S) : ∀ r ∈ (ses.run m env calls).1, r.res ≠ .panic := by
  induction calls generalizing ses with
  | nil => intro r hr; cases hr
  | cons c cs ih =>
    intro r hr
    rw [run_cons] at hr
    rcases List.mem_cons.1 hr with rfl | hr
    · exact fun hp => (h.step std_true env.errs_true ses c).panic hp
    · exact ih _ r hr

/-- Without input, in a state that needs it, the mechanism refuses and nothing else happens. -/
def Refuses (m : Mech) (needs : m.S → Prop) : Prop :=
  ∀ env s w, needs s → m.step env none s w = (.err .inputDataRequired, s, w)

theorem Refuses.session (h : Refuses m needs) (env : Env) (ses : Session m.S) (sched : List WResp)
    (hn : needs ses.st) :
    ses.step m env ⟨none, sched⟩ = (⟨.err .inputDataRequired, []⟩, ses) := by
  unfold Session.step Session.exec
  rw [h _ _ _ hn]

end Rsasl

namespace Rsasl.Scram

/-! ## SCRAM states along a run -/

theorem client_next (d : Digest) (env : Env) (input : Option Bytes) (s : CS) (vs : List Provider) :
    Post (clientStep d nonceLen env input) s vs
      (fun o s' _ => o = .ok .running → s' ≠ none) := by
  refine Post.skip (fun st _ _ => Post.skip (fun _ _ _ => ?_) (fun _ _ _ => nofun) (fun _ _ => nofun))
    (fun _ _ _ => nofun) (fun _ _ => nofun)
  cases st with
  | none => exact Post.panic nofun
  | some st =>
    cases st with
    | initial plus =>
      exact Post.skip (fun _ _ _ => Post.bind (Post.set (Seq.ok (Post.pure (fun _ => nofun)))))
        (fun _ _ _ => nofun) (fun _ _ => nofun)
    | clientFirst cb nonce u =>
      exact Post.skip (fun _ _ _ => Post.skip (fun _ _ _ => Post.bind (Post.set
        (Seq.ok (Post.pure (fun _ => nofun))))) (fun _ _ _ => nofun) (fun _ _ => nofun))
        (fun _ _ _ => nofun) (fun _ _ => nofun)
    | serverFirst v ck sk salt i =>
      exact Post.skip (fun _ _ _ => Post.skip (fun _ _ _ => Post.pure nofun)
        (fun _ _ _ => nofun) (fun _ _ => nofun)) (fun _ _ _ => nofun) (fun _ _ => nofun)

theorem server_next (d : Digest) (env : Env) (input : Option Bytes) (s : SS) (vs : List Provider) :
    Post (serverStep d nonceLen env input) s vs
      (fun o s' _ => o = .ok .running → s' ≠ none) := by
  refine Post.skip (fun st _ _ => Post.skip (fun _ _ _ => ?_) (fun _ _ _ => nofun) (fun _ _ => nofun))
    (fun _ _ _ => nofun) (fun _ _ => nofun)
  cases st with
  | none => exact Post.panic nofun
  | some st =>
    cases st with
    | waitingClientFirst b =>
      exact Post.skip (fun _ _ _ => Post.skip (fun _ _ _ => Post.skip (fun _ _ _ => Post.bind (Post.set
        (Seq.ok (Post.pure (fun _ => nofun))))) (fun _ _ _ => nofun) (fun _ _ => nofun))
        (fun _ _ _ => nofun) (fun _ _ => nofun)) (fun _ _ _ => nofun) (fun _ _ => nofun)
    | waitingClientFinal data =>
      exact Post.skip (fun _ _ _ => Post.skip (fun _ _ _ => Post.bind (Post.set
        (Seq.ok (Post.pure nofun)))) (fun _ _ _ => nofun) (fun _ _ => nofun))
        (fun _ _ _ => nofun) (fun _ _ => nofun)
    | finished => exact Post.fail nofun

/-- Input the client can take without panicking: every part between commas has two bytes. -/
def ClientShaped (input : Option Bytes) : Prop :=
  ∀ b, input = some b → ∀ p ∈ splitOn 44 b, 2 ≤ p.length

/-- Input the server can take as first message without panicking. -/
def FirstShaped (input : Option Bytes) : Prop :=
  ∀ b, input = some b → ∀ flag az rest, splitOn 44 b = flag :: az :: rest →
    (az = [] ∨ 2 ≤ az.length) ∧ ∀ p ∈ rest, 2 ≤ p.length

theorem splitOn_length (x : UInt8) (b : Bytes) : ∀ p ∈ splitOn x b, p.length ≤ b.length := by
  induction b with
  | nil => intro p hp; simp [splitOn] at hp; subst hp; simp
  | cons y ys ih =>
    intro p hp
    unfold splitOn at hp
    repeat' split at hp
    all_goals
      try simp only [List.mem_cons, List.not_mem_nil, or_false] at hp
    all_goals grind

theorem clientShaped_length {b : Bytes} (h : ∀ p ∈ splitOn 44 b, 2 ≤ p.length) :
    2 ≤ b.length := by
  cases hs : splitOn 44 b with
  | nil =>
    exfalso
    revert hs
    cases b <;> unfold splitOn <;> grind
  | cons p ps =>
    exact Nat.le_trans (h p (by rw [hs]; simp)) (splitOn_length 44 b p (by rw [hs]; simp))

theorem client_step_ne_panic (d : Digest) {env : Env}
    (henv : env.Supplies .scramCachedPassword (CachedOk d)) (ses : Session CS) (c : Call)
    (hs : ses.st ≠ none) (hc : ClientShaped c.input ∨ ∃ plus, ses.st = some (.initial plus)) :
    (ses.step (client d) env c).1.res ≠ .panic := by
  show ((ses.exec (clientStep d nonceLen env c.input) c.sched).1).res ≠ .panic
  obtain ⟨st, slot, rng, log⟩ := ses
  obtain ⟨input, sched⟩ := c
  unfold Session.exec
  simp only
  show (clientStep d nonceLen env input st ⟨⟨[], sched⟩, rng, slot, log⟩).1 ≠ .panic
  unfold clientStep
  rw [M.bind_ok (M.get_apply ..), M.bind_ok (M.set_apply ..)]
  cases st with
  | none => exact absurd rfl hs
  | some st =>
    cases st with
    | initial plus =>
      exact NoPanic.bind (NoPanic.withLocal (NoPanic.sendClientFirst _ _ _))
        (fun _ => NoPanic.bind (NoPanic.set _) (fun _ => NoPanic.pure _)) _ _
    | clientFirst cb nonce u =>
      have hc := hc.resolve_right (by rintro ⟨_, h⟩; cases h)
      cases input with
      | none => exact nofun
      | some b =>
        dsimp only
        rw [M.bind_ok (by rfl : M.okOr _ (some b) _ _ = _)]
        exact NoPanic.bind (NoPanic.handleServerFirst d henv _ _ _ _
          (serverFirst_ne_panic (hc b rfl)))
          (fun _ => NoPanic.bind (NoPanic.set _) (fun _ => NoPanic.pure _)) _ _
    | serverFirst v ck sk salt i =>
      have hc := hc.resolve_right (by rintro ⟨_, h⟩; cases h)
      cases input with
      | none => exact nofun
      | some b =>
        dsimp only
        rw [M.bind_ok (by rfl : M.okOr _ (some b) _ _ = _)]
        exact NoPanic.bind (NoPanic.handleServerFinal env _ _ _ _ _ _
          (serverFinal_ne_panic (clientShaped_length (hc b rfl)))) (fun _ => NoPanic.pure _) _ _

theorem server_step_ne_panic (d : Digest) (env : Env) (ses : Session SS) (c : Call)
    (hs : ses.st ≠ none)
    (hc : FirstShaped c.input ∧ (∃ b, ses.st = some (.waitingClientFirst b)) ∨
      ClientShaped c.input ∧ ¬ ∃ b, ses.st = some (.waitingClientFirst b)) :
    (ses.step (server d) env c).1.res ≠ .panic := by
  obtain ⟨st, slot, rng, log⟩ := ses
  obtain ⟨input, sched⟩ := c
  show (serverStep d nonceLen env input st ⟨⟨[], sched⟩, rng, slot, log⟩).1 ≠ .panic
  unfold serverStep
  rw [M.bind_ok (M.get_apply ..), M.bind_ok (M.set_apply ..)]
  cases st with
  | none => exact absurd rfl hs
  | some st =>
    cases st with
    | waitingClientFirst b =>
      have hc := (hc.resolve_right (fun h => h.2 ⟨b, rfl⟩)).1
      cases input with
      | none => exact nofun
      | some b =>
        dsimp only
        rw [M.bind_ok (by rfl : M.okOr _ (some b) _ _ = _)]
        exact NoPanic.bind (NoPanic.liftOutcome (clientFirst_ne_panic (hc b rfl))) (fun msg =>
          NoPanic.bind (NoPanic.withLocal (NoPanic.handleClientFirst _ _ _ _ _))
            (fun _ => NoPanic.bind (NoPanic.set _) (fun _ => NoPanic.pure _))) _ _
    | waitingClientFinal data =>
      have hc := (hc.resolve_left (by rintro ⟨_, _, h⟩; cases h)).1
      cases input with
      | none => exact nofun
      | some b =>
        dsimp only
        rw [M.bind_ok (by rfl : M.okOr _ (some b) _ _ = _)]
        exact NoPanic.bind (NoPanic.handleClientFinal d env _ _ (clientFinal_ne_panic (hc b rfl)))
          (fun _ => NoPanic.bind (NoPanic.set _) (fun _ => NoPanic.pure _)) _ _
    | finished => exact nofun

end Rsasl.Scram

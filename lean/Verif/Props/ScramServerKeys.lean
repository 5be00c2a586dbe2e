/-
C81: what a SCRAM server tells about the keys it has stored.
-/
import Verif.Props.ScramUsers
import Verif.Props.ScramKeys

namespace Rsasl

open Scram Spec

/-- Two stored passwords with different keys: the verdicts differ only if one of them accepts. -/
theorem judge_keys (d : Digest) (f : FinalInner) (k1 k2 : Bytes) (msg : ClientFinal) :
    judge d (some f) msg = judge d (some { f with storedKey := k1, serverKey := k2 }) msg ∧
      (∀ x, judge d (some f) msg ≠ .ok (.ok x)) ∨
    (∃ x, judge d (some f) msg = .ok (.ok x)) ∨
    ∃ x, judge d (some { f with storedKey := k1, serverKey := k2 }) msg = .ok (.ok x) := by
  simp only [judge]
  split
  · exact .inl ⟨rfl, nofun⟩
  split
  · exact .inl ⟨rfl, nofun⟩
  split
  · exact .inl ⟨rfl, nofun⟩
  split
  · split
    · exact .inl ⟨rfl, nofun⟩
    · simp only [computeSignatures]
      next proof _ =>
      have key : ∀ (a b : Prop) [Decidable a] [Decidable b]
          (x y : Except SessionError (Except ServerErrorValue (FinalInner × Bytes)))
          (z : ServerErrorValue), (∃ u, x = .ok (.ok u)) → (∃ u, y = .ok (.ok u)) →
          ((if a then x else .ok (.error z)) = (if b then y else .ok (.error z)) ∧
            ∀ u, (if a then x else .ok (.error z)) ≠ .ok (.ok u)) ∨
          (∃ u, (if a then x else .ok (.error z)) = .ok (.ok u)) ∨
          ∃ u, (if b then y else .ok (.error z)) = .ok (.ok u) := by
        intro a b _ _ x y z hx hy
        by_cases ha : a
        · rw [if_pos ha]; exact .inr (.inl hx)
        · by_cases hb : b
          · rw [if_pos hb]; exact .inr (.inr hy)
          · rw [if_neg ha, if_neg hb]; exact .inl ⟨rfl, nofun⟩
      exact key _ _ _ _ _ ⟨_, rfl⟩ ⟨_, rfl⟩
  · exact .inl ⟨rfl, nofun⟩

/-- With the same verdict, which is not to accept, the same is done. -/
theorem serverStep_refuses_alike {d : Digest} {n : Nat} (env env' : Env) {f f' : FinalInner}
    {input : Option Bytes}
    (h : ∀ b msg, input = some b → ClientFinal.parse b = .ok msg →
      judge d (some f) msg = judge d (some f') msg ∧ ∀ x, judge d (some f) msg ≠ .ok (.ok x)) :
    ∀ w w' : World, w.wr = w'.wr → w.rng = w'.rng → w.slot = w'.slot →
      (serverStep d n env input (some (.waitingClientFinal (some f))) w).1 =
        (serverStep d n env' input (some (.waitingClientFinal (some f'))) w').1 ∧
      (serverStep d n env input (some (.waitingClientFinal (some f))) w).2.1 =
        (serverStep d n env' input (some (.waitingClientFinal (some f'))) w').2.1 ∧
      (serverStep d n env input (some (.waitingClientFinal (some f))) w).2.2.wr =
        (serverStep d n env' input (some (.waitingClientFinal (some f'))) w').2.2.wr := by
  intro w w' h1 h2 h3
  have key : SameRun (do
        let input ← M.okOr .inputDataRequired input
        handleClientFinal d env (some f) input
        M.set (some .finished)
        pure (State.finished .yes) : M SS State) (do
        let input ← M.okOr .inputDataRequired input
        handleClientFinal d env' (some f') input
        M.set (some .finished)
        pure (State.finished .yes)) none := by
    cases input with
    | none => exact fun _ _ h1 h2 h3 => ⟨rfl, rfl, h1, h2, h3⟩
    | some b =>
      show SameRun (handleClientFinal d env (some f) b >>= _)
        (handleClientFinal d env' (some f') b >>= _) none
      refine .bind ?_ fun _ s' => .bind (.set _ _) fun _ s' => .pure _ _
      unfold handleClientFinal
      cases hp : ClientFinal.parse b with
      | err e => exact .fail e _
      | panic => exact .panic _
      | ok msg =>
        obtain ⟨hj, hno⟩ := h b msg rfl hp
        show SameRun (M.lift (judge d (some f) msg) >>= _) (M.lift (judge d (some f') msg) >>= _) none
        rw [← hj]
        cases hv : judge d (some f) msg with
        | error e => exact .fail e _
        | ok v =>
          cases v with
          | ok x => exact absurd hv (hno x)
          | error e => exact .writeVectored _ _
  obtain ⟨g1, g2, g3, -⟩ := key w w' h1 h2 h3
  exact ⟨g1, g2, g3⟩

/-- A session that is over goes on the same with any callback. -/
theorem over_alike (d : Digest) (env env' : Env) (a b : Session SS)
    (ha : a.st = none ∨ a.st = some .finished) (hab : a.st = b.st) (calls : List Call) :
    (a.run (server d) env calls).1 = (b.run (server d) env' calls).1 := by
  induction calls generalizing a b with
  | nil => rfl
  | cons c cs ih =>
    obtain ⟨st, slot, rng, log⟩ := a
    obtain ⟨st', slot', rng', log'⟩ := b
    dsimp only at ha hab
    subst hab
    have key : ∃ r, ∀ env slot rng log, (⟨st, slot, rng, log⟩ : Session SS).step (server d) env c =
        (r, ⟨none, slot, rng, log⟩) := by
      rcases ha with rfl | rfl
      · exact ⟨⟨.panic, []⟩, fun _ _ _ _ => rfl⟩
      · exact ⟨⟨.err .mechanismDone, []⟩, fun _ _ _ _ => rfl⟩
    obtain ⟨r, hr⟩ := key
    rw [run_cons, run_cons, hr, hr]
    exact congrArg (List.cons r) (ih ⟨none, slot, rng, log⟩ ⟨none, slot', rng', log'⟩ (.inl rfl) rfl)

/-- A server that is convinced calls validate. -/
theorem accepted_validates {d : Digest} {env : Env} {ses : Session SS} {f : FinalInner}
    (hst : ses.st = some (.waitingClientFinal (some f))) {c : Call} {b : Bytes} {msg : ClientFinal}
    {x : FinalInner × Bytes} (hin : c.input = some b) (hp : ClientFinal.parse b = .ok msg)
    (hj : judge d (some f) msg = .ok (.ok x)) (hc : Cooperative c.sched) (calls : List Call) :
    validations (ses.run (server d) env (c :: calls)).2.log ≠ validations ses.log := by
  obtain ⟨f', sig⟩ := x
  obtain ⟨e, -⟩ := judge_ok hj
  cases e
  obtain ⟨h, -⟩ := server_second_right (n := nonceLen) (env := env) hst hp hj hc
  obtain ⟨es, -, hl⟩ := h.log
  rw [← hin] at hl
  rcases hs : ses.step (server d) env c with ⟨r, s'⟩
  have hl' : s'.log = ses.log ++ .validated (serverProvider f.username f.authzid) :: es := by
    rw [← hl]
    exact (congrArg (fun x => x.2.log) hs).symm
  obtain ⟨ov, -⟩ := server_second d env ses f ⟨0, [], f.storedKey, f.serverKey⟩ rfl rfl hst c r s' hs
  rw [run_cons, hs]
  show validations (s'.run (server d) env calls).2.log ≠ _
  rw [(server_over d env s' ov calls).2.1, hl', validations_append]
  intro e
  have := congrArg List.length e
  simp [validations] at this

theorem second_alike {d : Digest} {env env' : Env} {a b : Session SS} {f : FinalInner}
    {k1 k2 : Bytes} (ha : a.st = some (.waitingClientFinal (some f)))
    (hb : b.st = some (.waitingClientFinal (some { f with storedKey := k1, serverKey := k2 })))
    (hrng : a.rng = b.rng) (hslot : a.slot = b.slot) (c : Call) (hc : Cooperative c.sched)
    (calls : List Call) :
    (a.run (server d) env (c :: calls)).1 = (b.run (server d) env' (c :: calls)).1 ∨
    validations (a.run (server d) env (c :: calls)).2.log ≠ validations a.log ∨
    validations (b.run (server d) env' (c :: calls)).2.log ≠ validations b.log := by
  have hcase : (∀ m msg, c.input = some m → ClientFinal.parse m = .ok msg →
      judge d (some f) msg = judge d (some { f with storedKey := k1, serverKey := k2 }) msg ∧
        ∀ x, judge d (some f) msg ≠ .ok (.ok x)) ∨
      ∃ m msg, c.input = some m ∧ ClientFinal.parse m = .ok msg ∧
        ((∃ x, judge d (some f) msg = .ok (.ok x)) ∨
          ∃ x, judge d (some { f with storedKey := k1, serverKey := k2 }) msg = .ok (.ok x)) := by
    cases hi : c.input with
    | none => exact .inl nofun
    | some m =>
      cases hp : ClientFinal.parse m with
      | err e => left; intro m' msg h1 h2; cases h1; rw [hp] at h2; cases h2
      | panic => left; intro m' msg h1 h2; cases h1; rw [hp] at h2; cases h2
      | ok msg =>
        rcases judge_keys d f k1 k2 msg with h | h
        · left; intro m' msg' h1 h2; cases h1; rw [hp] at h2; cases h2; exact h
        · exact .inr ⟨m, msg, rfl, hp, h⟩
  rcases hcase with h | ⟨m, msg, hi, hp, ⟨x, hx⟩ | ⟨x, hx⟩⟩
  · left
    obtain ⟨st, slot, rng, log⟩ := a
    obtain ⟨st', slot', rng', log'⟩ := b
    dsimp only at ha hb hrng hslot
    subst ha hb hrng hslot
    obtain ⟨g1, g2, g3⟩ := serverStep_refuses_alike (n := nonceLen) env env' h
      ⟨⟨[], c.sched⟩, rng, slot, log⟩ ⟨⟨[], c.sched⟩, rng, slot, log'⟩ rfl rfl rfl
    rcases hs : serverStep d nonceLen env c.input (some (.waitingClientFinal (some f)))
      ⟨⟨[], c.sched⟩, rng, slot, log⟩ with ⟨o, s', w'⟩
    rcases hs' : serverStep d nonceLen env' c.input
      (some (.waitingClientFinal (some { f with storedKey := k1, serverKey := k2 })))
      ⟨⟨[], c.sched⟩, rng, slot, log'⟩ with ⟨o', s'', w''⟩
    rw [hs, hs'] at g1 g2 g3
    dsimp only at g1 g2 g3
    subst g1 g2
    have e := step_of (m := server d) (ses := ⟨some (.waitingClientFinal (some f)), slot, rng, log⟩) hs
    have e' := step_of (m := server d) (ses := ⟨some (.waitingClientFinal
      (some { f with storedKey := k1, serverKey := k2 })), slot, rng, log'⟩) hs'
    obtain ⟨ov, -⟩ := server_second d env _ f ⟨0, [], f.storedKey, f.serverKey⟩ rfl rfl rfl c _ _ e
    rw [run_cons, run_cons, e, e', g3]
    exact congrArg (List.cons _) (over_alike d env env' ⟨s', w'.slot, w'.rng, w'.log⟩
      ⟨s', w''.slot, w''.rng, w''.log⟩ ov rfl calls)
  · exact .inr (.inl (accepted_validates ha hi hp hx hc calls))
  · exact .inr (.inr (accepted_validates hb hi hp hx hc calls))

/-- C81: two servers that have the same salt and iteration count for the user, but different keys,
give the same replies to whatever they are sent, unless one of them is convinced by it. -/
theorem C81 (d : Digest) (env env' : Env) (ses ses' : Session SS) (canCb : Bool)
    (hst : ses.st = some (.waitingClientFirst canCb))
    (hst' : ses'.st = some (.waitingClientFirst canCb)) (hrng : ses.rng = ses'.rng)
    (hslot : ses.slot = ses'.slot)
    (flag : CbFlag) (authzid : Option Str)
    (user : Str) (nonce data : Bytes) (h : WellFormedFirst flag authzid user nonce)
    (stored stored' : StoredPassword)
    (hk : Spec.Knows d env canCb flag authzid user data stored)
    (hk' : Spec.Knows d env' canCb flag authzid user data stored')
    (hsame : stored.salt = stored'.salt ∧ stored.iterations = stored'.iterations)
    (w : List WResp) (hw : Cooperative w) (calls : List Call)
    (hcalls : ∀ c ∈ calls, Cooperative c.sched) :
    let c0 : Call := ⟨some (gs2Header flag authzid ++ clientFirstBare user nonce), w⟩
    (ses.run (server d) env (c0 :: calls)).1 = (ses'.run (server d) env' (c0 :: calls)).1 ∨
    validations (ses.run (server d) env (c0 :: calls)).2.log ≠ validations ses.log ∨
    validations (ses'.run (server d) env' (c0 :: calls)).2.log ≠ validations ses'.log := by
  intro c0
  rcases h0 : ses.step (server d) env c0 with ⟨r0, s0⟩
  rcases h0' : ses'.step (server d) env' c0 with ⟨r0', s0'⟩
  obtain ⟨rfl, h1, hr1, hs1, hl1⟩ := DoesR.step (m := server d) (c := c0) (by
    rw [hst]
    exact does_server_first (d := d) (n := nonceLen) (canCb := canCb)
      (parse_wellFormed h) hk.binding hk.gives hk.storedKey hk.serverKey ses.rng) hw h0
  obtain ⟨rfl, h1', hr1', hs1', hl1'⟩ := DoesR.step (m := server d) (c := c0) (by
    rw [hst']
    exact does_server_first (d := d) (n := nonceLen) (canCb := canCb)
      (parse_wellFormed h) hk'.binding hk'.gives hk'.storedKey hk'.serverKey ses'.rng) hw h0'
  have hcount : storedCount stored = storedCount stored' := by unfold storedCount; rw [hsame.2]
  rw [run_cons, h0, run_cons, h0', hrng, hsame.1, hcount]
  cases calls with
  | nil => exact .inl rfl
  | cons c1 cs =>
    have hc1 := hcalls c1 (by simp)
    rw [hrng, hsame.1, hcount] at h1
    rw [← hl1, ← hl1']
    rcases second_alike (env := env) (env' := env') h1 h1' (by rw [hr1, hr1', hrng])
      (by rw [hs1, hs1', hslot]) c1 hc1 cs with h | h | h
    · exact .inl (congrArg (List.cons _) h)
    · exact .inr (.inl h)
    · exact .inr (.inr h)

/-- Two servers that have different keys for the user refuse a client in the same way. -/
example :
    let run := fun keys : Bytes => ((serverAt (serverNew false)).run (server toyDigest)
      (exampleEnv [⟨.scramStoredPassword, (⟨4096, [0, 0, 0], keys, [9]⟩ : StoredPassword)⟩])
      [⟨some (b!"n,,n=user,r=abc"), []⟩, ⟨some rightFinal, []⟩]).1.map fun r => (r.res, r.out)
    run [31] = run [32] ∧ run [31] ≠ run [30] := by
  decide +kernel

end Rsasl

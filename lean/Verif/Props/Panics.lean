/-
C55 for whole sessions: the messages on which the SCRAM parsers panic are the only ones on which a
session under way panics.
-/
import Verif.Props.ScramClient
import Verif.Props.ScramServer
import Verif.Props.ScramGrammar
import Verif.Props.Session

namespace Rsasl

open Scram

/-- A server's step panics exactly if the session has failed before, or the message it waits for
makes the parser panic. -/
theorem C55_server_step (d : Digest) (env : Env) (ses : Session SS) (c : Call) :
    (ses.step (server d) env c).1.res = .panic ↔
      ses.st = none ∨ ∃ b, c.input = some b ∧
        ((∃ canCb, ses.st = some (.waitingClientFirst canCb)) ∧ ClientFirst.parse b = .panic ∨
         (∃ data, ses.st = some (.waitingClientFinal data)) ∧ ClientFinal.parse b = .panic) := by
  obtain ⟨st, slot, rng, log⟩ := ses
  obtain ⟨input, sched⟩ := c
  show (serverStep d nonceLen env input st ⟨⟨[], sched⟩, rng, slot, log⟩).1 = .panic ↔ _
  dsimp only
  constructor
  · intro h
    refine Classical.byContradiction fun hn => ?_
    rw [not_or] at hn
    obtain ⟨h0, hn⟩ := hn
    revert h
    unfold serverStep
    rw [M.bind_ok (M.get_apply ..), M.bind_ok (M.set_apply ..)]
    cases st with
    | none => exact absurd rfl h0
    | some st =>
      cases input with
      | none => cases st <;> exact nofun
      | some b =>
        cases st with
        | waitingClientFirst canCb =>
          dsimp only
          rw [M.bind_ok (by rfl : M.okOr _ (some b) _ _ = _)]
          exact NoPanic.bind (NoPanic.liftOutcome fun h => hn ⟨b, rfl, .inl ⟨⟨_, rfl⟩, h⟩⟩)
            (fun msg => NoPanic.bind (NoPanic.withLocal (NoPanic.handleClientFirst _ _ _ _ _))
              (fun _ => NoPanic.bind (NoPanic.set _) (fun _ => NoPanic.pure _))) _ _
        | waitingClientFinal data =>
          dsimp only
          rw [M.bind_ok (by rfl : M.okOr _ (some b) _ _ = _)]
          exact NoPanic.bind (NoPanic.handleClientFinal d env _ _
            fun h => hn ⟨b, rfl, .inr ⟨⟨_, rfl⟩, h⟩⟩)
            (fun _ => NoPanic.bind (NoPanic.set _) (fun _ => NoPanic.pure _)) _ _
        | finished => exact nofun
  · rintro (rfl | ⟨b, rfl, ⟨⟨canCb, rfl⟩, h⟩ | ⟨⟨data, rfl⟩, h⟩⟩)
    · rfl
    · exact congrArg Prod.fst ((C55_steps d env _ b).1 canCb h)
    · exact congrArg Prod.fst ((C55_steps d env _ b).2.1 data h)

/-- The same for a client, if cached keys have the length of the digest. -/
theorem C55_client_step (d : Digest) (env : Env)
    (henv : env.Supplies .scramCachedPassword (CachedOk d)) (ses : Session CS) (c : Call) :
    (ses.step (client d) env c).1.res = .panic ↔
      ses.st = none ∨ ∃ b, c.input = some b ∧
        ((∃ cb nonce user, ses.st = some (.clientFirst cb nonce user)) ∧
            ServerFirst.parse b = .panic ∨
         (∃ v ck sk salt it, ses.st = some (.serverFirst v ck sk salt it)) ∧
            ServerFinal.parse b = .panic) := by
  obtain ⟨st, slot, rng, log⟩ := ses
  obtain ⟨input, sched⟩ := c
  show (clientStep d nonceLen env input st ⟨⟨[], sched⟩, rng, slot, log⟩).1 = .panic ↔ _
  dsimp only
  constructor
  · intro h
    refine Classical.byContradiction fun hn => ?_
    rw [not_or] at hn
    obtain ⟨h0, hn⟩ := hn
    revert h
    unfold clientStep
    rw [M.bind_ok (M.get_apply ..), M.bind_ok (M.set_apply ..)]
    cases st with
    | none => exact absurd rfl h0
    | some st =>
      cases st with
      | initial plus =>
        exact NoPanic.bind (NoPanic.withLocal (NoPanic.sendClientFirst _ _ _))
          (fun _ => NoPanic.bind (NoPanic.set _) (fun _ => NoPanic.pure _)) _ _
      | clientFirst cb nonce u =>
        cases input with
        | none => exact nofun
        | some b =>
          dsimp only
          rw [M.bind_ok (by rfl : M.okOr _ (some b) _ _ = _)]
          exact NoPanic.bind (NoPanic.handleServerFirst d henv _ _ _ _
            fun h => hn ⟨b, rfl, .inl ⟨⟨_, _, _, rfl⟩, h⟩⟩)
            (fun _ => NoPanic.bind (NoPanic.set _) (fun _ => NoPanic.pure _)) _ _
      | serverFirst v ck sk salt i =>
        cases input with
        | none => exact nofun
        | some b =>
          dsimp only
          rw [M.bind_ok (by rfl : M.okOr _ (some b) _ _ = _)]
          exact NoPanic.bind (NoPanic.handleServerFinal env _ _ _ _ _ _
            fun h => hn ⟨b, rfl, .inr ⟨⟨_, _, _, _, _, rfl⟩, h⟩⟩) (fun _ => NoPanic.pure _) _ _
  · rintro (rfl | ⟨b, rfl, ⟨⟨cb, nonce, user, rfl⟩, h⟩ | ⟨⟨v, ck, sk, salt, it, rfl⟩, h⟩⟩)
    · rfl
    · exact congrArg Prod.fst ((C55_steps d env _ b).2.2.1 cb nonce user h)
    · exact congrArg Prod.fst ((C55_steps d env _ b).2.2.2 v ck sk salt it h)

/-- C55, a server session under way: the first call panics exactly on the client-first messages of
`C55_client_first`, the second exactly on the client-final messages of `C55_client_final`. -/
theorem C55_server_session (d : Digest) (env : Env) (canCb : Bool) (rng : Nat → Nat)
    (cs : List Call) (c : Call)
    (h : Spec.AllRunning (((⟨server d, serverNew canCb⟩ : Started).session rng).run (server d)
      env cs).1) :
    ((((⟨server d, serverNew canCb⟩ : Started).session rng).run (server d) env cs).2.step (server d)
      env c).1.res = .panic ↔
    ∃ b, c.input = some b ∧ (cs.length = 0 ∧ ClientFirst.parse b = .panic ∨
      cs.length = 1 ∧ ClientFinal.parse b = .panic) := by
  match cs, h with
  | [], _ =>
    refine (C55_server_step d env _ c).trans ?_
    constructor
    · rintro (h | ⟨b, hb, ⟨-, h⟩ | ⟨⟨_, h⟩, -⟩⟩)
      · cases h
      · exact ⟨b, hb, .inl ⟨rfl, h⟩⟩
      · cases h
    · rintro ⟨b, hb, ⟨-, h⟩ | ⟨h, -⟩⟩
      · exact .inr ⟨b, hb, .inl ⟨⟨canCb, rfl⟩, h⟩⟩
      · cases h
  | c0 :: cs, h =>
    rw [run_cons] at h ⊢
    obtain ⟨h1, h2⟩ := h.of_cons
    obtain ⟨_, _, _, ⟨hn, _⟩ | ⟨b0, flag, key, authzid, user, cnonce, exts, data, snonce, salt64, it64,
      -, -, -, -, -, hst⟩⟩ := server_first d env ((⟨server d, serverNew canCb⟩ : Started).session rng)
        canCb rfl c0 _ _ rfl
    · exact absurd h1 (hn _)
    have hst : ∃ data, (Session.step (server d) env ((⟨server d, serverNew canCb⟩ :
        Started).session rng) c0).2.st = some (.waitingClientFinal data) := by
      rcases hst with ⟨hst, -⟩ | ⟨_, hst⟩
      · exact ⟨_, hst⟩
      · exact ⟨_, hst.2.2.2.2.2.2.2⟩
    obtain ⟨data, hst⟩ := hst
    cases cs with
    | nil =>
      refine (C55_server_step d env _ c).trans ?_
      constructor
      · rintro (h | ⟨b, hb, ⟨⟨_, h⟩, -⟩ | ⟨-, h⟩⟩)
        · exact absurd (hst.symm.trans h) nofun
        · exact absurd (hst.symm.trans h) nofun
        · exact ⟨b, hb, .inr ⟨rfl, h⟩⟩
      · rintro ⟨b, hb, ⟨h, -⟩ | ⟨-, h⟩⟩
        · cases h
        · exact .inr ⟨b, hb, .inr ⟨⟨data, hst⟩, h⟩⟩
    | cons c1 cs =>
      exfalso
      rw [run_cons] at h2
      have hr := (((server_tame d).step std_true env.errs_true _ c1).running h2.of_cons.1).1
      exact absurd (lt_of_lt_of_eq hr (congrArg srank hst)) (Nat.not_lt_zero _)

/-- C55, a client session under way, if cached keys have the length of the digest: the first call does
not panic, the second does exactly on the server-first messages of `C55_server_first`, the third
exactly on the server-final messages of `C55_server_final`. -/
theorem C55_client_session (d : Digest) (env : Env)
    (henv : env.Supplies .scramCachedPassword (CachedOk d)) (plus : CbSupport) (rng : Nat → Nat)
    (cs : List Call) (c : Call)
    (h : Spec.AllRunning (((⟨client d, some (.initial plus)⟩ : Started).session rng).run (client d)
      env cs).1) :
    ((((⟨client d, some (.initial plus)⟩ : Started).session rng).run (client d) env cs).2.step
      (client d) env c).1.res = .panic ↔
    ∃ b, c.input = some b ∧ (cs.length = 1 ∧ ServerFirst.parse b = .panic ∨
      cs.length = 2 ∧ ServerFinal.parse b = .panic) := by
  match cs, h with
  | [], _ =>
    refine (C55_client_step d env henv _ c).trans ?_
    constructor
    · rintro (h | ⟨b, hb, ⟨⟨_, _, _, h⟩, -⟩ | ⟨⟨_, _, _, _, _, h⟩, -⟩⟩) <;> cases h
    · rintro ⟨b, hb, ⟨h, -⟩ | ⟨h, -⟩⟩ <;> cases h
  | c0 :: cs, h =>
    rw [run_cons] at h ⊢
    obtain ⟨h1, h2⟩ := h.of_cons
    obtain ⟨_, _, _, ⟨hn, _⟩ | ⟨gs2, cb, name, user, nonce, -, hst⟩⟩ := client_first d env
      ((⟨client d, some (.initial plus)⟩ : Started).session rng) plus rfl c0 _ _ rfl
    · exact absurd h1 (hn _)
    cases cs with
    | nil =>
      refine (C55_client_step d env henv _ c).trans ?_
      constructor
      · rintro (h | ⟨b, hb, ⟨-, h⟩ | ⟨⟨_, _, _, _, _, h⟩, -⟩⟩)
        · exact absurd (hst.symm.trans h) nofun
        · exact ⟨b, hb, .inl ⟨rfl, h⟩⟩
        · exact absurd (hst.symm.trans h) nofun
      · rintro ⟨b, hb, ⟨-, h⟩ | ⟨h, -⟩⟩
        · exact .inr ⟨b, hb, .inl ⟨⟨_, _, _, hst⟩, h⟩⟩
        · cases h
    | cons c1 cs =>
      rw [run_cons] at h2 ⊢
      obtain ⟨h2, h3⟩ := h2.of_cons
      rcases client_second d env _ _ _ _ hst c1 _ _ rfl with ⟨hn, -⟩ | ⟨b1, sn, salt64, it64, salt, it,
        es, -, -, -, -, ⟨hn, -⟩ | ⟨ck, sk, auth, -, hst2⟩⟩
      · exact absurd h2 (hn _)
      · exact absurd h2 (hn _)
      cases cs with
      | nil =>
        refine (C55_client_step d env henv _ c).trans ?_
        constructor
        · rintro (h | ⟨b, hb, ⟨⟨_, _, _, h⟩, -⟩ | ⟨-, h⟩⟩)
          · exact absurd (hst2.symm.trans h) nofun
          · exact absurd (hst2.symm.trans h) nofun
          · exact ⟨b, hb, .inr ⟨rfl, h⟩⟩
        · rintro ⟨b, hb, ⟨h, -⟩ | ⟨-, h⟩⟩
          · cases h
          · exact .inr ⟨b, hb, .inr ⟨⟨_, _, _, _, _, hst2⟩, h⟩⟩
      | cons c2 cs =>
        exfalso
        rw [run_cons] at h3
        have hr := (((client_tame d).step std_true env.errs_true _ c2).running h3.of_cons.1).1
        exact absurd (lt_of_lt_of_eq hr (congrArg crank hst2)) (Nat.not_lt_zero _)

/-- Sessions that panic in their second call. -/
example : ((((⟨server toyDigest, serverNew false⟩ : Started).session id).run (server toyDigest)
    (exampleEnv []) [⟨some (b!"n,,n=bob,r=abc"), []⟩]).2.step (server toyDigest) (exampleEnv [])
      ⟨some (b!"c"), []⟩).1.res = .panic := by
  rw [C55_server_session]
  · exact ⟨_, rfl, .inr ⟨rfl, rfl⟩⟩
  · intro r hr
    have : ∀ r ∈ (((⟨server toyDigest, serverNew false⟩ : Started).session id).run (server toyDigest)
        (exampleEnv []) [⟨some (b!"n,,n=bob,r=abc"), []⟩]).1, r.res = .ok .running := by
      decide +kernel
    exact this r hr

/-! ## Cached keys of the wrong length -/

/-- The log says that the client took cached keys of the wrong length. -/
def TookBadKeys (d : Digest) (es : List Event) : Prop :=
  ∃ keys, Event.answered .scramCachedPassword keys ∈ es ∧
    ¬ (keys.clientKey.length = d.outLen ∧ keys.serverKey.length = d.outLen)

/-- Panics exactly if cached keys of the wrong length are taken. -/
def KeyPanic (d : Digest) {S α : Type} (m : M S α) : Prop :=
  ∀ s w, ∃ es, (m s w).2.2.log = w.log ++ es ∧ ((m s w).1 = .panic ↔ TookBadKeys d es)

theorem KeyPanic.quiet {d : Digest} {S α : Type} {m : M S α} (h : NoPanic m)
    (hl : ∀ s w, (m s w).2.2.log = w.log) : KeyPanic d m :=
  fun s w => ⟨[], by rw [hl, List.append_nil], fun hp => absurd hp (h s w),
    fun ⟨_, hm, _⟩ => nomatch hm⟩

theorem KeyPanic.bind {d : Digest} {S α β : Type} {m : M S α} {f : α → M S β} (hm : KeyPanic d m)
    (hf : ∀ a, KeyPanic d (f a)) : KeyPanic d (m >>= f) := by
  intro s w
  obtain ⟨es, h1, h2⟩ := hm s w
  rw [M.bind_apply]
  rcases hx : m s w with ⟨a | e | _, s', w'⟩
  · rw [hx] at h1 h2
    obtain ⟨es', h3, h4⟩ := hf a s' w'
    refine ⟨es ++ es', ?_, ?_⟩
    · show (f a s' w').2.2.log = _
      rw [h3, h1, List.append_assoc]
    · show (f a s' w').1 = .panic ↔ _
      rw [h4]
      constructor
      · rintro ⟨k, hk, hn⟩
        exact ⟨k, List.mem_append_right _ hk, hn⟩
      · rintro ⟨k, hk, hn⟩
        rcases List.mem_append.1 hk with hk | hk
        · exact absurd (h2.2 ⟨k, hk, hn⟩) nofun
        · exact ⟨k, hk, hn⟩
  · rw [hx] at h1 h2
    exact ⟨es, h1, ⟨nofun, fun h => absurd (h2.2 h) nofun⟩⟩
  · rw [hx] at h1 h2
    exact ⟨es, h1, ⟨fun _ => h2.1 rfl, fun _ => rfl⟩⟩

theorem quiet_no_keys {d : Digest} {es : List Event} (hq : Quiet es) : ¬ TookBadKeys d es := by
  rintro ⟨k, hk, -⟩
  obtain ⟨p, hp⟩ := hq _ hk
  cases hp

theorem KeyPanic.ask {d : Digest} {S G : Type} (env : Env) (p : Property) (ctx : Provider)
    {f : p.Value → M S G} (hl : ∀ v s w, (f v s w).2.2 = w)
    (hf : ∀ v s w, (f v s w).1 = .panic ↔ TookBadKeys d [.answered p v]) :
    KeyPanic d (maybeNeedWith env p ctx f) := by
  have split : ∀ es v es', Quiet es → Quiet es' →
      (TookBadKeys d (.asked p ctx :: es ++ [.answered p v] ++ es') ↔
        TookBadKeys d [.answered p v]) := by
    intro es v es' hq hq'
    constructor
    · rintro ⟨k, hk, hn⟩
      simp only [List.cons_append, List.mem_cons, List.mem_append, List.not_mem_nil, or_false,
        reduceCtorEq, false_or] at hk
      rcases hk with ((hk | hk) | hk)
      · exact absurd ⟨k, hk, hn⟩ (quiet_no_keys hq)
      · exact ⟨k, by rw [hk]; simp, hn⟩
      · exact absurd ⟨k, hk, hn⟩ (quiet_no_keys hq')
    · rintro ⟨k, hk, hn⟩
      exact ⟨k, by rw [List.mem_singleton.1 hk]; simp, hn⟩
  intro s w
  have hr := maybeNeedWith_run env p ctx f s w
  generalize maybeNeedWith env p ctx f s w = x at hr
  cases hr with
  | none o es hq ho =>
    refine ⟨.asked p ctx :: es, rfl, fun h => ?_, ?_⟩
    · rcases ho with rfl | ⟨e, rfl⟩ <;> cases h
    · rintro ⟨k, hk, hn⟩
      rcases List.mem_cons.1 hk with hk | hk
      · cases hk
      · exact absurd ⟨k, hk, hn⟩ (quiet_no_keys hq)
  | ok v es es' g s' w' o hq hq' h ho =>
    have hw := hl v s (w.addLog (.asked p ctx :: es ++ [.answered p v]))
    have hn := hf v s (w.addLog (.asked p ctx :: es ++ [.answered p v]))
    rw [h] at hw hn
    refine ⟨.asked p ctx :: es ++ [.answered p v] ++ es', ?_, fun h => ?_, fun h => ?_⟩
    · show w'.log ++ es' = _
      rw [show w' = _ from hw]
      simp [World.addLog]
    · rcases ho with rfl | rfl | ⟨e, rfl⟩ <;> cases h
    · exact absurd (hn.2 ((split _ _ _ hq hq').1 h)) nofun
  | err v es es' e s' w' o hq hq' h ho =>
    have hw := hl v s (w.addLog (.asked p ctx :: es ++ [.answered p v]))
    have hn := hf v s (w.addLog (.asked p ctx :: es ++ [.answered p v]))
    rw [h] at hw hn
    refine ⟨.asked p ctx :: es ++ [.answered p v] ++ es', ?_, fun h => ?_, fun h => ?_⟩
    · show w'.log ++ es' = _
      rw [show w' = _ from hw]
      simp [World.addLog]
    · rcases ho with rfl | ⟨e, rfl⟩ <;> cases h
    · exact absurd (hn.2 ((split _ _ _ hq hq').1 h)) nofun
  | panic v es s' w' hq h =>
    have hw := hl v s (w.addLog (.asked p ctx :: es ++ [.answered p v]))
    have hn := hf v s (w.addLog (.asked p ctx :: es ++ [.answered p v]))
    rw [h] at hw hn
    refine ⟨.asked p ctx :: es ++ [.answered p v] ++ [], ?_, fun _ => ?_, fun _ => rfl⟩
    · show w'.log = _
      rw [show w' = _ from hw]
      simp [World.addLog]
    · exact (split _ _ _ hq Quiet.nil).2 (hn.1 rfl)

theorem KeyPanic.clientKeys (d : Digest) (env : Env) (prov : Provider) (i : UInt32) (salt : Bytes) :
    KeyPanic d (clientKeys d env prov i salt) := by
  have pure : ∀ {S α : Type} (a : α), KeyPanic d (Pure.pure a : M S α) :=
    fun a => KeyPanic.quiet (NoPanic.pure a) fun _ _ => rfl
  refine KeyPanic.bind (KeyPanic.ask env _ prov (fun v s w => ?_) fun v s w => ?_) fun o => ?_
  · unfold useCached
    split <;> rfl
  · unfold useCached
    split
    · next h =>
      refine ⟨nofun, ?_⟩
      rintro ⟨k, hk, hn⟩
      cases List.mem_singleton.1 hk
      exact absurd h hn
    · next h => exact ⟨fun _ => ⟨v, by simp, h⟩, fun _ => rfl⟩
  · cases o with
    | some k => exact pure k
    | none =>
      refine KeyPanic.bind (KeyPanic.ask env _ prov (fun v s w => ?_) fun v s w => ?_) fun o => ?_
      · unfold useSalted
        split <;> rfl
      · refine ⟨fun h => ?_, fun ⟨k, hk, _⟩ => ?_⟩
        · unfold useSalted at h
          split at h <;> cases h
        · cases List.mem_singleton.1 hk
      · cases o with
        | some k => exact pure k
        | none =>
          refine KeyPanic.bind (KeyPanic.ask env _ prov (fun v s w => rfl) fun v s w =>
            ⟨nofun, fun ⟨k, hk, _⟩ => ?_⟩) fun o => ?_
          · cases List.mem_singleton.1 hk
          · cases o with
            | some k => exact pure k
            | none => exact KeyPanic.quiet (NoPanic.fail _) fun _ _ => rfl

/-- C55 without a condition on the callback: besides the session that failed before and the messages
of `C55_server_first` and `C55_server_final`, a client panics exactly if it takes cached keys of the
wrong length from the callback. -/
theorem C55_client_keys (d : Digest) (env : Env) (ses : Session CS) (c : Call) :
    (ses.step (client d) env c).1.res = .panic ↔
      ses.st = none ∨
      (∃ b, c.input = some b ∧
        ((∃ cb nonce user, ses.st = some (.clientFirst cb nonce user)) ∧
            ServerFirst.parse b = .panic ∨
         (∃ v ck sk salt it, ses.st = some (.serverFirst v ck sk salt it)) ∧
            ServerFinal.parse b = .panic)) ∨
      (∃ cb nonce user, ses.st = some (.clientFirst cb nonce user)) ∧
        ∃ es, (ses.step (client d) env c).2.log = ses.log ++ es ∧ TookBadKeys d es := by
  obtain ⟨st, slot, rng, log⟩ := ses
  obtain ⟨input, sched⟩ := c
  show (clientStep d nonceLen env input st ⟨⟨[], sched⟩, rng, slot, log⟩).1 = .panic ↔
    st = none ∨ (∃ b, input = some b ∧ ((∃ cb nonce user, st = some (.clientFirst cb nonce user)) ∧
      _ ∨ (∃ v ck sk salt it, st = some (.serverFirst v ck sk salt it)) ∧ _)) ∨
    (∃ cb nonce user, st = some (.clientFirst cb nonce user)) ∧ ∃ es,
      (clientStep d nonceLen env input st ⟨⟨[], sched⟩, rng, slot, log⟩).2.2.log = log ++ es ∧ _
  unfold clientStep
  rw [M.bind_ok (M.get_apply ..), M.bind_ok (M.set_apply ..)]
  match st with
  | none => exact ⟨fun _ => .inl rfl, fun _ => rfl⟩
  | some (.initial plus) =>
    refine ⟨fun h => absurd h (NoPanic.bind (NoPanic.withLocal (NoPanic.sendClientFirst _ _ _))
      (fun _ => NoPanic.bind (NoPanic.set _) (fun _ => NoPanic.pure _)) _ _), ?_⟩
    rintro (h | ⟨_, _, ⟨⟨_, _, _, h⟩, -⟩ | ⟨⟨_, _, _, _, _, h⟩, -⟩⟩ | ⟨⟨_, _, _, h⟩, -⟩) <;> cases h
  | some (.serverFirst v ck sk salt it) =>
    constructor
    · intro h
      refine .inr (.inl ?_)
      cases input with
      | none => cases h
      | some b =>
        refine ⟨b, rfl, .inr ⟨⟨_, _, _, _, _, rfl⟩, Classical.byContradiction fun hn => ?_⟩⟩
        exact NoPanic.bind (NoPanic.handleServerFinal env _ _ _ _ _ _ hn) (fun _ => NoPanic.pure _)
          _ _ h
    · rintro (h | ⟨b, rfl, ⟨⟨_, _, _, h⟩, -⟩ | ⟨-, h⟩⟩ | ⟨⟨_, _, _, h⟩, -⟩)
      · cases h
      · cases h
      · exact congrArg Prod.fst ((C55_steps d env ⟨⟨[], sched⟩, rng, slot, log⟩ b).2.2.2 v ck sk salt
          it h)
      · cases h
  | some (.clientFirst cb nonce user) =>
    cases input with
    | none =>
      refine ⟨nofun, ?_⟩
      rintro (h | ⟨_, h, _⟩ | ⟨-, es, h, hb⟩)
      · cases h
      · cases h
      · have h : log = log ++ es := h
        obtain ⟨k, hk, -⟩ := hb
        rw [List.self_eq_append_right.1 h] at hk
        cases hk
    | some b =>
      dsimp only
      rw [M.bind_ok (by rfl : M.okOr _ (some b) _ _ = _)]
      by_cases hp : ServerFirst.parse b = .panic
      · refine ⟨fun _ => .inr (.inl ⟨b, rfl, .inl ⟨⟨_, _, _, rfl⟩, hp⟩⟩), fun _ => ?_⟩
        exact congrArg Prod.fst ((C55_steps d env ⟨⟨[], sched⟩, rng, slot, log⟩ b).2.2.1 cb nonce user
          hp)
      · have key : KeyPanic d (handleServerFirst d env cb nonce user b >>= fun new => do
            M.set (some new)
            (pure .running : M CS State)) := by
          refine KeyPanic.bind (KeyPanic.bind (KeyPanic.quiet (NoPanic.liftOutcome fun h => hp
            (checkServerFirst_panic h)) fun s w => ?_) fun a => ?_) fun new =>
              KeyPanic.quiet (NoPanic.bind (NoPanic.set _) fun _ => NoPanic.pure _) fun _ _ => rfl
          · cases checkServerFirst nonce b <;> rfl
          · obtain ⟨sf, sn, i, salt⟩ := a
            refine KeyPanic.bind (KeyPanic.clientKeys d env _ _ _) fun k => ?_
            refine KeyPanic.bind (KeyPanic.quiet (NoPanic.writeVectored _) fun s w => ?_) fun _ =>
              KeyPanic.quiet (NoPanic.pure _) fun _ _ => rfl
            obtain ⟨-, es, h, hn⟩ := Logs.writeVectored (L := fun _ => False) (P := fun _ => True) _ s w
              trivial
            cases es with
            | nil => simpa using h
            | cons e es => exact (hn e (by simp)).elim
        obtain ⟨es, h1, h2⟩ := key none ⟨⟨[], sched⟩, rng, slot, log⟩
        rw [h2]
        constructor
        · intro h
          exact .inr (.inr ⟨⟨_, _, _, rfl⟩, es, h1, h⟩)
        · rintro (h | ⟨_, h0, ⟨-, h⟩ | ⟨⟨_, _, _, _, _, h⟩, -⟩⟩ | ⟨-, es', h, hb⟩)
          · cases h
          · cases h0
            exact absurd h hp
          · cases h
          · rw [List.append_cancel_left (h1.symm.trans h)]
            exact hb

/-- A client that is given keys of no length by its callback. -/
example : ∃ (ses : Session CS) (es : List Event) (c : Call),
    ses.st = some (.clientFirst (b!"biws") (b!"a") (c!"user")) ∧
    (ses.step (client toyDigest) (exampleEnv [⟨.scramCachedPassword, ⟨[], []⟩⟩]) c).2.log =
      ses.log ++ es ∧ TookBadKeys toyDigest es :=
  ⟨⟨some (.clientFirst (b!"biws") (b!"a") (c!"user")), none, id, []⟩, _,
    ⟨some (b!"r=abc,s=AA==,i=1"), []⟩, rfl, rfl, ⟨[], []⟩, List.mem_cons_of_mem _ (List.mem_singleton.2 rfl), by decide⟩

end Rsasl

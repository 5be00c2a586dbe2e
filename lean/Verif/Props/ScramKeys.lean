/-
C44 and C45: the SCRAM client's password, salted password and cached keys.
-/
import Verif.Proofs.ScramKeys
import Verif.Props.ScramClient
import Verif.Spec.Reads
import Verif.Spec.Examples

namespace Rsasl.Scram

open _root_.Rsasl.Spec TwoRuns

/-! ## C44 -/

section

variable {S G : Type} {d : Digest} {R : Bytes → Bytes → Prop} {env env' : Env}

theorem passwordsBy_eq {R : Bytes → Bytes → Prop} {p : Property} (hp : p ≠ .password)
    {v v' : p.Value} : PasswordsBy R p v v' ↔ v = v' := by
  cases p <;> first | exact Iff.rfl | exact absurd rfl hp

theorem closures_other {R R' : Bytes → Bytes → Prop} {p : Property} (hp : p ≠ .password)
    {f : p.Value → M S G} (hf : ∀ v, TwoRuns (PasswordsBy R) (f v) (f v)) :
    Closures (PasswordsBy R) (PasswordsBy R') p f f := by
  intro v v' h
  have := (passwordsBy_eq hp).1 h
  subst this
  exact ⟨(passwordsBy_eq hp).2 rfl, hf v⟩

theorem escapeM_alike {L : ValueRel} (x : Str) : TwoRuns L (escapeM x : M S Str) (escapeM x) := by
  unfold escapeM
  split
  · exact .pure _
  · exact .fail _

theorem clientCb_alike (he : SameButPassword d R env env') (plus : CbSupport) :
    TwoRuns (PasswordsBy R) (clientCb env plus) (clientCb env' plus) := by
  have hpush : ∀ b, TwoRuns (PasswordsBy R) (pushHeader b) (pushHeader b) := fun b => .modify _
  have hset : ∀ b, TwoRuns (PasswordsBy R) (setCbdata b) (setCbdata b) := fun b => .modify _
  cases plus with
  | clientNoSupport => exact hpush _
  | serverNoSupport => exact hpush _
  | supported =>
    refine .bind (hpush _) fun _ => .bind (.maybeNeedWith he (closures_other (by decide)
      fun v => .bind (hpush _) fun _ => .pure _)) fun r => ?_
    cases r with
    | some name => exact .needCbData he (closures_other (by decide) hset) hset
    | none =>
      have h : ∀ t v, TwoRuns (PasswordsBy R) (do pushHeader t; setCbdata v)
        (do pushHeader t; setCbdata v) := fun _ _ => .bind (hpush _) fun _ => hset _
      refine .bind (.maybeNeedCbData he (closures_other (by decide) (h _)) (h _)) fun r => ?_
      cases r with
      | some u => exact .pure _
      | none => exact .needCbData he (closures_other (by decide) (h _)) (h _)

theorem sendClientFirst_alike (he : SameButPassword d R env env') (n : Nat) (plus : CbSupport) :
    TwoRuns (PasswordsBy R) (sendClientFirst n env plus) (sendClientFirst n env' plus) := by
  have hpush : ∀ b, TwoRuns (PasswordsBy R) (pushHeader b) (pushHeader b) := fun b => .modify _
  refine .bind (clientCb_alike he plus) fun _ => .bind (hpush _) fun _ =>
    .bind (.maybeNeedWith he (closures_other (by decide) fun v => ?_)) fun _ =>
    .bind (hpush _) fun _ => .bind (.needWith he (closures_other (by decide) escapeM_alike)) fun _ =>
    .bind (.bind (.draw _) fun _ => .pure _) fun _ => .bind .get fun x => .bind (.writeVectored _) fun _ =>
    .pure _
  exact .bind (hpush _) fun _ => .bind (escapeM_alike _) fun _ => hpush _

theorem clientKeys_alike (he : SameButPassword d R env env') (salt : Bytes) (it : UInt32) :
    TwoRuns (PasswordsBy R) (clientKeys d env (clientProvider salt it) it salt)
      (clientKeys d env' (clientProvider salt it) it salt) := by
  refine .bind (.maybeNeedWith he (closures_other (by decide) fun v => ?_)) fun r => ?_
  · unfold useCached
    split
    · exact .pure _
    · exact .panic
  · cases r with
    | some keys => exact .pure _
    | none =>
      refine .bind (.maybeNeedWith he (closures_other (by decide) fun v => ?_)) fun r => ?_
      · unfold useSalted
        split
        · exact .fail _
        · exact .pure _
      · cases r with
        | some keys => exact .pure _
        | none =>
          refine .needWith he ?_
          intro v v' hv
          refine ⟨hv.1, ?_⟩
          have : usePassword d it salt v = usePassword d it salt v' := by
            unfold usePassword hashPassword
            rw [hv.2 salt it (clientProvider_exactly salt it)]
          rw [this]
          exact .pure _

theorem clientStep_alike (he : SameButPassword d R env env') (n : Nat) (input : Option Bytes) :
    TwoRuns (PasswordsBy R) (clientStep d n env input) (clientStep d n env' input) := by
  refine .bind .get fun st => .bind (.set _) fun _ => ?_
  split
  · exact .bind (.withLocal _ (sendClientFirst_alike he n _)) fun _ => .bind (.set _) fun _ => .pure _
  · refine .bind (.okOr _ _) fun b => .bind ?_ fun _ => .bind (.set _) fun _ => .pure _
    refine .bind (.liftOutcome _) fun x => .bind (clientKeys_alike he _ _) fun y =>
      .bind (.writeVectored _) fun _ => .pure _
  · refine .bind (.okOr _ _) fun b => .bind ?_ fun _ => .pure _
    refine .bind (.liftOutcome _) fun x => ?_
    split
    · split
      · exact .fail _
      · split
        · exact .bind (.attempt (.action he)) fun _ => .pure _
        · exact .fail _
    · exact .fail _
  · exact .panic

theorem client_perform_alike (he : SameButPassword d R env env') {a b : Session CS}
    (hs : Sessions (PasswordsBy R) a b) (op : Op) :
    (a.perform (client d) env op).1 = (b.perform (client d) env' op).1 ∧
    Sessions (PasswordsBy R) (a.perform (client d) env op).2 (b.perform (client d) env' op).2 := by
  have hstep : ∀ c : Call, (a.step (client d) env c).1 = (b.step (client d) env' c).1 ∧
      Sessions (PasswordsBy R) (a.step (client d) env c).2 (b.step (client d) env' c).2 :=
    fun c => TwoRuns.exec (clientStep_alike he _ _) hs _
  cases op with
  | step c => exact ⟨congrArg Answer.state (hstep c).1, (hstep c).2⟩
  | step64 c =>
    unfold Session.perform Session.step64
    dsimp only
    split
    · split
      · exact ⟨rfl, hs⟩
      · next bytes _ =>
        obtain ⟨h1, h2⟩ := hstep { c with input := some bytes }
        exact ⟨by rw [h1], h2⟩
    · obtain ⟨h1, h2⟩ := hstep c
      exact ⟨by rw [h1], h2⟩
  | encode i sched =>
    obtain ⟨h1, h2⟩ := TwoRuns.exec (m := (client d).encode i) (m' := (client d).encode i)
      (.fail _) hs sched
    exact ⟨congrArg Answer.count h1, h2⟩
  | decode i sched =>
    obtain ⟨h1, h2⟩ := TwoRuns.exec (m := (client d).decode i) (m' := (client d).decode i)
      (.fail _) hs sched
    exact ⟨congrArg Answer.count h1, h2⟩
  | validation => exact ⟨congrArg Answer.value hs.slot, hs.st, rfl, hs.rng, hs.log⟩

end

/-- Two sessions of a SCRAM client whose callbacks do the same, except that they may give different
passwords with the same key for the salt and the iteration count of the request: whatever is done
with them, both answer the same, byte for byte, and are in the same state. -/
theorem C44 (d : Digest) (R : Bytes → Bytes → Prop) (env env' : Env)
    (he : SameButPassword d R env env') (a b : Session CS) (hst : a.st = b.st)
    (hslot : a.slot = b.slot) (hrng : a.rng = b.rng) (hlog : LogsAlike (PasswordsBy R) a.log b.log)
    (ops : List Op) :
    (a.performAll (client d) env ops).1 = (b.performAll (client d) env' ops).1 ∧
    (a.performAll (client d) env ops).2.st = (b.performAll (client d) env' ops).2.st := by
  have : Sessions (PasswordsBy R) a b := ⟨hst, hslot, hrng, hlog⟩
  clear hst hslot hrng hlog
  induction ops generalizing a b with
  | nil => exact ⟨rfl, this.st⟩
  | cons op ops ih =>
    obtain ⟨h1, h2⟩ := client_perform_alike he this op
    obtain ⟨h3, h4⟩ := ih _ _ h2
    exact ⟨by simp only [Session.performAll]; rw [h1, h3], h4⟩

/-- Two passwords with the same key in the toy hash: one callback gives the one, the other the
other. -/
def twin (password : Bytes) : Env :=
  exampleEnv [⟨.authId, c!"user"⟩, ⟨.password, password⟩]

theorem twins : SameButPassword toyDigest (fun v v' => v = [1, 0] ∧ v' = [0, 7]) (twin [1, 0])
    (twin [0, 7]) where
  sd := rfl
  chanbind := rfl
  callback := by
    intro l l' _ ctx
    refine .satisfy .authId rfl fun r => ?_
    cases r with
    | error e => exact .ret _
    | ok u =>
      refine .satisfy .password ⟨⟨rfl, rfl⟩, fun salt it _ => ?_⟩ fun r => ?_
      · have : ((UInt8.ofNat it.toNat * 7 + 1) * 7 + 0) = ((UInt8.ofNat it.toNat * 7 + 0) * 7 + 7) := by
          generalize UInt8.ofNat it.toNat = x
          apply UInt8.toNat_inj.1
          simp only [UInt8.toNat_add, UInt8.toNat_mul, UInt8.reduceToNat]
          omega
        simp only [toyDigest, List.cons_append, List.nil_append, List.foldl_cons]
        rw [this]
      · cases r with
        | error e => exact .ret _
        | ok u => exact .ret _

/-- A fresh client and the calls of a good exchange. -/
def twinSession : Session CS := { st := clientNew false, rng := fun _ => 0 }

def twinOps : List Op :=
  [.step ⟨none, []⟩,
   .step ⟨some (serverFirst (List.replicate 24 33 ++ b!"xyz") (b!"AAEC") (b!"4096")), []⟩]

example (ops : List Op) : (twinSession.performAll (client toyDigest) (twin [1, 0]) ops).1 =
    (twinSession.performAll (client toyDigest) (twin [0, 7]) ops).1 :=
  (C44 toyDigest _ _ _ twins _ _ rfl rfl rfl .nil ops).1

/-- The exchange gets as far as the final message; a password with another key gives another one. -/
example :
    let out := fun env => (twinSession.performAll (client toyDigest) env twinOps).1.map fun
      | .state r => (decide (r.res = .ok .running), r.out)
      | _ => (false, [])
    (out (twin [1, 0])).map Prod.fst = [true, true] ∧ out (twin [1, 0]) = out (twin [0, 7]) ∧
      out (twin [1, 0]) ≠ out (twin [0, 8]) := by
  decide +kernel

/-! ## C45 -/

/-- From the same writer, random numbers and validation slot, the two do the same, whatever is in
the logs. -/
def SameRun {S α : Type} (m m' : M S α) (s : S) : Prop :=
  ∀ w w' : World, w.wr = w'.wr → w.rng = w'.rng → w.slot = w'.slot →
    (m s w).1 = (m' s w').1 ∧ (m s w).2.1 = (m' s w').2.1 ∧ (m s w).2.2.wr = (m' s w').2.2.wr ∧
    (m s w).2.2.rng = (m' s w').2.2.rng ∧ (m s w).2.2.slot = (m' s w').2.2.slot

theorem SameRun.bind {S α β : Type} {m m' : M S α} {f f' : α → M S β} {s : S}
    (h : SameRun m m' s) (hf : ∀ a s, SameRun (f a) (f' a) s) : SameRun (m >>= f) (m' >>= f') s := by
  intro w w' h1 h2 h3
  obtain ⟨g1, g2, g3, g4, g5⟩ := h w w' h1 h2 h3
  rcases hx : m s w with ⟨o, s1, w1⟩
  rcases hx' : m' s w' with ⟨o', s1', w1'⟩
  rw [hx, hx'] at g1 g2 g3 g4 g5
  simp only at g1 g2 g3 g4 g5
  subst g1 g2
  cases o with
  | ok a => rw [M.bind_ok hx, M.bind_ok hx']; exact hf a _ _ _ g3 g4 g5
  | err e => rw [M.bind_err hx, M.bind_err hx']; exact ⟨rfl, rfl, g3, g4, g5⟩
  | panic => rw [M.bind_panic hx, M.bind_panic hx']; exact ⟨rfl, rfl, g3, g4, g5⟩

theorem SameRun.pure {S α : Type} (a : α) (s : S) : SameRun (Pure.pure a) (Pure.pure a) s :=
  fun _ _ h1 h2 h3 => ⟨rfl, rfl, h1, h2, h3⟩

theorem SameRun.fail {S α : Type} (e : SessionError) (s : S) :
    SameRun (M.fail e : M S α) (M.fail e) s := fun _ _ h1 h2 h3 => ⟨rfl, rfl, h1, h2, h3⟩

theorem SameRun.panic {S α : Type} (s : S) : SameRun (M.panic : M S α) M.panic s :=
  fun _ _ h1 h2 h3 => ⟨rfl, rfl, h1, h2, h3⟩

theorem SameRun.set {S : Type} (s s' : S) : SameRun (M.set s') (M.set s') s :=
  fun _ _ h1 h2 h3 => ⟨rfl, rfl, h1, h2, h3⟩

theorem SameRun.liftOutcome {S α : Type} (o : Outcome α) (s : S) :
    SameRun (M.liftOutcome o) (M.liftOutcome o) s := by
  cases o
  · exact .pure _ _
  · exact .fail _ _
  · exact .panic _

theorem SameRun.okOr {S α : Type} (e : SessionError) (o : Option α) (s : S) :
    SameRun (M.okOr e o) (M.okOr e o) s := by
  cases o
  · exact .fail _ _
  · exact .pure _ _

theorem SameRun.writeVectored {S : Type} (bs : List Bytes) (s : S) :
    SameRun (M.writeVectored bs) (M.writeVectored bs) s := by
  intro w w' h1 h2 h3
  unfold M.writeVectored
  rw [h1]
  split <;> exact ⟨rfl, rfl, rfl, h2, h3⟩

theorem SameRun.tryAction {S : Type} (env env' : Env) (p : Property) (ctx : Provider) (v : p.Value)
    (s : S) : SameRun (M.attempt (action env p ctx v) >>= fun _ => (Pure.pure () : M S Unit))
      (M.attempt (action env' p ctx v) >>= fun _ => Pure.pure ()) s := by
  have h : ∀ (env : Env) (w : World), ∃ es, (M.attempt (action env p ctx v) >>= fun _ =>
      (Pure.pure () : M S Unit)) s w = (.ok (), s, w.addLog es) := by
    intro env w
    obtain ⟨o, es, h1, h2, -⟩ := action_log env p ctx v s w
    cases o with
    | panic => exact absurd rfl h2
    | ok u => exact ⟨_, by rw [M.bind_apply, M.attempt_apply, h1]; rfl⟩
    | err e => exact ⟨_, by rw [M.bind_apply, M.attempt_apply, h1]; rfl⟩
  intro w w' h1 h2 h3
  obtain ⟨es, e⟩ := h env w
  obtain ⟨es', e'⟩ := h env' w'
  rw [e, e']
  exact ⟨rfl, rfl, h1, h2, h3⟩

/-- Not in the initial state any more. -/
def Underway (s : CS) : Prop := ∀ plus, s ≠ some (.initial plus)

/-- Two callbacks that have the same keys. -/
def SameKeys (d : Digest) (env env' : Env) : Prop :=
  ∀ salt it, ∃ ck sk, ClientKeys d env salt it ck sk ∧ ClientKeys d env' salt it ck sk

theorem clientStep_sameKeys {d : Digest} {env env' : Env} (h : SameKeys d env env') (n : Nat)
    (input : Option Bytes) (s : CS) (hs : Underway s) :
    SameRun (clientStep d n env input) (clientStep d n env' input) s := by
  have hget : ∀ (f f' : CS → M CS State), SameRun (f s) (f' s) s →
      SameRun (M.get >>= f) (M.get >>= f') s := fun f f' h => h
  unfold clientStep
  refine hget _ _ (.bind (.set _ _) fun _ s' => ?_)
  cases s with
  | none => exact .panic _
  | some st =>
    cases st with
    | initial plus => exact absurd rfl (hs plus)
    | clientFirst cb cn user =>
      refine .bind (.okOr _ _ _) fun b s' => .bind (.bind (.liftOutcome _ _) fun x s' =>
        .bind ?_ fun y s' => .bind (.writeVectored _ _) fun _ s' => .pure _ _) fun x s' =>
        .bind (.set _ _) fun _ s' => .pure _ _
      obtain ⟨ck, sk, k, k'⟩ := h x.2.2.2 x.2.2.1
      intro w w' h1 h2 h3
      obtain ⟨es, e⟩ := clientKeys_finds k s' w
      obtain ⟨es', e'⟩ := clientKeys_finds k' s' w'
      rw [e, e']
      exact ⟨rfl, rfl, h1, h2, h3⟩
    | serverFirst v ck sk salt it =>
      refine .bind (.okOr _ _ _) fun b s' => .bind (.bind (.liftOutcome _ _) fun x s' => ?_)
        fun _ s' => .pure _ _
      split
      · split
        · exact .fail _ _
        · split
          · exact .tryAction _ _ _ _ _ _
          · exact .fail _ _
      · exact .fail _ _

theorem clientStep_underway {d : Digest} {env : Env} {ses : Session CS} (hs : Underway ses.st)
    (c : Call) : Underway (ses.step (client d) env c).2.st := by
  rcases h : ses.step (client d) env c with ⟨r, ses'⟩
  obtain ⟨st, slot, rng, log⟩ := ses
  rcases hx : clientStep d nonceLen env c.input st ⟨⟨[], c.sched⟩, rng, slot, log⟩ with ⟨o, s', w'⟩
  have he : ses' = ⟨s', w'.slot, w'.rng, w'.log⟩ := by
    rw [step_of (m := client d) hx] at h
    cases h
    rfl
  subst he
  show Underway s'
  cases st with
  | none => cases hx; exact nofun
  | some st =>
    cases st with
    | initial plus => exact absurd rfl (hs plus)
    | clientFirst cb cn user =>
      rcases clientStep_second hx with ⟨-, rfl, -⟩ | ⟨_, _, _, _, _, _, _, -, -, -, -, ⟨-, rfl⟩ |
        ⟨-, new, _, _, _, _, _, rfl, k⟩⟩
      · exact nofun
      · exact nofun
      · rw [k.hnew]; exact nofun
    | serverFirst v ck sk salt it =>
      obtain ⟨rfl, -⟩ := clientStep_third hx
      exact nofun

/-- Once the client's first message is out, all that matters of a callback is which keys it has for
the server's salt and iteration count, not in which form it has them: sessions with callbacks that
have the same keys answer the same, whatever the server and the writer do. -/
theorem C45_keys (d : Digest) (env env' : Env) (h : SameKeys d env env') (a b : Session CS)
    (hst : a.st = b.st) (hslot : a.slot = b.slot) (hrng : a.rng = b.rng) (hu : Underway a.st)
    (calls : List Call) :
    (a.run (client d) env calls).1 = (b.run (client d) env' calls).1 ∧
    (a.run (client d) env calls).2.st = (b.run (client d) env' calls).2.st := by
  induction calls generalizing a b with
  | nil => exact ⟨rfl, hst⟩
  | cons c cs ih =>
    have hu' := clientStep_underway (d := d) (env := env) hu c
    obtain ⟨h1, h2, h3, h4, h5⟩ := clientStep_sameKeys h nonceLen c.input a.st hu
      ⟨⟨[], c.sched⟩, a.rng, a.slot, a.log⟩ ⟨⟨[], c.sched⟩, b.rng, b.slot, b.log⟩ rfl hrng hslot
    have hr : (a.step (client d) env c).1 = (b.step (client d) env' c).1 := by
      rw [hst] at h1 h3
      show Reply.mk (clientStep d nonceLen env c.input a.st _).1 _ =
        Reply.mk (clientStep d nonceLen env' c.input b.st _).1 _
      rw [hst]
      exact (congrArg (Reply.mk · _) h1).trans (congrArg (Reply.mk _ ·) (congrArg Writer.out h3))
    obtain ⟨i1, i2⟩ := ih (a.step (client d) env c).2 (b.step (client d) env' c).2
      (by show _ = (clientStep d nonceLen env' c.input b.st _).2.1; rw [← hst]; exact h2)
      (by show _ = (clientStep d nonceLen env' c.input b.st _).2.2.slot; rw [← hst]; exact h5)
      (by show _ = (clientStep d nonceLen env' c.input b.st _).2.2.rng; rw [← hst]; exact h4) hu'
    rw [run_cons, run_cons]
    exact ⟨by rw [hr, i1], i2⟩

/-- Cached keys, a salted password and a password are interchangeable. -/
theorem C45 (d : Digest) (hd : 0 < d.outLen) (cached salted plain : Env) (password : Bytes)
    (h1 : ∀ salt it, cached.GivesAt (saltOffer salt it) .scramCachedPassword
      (⟨clientKey d (d.pbkdf2 password salt it), serverKey d (d.pbkdf2 password salt it)⟩ :
        CachedPassword))
    (h2 : ∀ salt it, salted.LacksAt (saltOffer salt it) .scramCachedPassword ∧
      salted.GivesAt (saltOffer salt it) .saltedPassword (d.pbkdf2 password salt it))
    (h3 : ∀ salt it, plain.LacksAt (saltOffer salt it) .scramCachedPassword ∧
      plain.LacksAt (saltOffer salt it) .saltedPassword ∧
      plain.GivesAt (saltOffer salt it) .password password)
    (ses : Session CS) (hu : Underway ses.st) (calls : List Call) :
    (ses.run (client d) cached calls).1 = (ses.run (client d) plain calls).1 ∧
    (ses.run (client d) salted calls).1 = (ses.run (client d) plain calls).1 ∧
    (ses.run (client d) cached calls).2.st = (ses.run (client d) plain calls).2.st ∧
    (ses.run (client d) salted calls).2.st = (ses.run (client d) plain calls).2.st := by
  have k3 : ∀ salt it, ClientKeys d plain salt it (clientKey d (d.pbkdf2 password salt it))
      (serverKey d (d.pbkdf2 password salt it)) := fun salt it =>
    .inr ⟨(h3 salt it).1, .inr ⟨(h3 salt it).2.1, password, (h3 salt it).2.2, rfl, rfl⟩⟩
  have k1 : SameKeys d cached plain := fun salt it =>
    ⟨_, _, .inl ⟨h1 salt it, d.hmac_length .., d.hmac_length ..⟩, k3 salt it⟩
  have k2 : SameKeys d salted plain := fun salt it => by
    refine ⟨_, _, .inr ⟨(h2 salt it).1, .inl ⟨d.pbkdf2 password salt it, ?_, (h2 salt it).2, rfl, rfl⟩⟩,
      k3 salt it⟩
    intro hn
    have := d.pbkdf2_length password salt it
    rw [hn] at this
    simp at this
    omega
  obtain ⟨a1, a2⟩ := C45_keys d _ _ k1 ses ses rfl rfl rfl hu calls
  obtain ⟨b1, b2⟩ := C45_keys d _ _ k2 ses ses rfl rfl rfl hu calls
  exact ⟨a1, b1, a2, b2⟩

/-- How the second step asks for the keys, in every case. -/
theorem client_second_asks (d : Digest) (env : Env) (ses : Session CS) (cb cn : Bytes) (user : Str)
    (hst : ses.st = some (.clientFirst cb cn user)) (c : Call) :
    ∃ es, (ses.step (client d) env c).2.log = ses.log ++ es ∧
      (es = [] ∨ ∃ salt it, KeyAsks env ses.log (clientProvider salt it) es) := by
  obtain ⟨st, slot, rng, log⟩ := ses
  dsimp only at hst
  subst hst
  let w : World := ⟨⟨[], c.sched⟩, rng, slot, log⟩
  show ∃ es, (clientStep d nonceLen env c.input (some (.clientFirst cb cn user)) w).2.2.log =
    w.log ++ es ∧ _
  rcases h : clientStep d nonceLen env c.input (some (.clientFirst cb cn user)) w with ⟨o, s', w'⟩
  show ∃ es, w'.log = _ ∧ _
  rcases clientStep_second h with ⟨-, -, rfl, -⟩ | ⟨b, sn, salt64, it64, salt, it, es, hb, hg, hl, -, -⟩
  · exact ⟨[], by simp, .inl rfl⟩
  · refine ⟨es, hl, .inr ⟨salt, it, ?_⟩⟩
    obtain ⟨r, es', e, ha⟩ := clientKeys_asks d env salt it none w
    suffices hsuf : w'.log = w.log ++ es' by
      rw [hl] at hsuf
      rw [List.append_cancel_left hsuf]
      exact ha
    have hc := (checkServerFirst_eq_ok (sf := ⟨cn ++ sn, none, salt64, it64⟩)).2 ⟨rfl, hg⟩
    unfold clientStep at h
    rw [M.bind_ok (M.get_apply ..), M.bind_ok (M.set_apply ..), hb] at h
    dsimp only at h
    rw [M.bind_ok (M.okOr_some ..)] at h
    unfold handleServerFirst at h
    rw [hc, M.bind_apply, M.bind_ok (M.liftOutcome_apply ..)] at h
    dsimp only at h
    cases r with
    | err x => rw [M.bind_err e] at h; cases h; rfl
    | panic => rw [M.bind_panic e] at h; cases h; rfl
    | ok keys =>
      rw [M.bind_ok e] at h
      rw [M.bind_apply] at h
      obtain ⟨k, sched, -, -, hx | ⟨x, hx⟩⟩ := M.writeVectored_cases (ClientFinal.ioslices
        ⟨cb, cn ++ sn, Base64.encode (xor keys.1 (computeSignatures d (d.hash keys.1) keys.2 user cn
          sn salt64 it64 cb).1)⟩) (none : CS) (w.addLog es')
      all_goals
        rw [hx] at h
        cases h
        rfl

/-- In every session of a SCRAM client, whatever the callback does: the user's secrets are asked for
in one piece, cached keys first, the salted password only if the request for cached keys was not
just answered, the password only if the request for the salted password was not just answered
either (with something not empty). -/
theorem C45_order (d : Digest) (env : Env) (ses : Session CS) (plus : CbSupport)
    (hst : ses.st = some (.initial plus)) (calls : List Call) :
    ∃ pre mid post, (ses.run (client d) env calls).2.log = ses.log ++ (pre ++ mid ++ post) ∧
      (∀ e ∈ pre, ¬ Secret e) ∧ (∀ e ∈ post, ¬ Secret e) ∧
      (mid = [] ∨ ∃ salt it, KeyAsks env (ses.log ++ pre)
        (.chain [⟨.salt, salt⟩, ⟨.iterations, it⟩]) mid) := by
  have hno : ∀ {e}, Concerns firstAsks e → ¬ Secret e := by
    intro e h1 h2
    cases e with
    | asked p ctx => revert h1; rcases h2 with rfl | rfl | rfl <;> (show ¬ _ ∈ firstAsks) <;> decide
    | answered p v => revert h1; rcases h2 with rfl | rfl | rfl <;> (show ¬ _ ∈ firstAsks) <;> decide
    | _ => exact h2
  cases calls with
  | nil => exact ⟨[], [], [], by simp [Session.run], nofun, nofun, .inl rfl⟩
  | cons c0 cs =>
    rcases h0 : ses.step (client d) env c0 with ⟨r0, s0⟩
    obtain ⟨es0, l0, a0, h⟩ := client_first d env ses plus hst c0 r0 s0 h0
    have a0 : ∀ e ∈ es0, ¬ Secret e := fun e he => hno (a0 e he)
    rw [run_cons, h0]
    dsimp only
    rcases h with ⟨n0, d0⟩ | ⟨gs2, cb, name, user, nonce, f0, st0⟩
    · refine ⟨es0, [], [], ?_, a0, nofun, .inl rfl⟩
      rw [client_dead d env s0 d0, l0]
      simp
    · cases cs with
      | nil => exact ⟨es0, [], [], by simp [Session.run, l0], a0, nofun, .inl rfl⟩
      | cons c1 cs =>
        obtain ⟨es1, l1, a1⟩ := client_second_asks d env s0 _ _ _ st0 c1
        rcases h1 : s0.step (client d) env c1 with ⟨r1, s1⟩
        rw [h1] at l1
        dsimp only at l1
        rw [run_cons, h1]
        dsimp only
        have hrest : ∃ es2, (s1.run (client d) env cs).2.log = s1.log ++ es2 ∧
            ∀ e ∈ es2, ¬ Secret e := by
          have hd : s1.st = none → ∃ es2, (s1.run (client d) env cs).2.log = s1.log ++ es2 ∧
              ∀ e ∈ es2, ¬ Secret e := by
            intro d1
            rw [client_dead d env s1 d1]
            exact ⟨[], by simp, nofun⟩
          rcases client_second d env s0 _ _ _ st0 c1 r1 s1 h1 with ⟨-, -, d1, -⟩ |
            ⟨b, sn, salt64, it64, salt, it, es1, -, -, -, -, ⟨-, d1⟩ | ⟨ck, sk, auth, f1, st1⟩⟩
          · exact hd d1
          · exact hd d1
          · cases cs with
            | nil => exact ⟨[], by simp [Session.run], nofun⟩
            | cons c2 cs =>
              rcases h2 : s1.step (client d) env c2 with ⟨r2, s2⟩
              obtain ⟨-, d2, ⟨-, -, es2, l2, q2⟩ | ⟨-, -, l2⟩⟩ :=
                client_third d env s1 _ _ _ _ _ st1 c2 r2 s2 h2
              · rw [run_cons, h2]
                dsimp only
                rw [client_dead d env s2 d2]
                refine ⟨_, l2, fun e he => ?_⟩
                rcases q2 with rfl | rfl <;> simp at he
                · rw [he]; exact id
                · rcases he with rfl | rfl <;> exact id
              · rw [run_cons, h2]
                dsimp only
                rw [client_dead d env s2 d2]
                exact ⟨[], by simp [l2], nofun⟩
        obtain ⟨es2, l2, a2⟩ := hrest
        refine ⟨es0, es1, es2, by rw [l2, l1, l0]; simp, a0, a2, ?_⟩
        rw [← l0]
        exact a1

/-- Three callbacks with the same keys, in three forms. -/
def haveCached : Env := ⟨fun _ _ ctx => answerAll (⟨.authId, c!"user"⟩ ::
    match ctx.getRef .salt, ctx.getRef .iterations with
    | some (salt : Bytes), some (it : UInt32) => [⟨.scramCachedPassword,
        (⟨clientKey toyDigest (toyDigest.pbkdf2 (b!"pw") salt it),
          serverKey toyDigest (toyDigest.pbkdf2 (b!"pw") salt it)⟩ : CachedPassword)⟩]
    | _, _ => []), fun _ _ _ => .ret (.ok ()), fun _ => none, 0, ⟨⟨b!"X", 0, .client⟩, .client⟩⟩

def haveSalted : Env := ⟨fun _ _ ctx => answerAll (⟨.authId, c!"user"⟩ ::
    match ctx.getRef .salt, ctx.getRef .iterations with
    | some (salt : Bytes), some (it : UInt32) => [⟨.saltedPassword,
        toyDigest.pbkdf2 (b!"pw") salt it⟩]
    | _, _ => []), fun _ _ _ => .ret (.ok ()), fun _ => none, 0, ⟨⟨b!"X", 0, .client⟩, .client⟩⟩

def havePassword : Env := twin (b!"pw")

/-- The first message is out. -/
def sentFirst : Session CS :=
  { st := some (.clientFirst (b!"eSws") (List.replicate 24 33) (c!"user")), rng := fun _ => 0 }

example (calls : List Call) : (sentFirst.run (client toyDigest) haveCached calls).1 =
      (sentFirst.run (client toyDigest) havePassword calls).1 ∧
    (sentFirst.run (client toyDigest) haveSalted calls).1 =
      (sentFirst.run (client toyDigest) havePassword calls).1 := by
  have := C45 toyDigest (by decide) haveCached haveSalted havePassword (b!"pw") ?_ ?_ ?_ sentFirst
    nofun calls
  · exact ⟨this.1, this.2.1⟩
  · intro salt it l ctx hx
    have h1 : ctx.getRef .salt = some salt := hx .salt
    have h2 : ctx.getRef .iterations = some it := hx .iterations
    show Answers _ _ (answerAll _)
    rw [h1, h2]
    exact answers_answerAll _ [⟨.authId, c!"user"⟩] [] rfl (by simp)
  · intro salt it
    have : ∀ (ctx : Provider), ctx.Exactly (saltOffer salt it) → ∀ l, haveSalted.callback l haveSalted.sd ctx =
        answerAll [⟨.authId, c!"user"⟩, ⟨.saltedPassword, toyDigest.pbkdf2 (b!"pw") salt it⟩] := by
      intro ctx hx l
      have h1 : ctx.getRef .salt = some salt := hx .salt
      have h2 : ctx.getRef .iterations = some it := hx .iterations
      show answerAll _ = _
      rw [h1, h2]
    refine ⟨fun l ctx hx => ?_, fun l ctx hx => ?_⟩
    · rw [this ctx hx l]
      exact declines_answerAll _ (by simp)
    · rw [this ctx hx l]
      exact answers_answerAll _ [⟨.authId, c!"user"⟩] [] rfl (by simp)
  · intro salt it
    refine ⟨fun l ctx _ => declines_answerAll _ (by simp), fun l ctx _ => declines_answerAll _ (by simp),
      fun l ctx _ => answers_answerAll _ [⟨.authId, c!"user"⟩] [] rfl (by simp)⟩

/-- They do send the final message, and are asked in this order. -/
example :
    let run := fun env => sentFirst.run (client toyDigest) env [⟨some (serverFirst
      (List.replicate 24 33 ++ b!"xyz") (b!"AAEC") (b!"4096")), []⟩]
    ((run haveCached).1.map (·.res) = [.ok .running] ∧
      askedProps (run haveCached).2.log = [.scramCachedPassword]) ∧
    ((run haveSalted).1.map (·.res) = [.ok .running] ∧
      askedProps (run haveSalted).2.log = [.scramCachedPassword, .saltedPassword]) ∧
    ((run havePassword).1.map (·.res) = [.ok .running] ∧
      askedProps (run havePassword).2.log = [.scramCachedPassword, .saltedPassword, .password]) := by
  decide +kernel

end Rsasl.Scram

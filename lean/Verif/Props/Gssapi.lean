/-
GSSAPI: which security layer the two sides end up with (C39, C40), and contexts that need several
tokens (C41).
-/
import Verif.Proofs.GssRun
import Verif.Proofs.Exec
import Verif.Spec.Examples

namespace Rsasl.Gssapi

open Spec

variable {lib : Lib}

/-! ## Layers in force -/

theorem layerEncode_passes {S : Type} (put : lib.Ctx → S) (ctx : lib.Ctx) (e : Bool) (x : Bytes)
    (sched : List WResp) (st : S) (slot : Option VVal) (rng : Nat → Nat) (log : List Event) :
    (Session.exec ⟨st, slot, rng, log⟩ (layerEncode lib put ctx e x) sched).1 =
      passedOn x.length sched (lib.wrap ctx e x).1 ∧
    (Session.exec ⟨st, slot, rng, log⟩ (layerEncode lib put ctx e x) sched).2.st =
      put (lib.wrap ctx e x).2 := by
  unfold layerEncode Session.exec
  rcases lib.wrap ctx e x with ⟨res, c⟩
  dsimp only
  rw [M.bind_ok (M.set_apply ..)]
  cases res with
  | error n => exact ⟨rfl, rfl⟩
  | ok b =>
    rw [M.bind_ok (liftGss_ok rfl ..)]
    unfold passedOn
    dsimp only
    simp only [M.bind_apply, M.writeAll]
    rcases Writer.writeAll ⟨[], sched⟩ b with ⟨r, wr⟩
    cases r <;> exact ⟨rfl, rfl⟩

theorem layerDecode_passes {S : Type} (put : lib.Ctx → S) (ctx : lib.Ctx) (x : Bytes)
    (sched : List WResp) (st : S) (slot : Option VVal) (rng : Nat → Nat) (log : List Event) :
    (Session.exec ⟨st, slot, rng, log⟩ (layerDecode lib put ctx x) sched).1 =
      passedOn x.length sched (lib.unwrap ctx x).1 ∧
    (Session.exec ⟨st, slot, rng, log⟩ (layerDecode lib put ctx x) sched).2.st =
      put (lib.unwrap ctx x).2 := by
  unfold layerDecode Session.exec
  rcases lib.unwrap ctx x with ⟨res, c⟩
  dsimp only
  rw [M.bind_ok (M.set_apply ..)]
  cases res with
  | error n => exact ⟨rfl, rfl⟩
  | ok b =>
    rw [M.bind_ok (liftGss_ok rfl ..)]
    unfold passedOn
    dsimp only
    simp only [M.bind_apply, M.writeAll]
    rcases Writer.writeAll ⟨[], sched⟩ b with ⟨r, wr⟩
    cases r <;> exact ⟨rfl, rfl⟩

theorem client_inForce (ses : Session (CState lib)) (l : Layer) (ctx : lib.Ctx)
    (h : ses.st = .completed (l.protect ctx)) : InForceFrom lib (client lib) ses ctx l := by
  have hkeep : ∀ (e : Bool) env (us : List Use) (ses : Session (CState lib)) (ctx : lib.Ctx),
      ses.st = .completed (some (ctx, e)) →
      (ses.performAll (client lib) env (us.map Use.op)).1 = (layered lib e ctx us).map .count ∧
      (ses.afterAll (client lib) env (us.map Use.op)).hasSecurityLayer (client lib) = true := by
    intro e env us
    induction us with
    | nil => rintro ⟨_, slot, rng, log⟩ ctx rfl; exact ⟨rfl, rfl⟩
    | cons u us ih =>
      rintro ⟨_, slot, rng, log⟩ ctx rfl
      cases u with
      | encode x sched =>
        have h1 : (Session.encode (client lib) ⟨.completed (some (ctx, e)), slot, rng, log⟩ x sched).1 =
            passedOn x.length sched (lib.wrap ctx e x).1 ∧
            (Session.encode (client lib) ⟨.completed (some (ctx, e)), slot, rng, log⟩ x sched).2.st =
            .completed (some ((lib.wrap ctx e x).2, e)) :=
            layerEncode_passes (fun c => CState.completed (some (c, e))) ctx e x sched _ _ _ _
        have h2 := ih _ _ h1.2
        exact ⟨congr (congrArg (fun a => List.cons (Answer.count a)) h1.1) h2.1, h2.2⟩
      | decode x sched =>
        have h1 : (Session.decode (client lib) ⟨.completed (some (ctx, e)), slot, rng, log⟩ x sched).1 =
            passedOn x.length sched (lib.unwrap ctx x).1 ∧
            (Session.decode (client lib) ⟨.completed (some (ctx, e)), slot, rng, log⟩ x sched).2.st =
            .completed (some ((lib.unwrap ctx x).2, e)) :=
            layerDecode_passes (fun c => CState.completed (some (c, e))) ctx x sched _ _ _ _
        have h2 := ih _ _ h1.2
        exact ⟨congr (congrArg (fun a => List.cons (Answer.count a)) h1.1) h2.1, h2.2⟩
  cases l with
  | none =>
    obtain ⟨_, slot, rng, log⟩ := ses
    cases h
    refine ⟨rfl, fun env us => ?_⟩
    induction us with
    | nil => rfl
    | cons u us ih => cases u <;> exact congrArg (_ :: ·) ih
  | integrity => exact fun env us => hkeep false env us ses ctx h
  | confidentiality => exact fun env us => hkeep true env us ses ctx h

theorem server_inForce (ses : Session (SState lib)) (l : Layer) (ctx : lib.Ctx)
    (h : ses.st = .done (l.protect ctx)) : InForceFrom lib (server lib) ses ctx l := by
  have hkeep : ∀ (e : Bool) env (us : List Use) (ses : Session (SState lib)) (ctx : lib.Ctx),
      ses.st = .done (some (ctx, e)) →
      (ses.performAll (server lib) env (us.map Use.op)).1 = (layered lib e ctx us).map .count ∧
      (ses.afterAll (server lib) env (us.map Use.op)).hasSecurityLayer (server lib) = true := by
    intro e env us
    induction us with
    | nil => rintro ⟨_, slot, rng, log⟩ ctx rfl; exact ⟨rfl, rfl⟩
    | cons u us ih =>
      rintro ⟨_, slot, rng, log⟩ ctx rfl
      cases u with
      | encode x sched =>
        have h1 : (Session.encode (server lib) ⟨.done (some (ctx, e)), slot, rng, log⟩ x sched).1 =
            passedOn x.length sched (lib.wrap ctx e x).1 ∧
            (Session.encode (server lib) ⟨.done (some (ctx, e)), slot, rng, log⟩ x sched).2.st =
            .done (some ((lib.wrap ctx e x).2, e)) :=
            layerEncode_passes (fun c => SState.done (some (c, e))) ctx e x sched _ _ _ _
        have h2 := ih _ _ h1.2
        exact ⟨congr (congrArg (fun a => List.cons (Answer.count a)) h1.1) h2.1, h2.2⟩
      | decode x sched =>
        have h1 : (Session.decode (server lib) ⟨.done (some (ctx, e)), slot, rng, log⟩ x sched).1 =
            passedOn x.length sched (lib.unwrap ctx x).1 ∧
            (Session.decode (server lib) ⟨.done (some (ctx, e)), slot, rng, log⟩ x sched).2.st =
            .done (some ((lib.unwrap ctx x).2, e)) :=
            layerDecode_passes (fun c => SState.done (some (c, e))) ctx x sched _ _ _ _
        have h2 := ih _ _ h1.2
        exact ⟨congr (congrArg (fun a => List.cons (Answer.count a)) h1.1) h2.1, h2.2⟩
  cases l with
  | none =>
    obtain ⟨_, slot, rng, log⟩ := ses
    cases h
    refine ⟨rfl, fun env us => ?_⟩
    induction us with
    | nil => rfl
    | cons u us ih => cases u <;> exact congrArg (_ :: ·) ih
  | integrity => exact fun env us => hkeep false env us ses ctx h
  | confidentiality => exact fun env us => hkeep true env us ses ctx h

/-! ## C39: the client -/

theorem initiated_snoc (c : lib.Ctx) (is : List (Option Bytes)) (i : Option Bytes) :
    initiated lib c (is ++ [i]) = (initiated lib c is).bind fun c =>
      match lib.clientStep c i with
      | (.ok _, c) => some c
      | (.error _, _) => none := by
  induction is generalizing c with
  | nil =>
    simp only [List.nil_append, initiated, Option.bind_some]
    rcases lib.clientStep c i with ⟨r, c'⟩
    cases r <;> rfl
  | cons j is ih =>
    simp only [List.cons_append, initiated]
    rcases lib.clientStep c j with ⟨r, c'⟩
    cases r with
    | error n => rfl
    | ok t => exact ih c'

/-- `ctx` is the initiator's context after the inputs of `calls`. -/
def InitiatedBy (lib : Lib) (calls : List Call) (ctx : lib.Ctx) : Prop :=
  ∃ name c₀, lib.newClient name = .ok c₀ ∧ initiated lib c₀ (calls.map (·.input)) = some ctx

/-- What is known about the state of a client session after `calls`, when the value `A` allows is
what the user allowed. -/
def ClientInv (lib : Lib) (A : lib.Ctx → List Event → UInt8 → Prop) (calls : List Call)
    (ses : Session (CState lib)) : Prop :=
  match ses.st with
  | .initial => calls = []
  | .pending ctx => InitiatedBy lib calls ctx
  | .last ctx acc => InitiatedBy lib calls ctx ∧ lib.isComplete ctx = true ∧ A ctx ses.log acc.bits
  | .completed _ => True
  | .errored => True

theorem InitiatedBy.snoc {calls : List Call} {ctx : lib.Ctx} (h : InitiatedBy lib calls ctx)
    (c : Call) {tok : Option Bytes} {ctx' : lib.Ctx}
    (hs : lib.clientStep ctx c.input = (.ok tok, ctx')) : InitiatedBy lib (calls ++ [c]) ctx' := by
  obtain ⟨name, c₀, h1, h2⟩ := h
  refine ⟨name, c₀, h1, ?_⟩
  rw [List.map_append, List.map_singleton, initiated_snoc, h2]
  simp only [Option.bind_some, hs]

/-- What is known about the user's answer to the question for acceptable layers, asked when the
context is `ctx`. -/
def Answered (lib : Lib) (env : Env) (A : lib.Ctx → List Event → UInt8 → Prop) : Prop :=
  ∀ ctx w r w', maybeNeedWith env .gssSecurityLayer .empty (clientAcceptable lib ctx) .errored w =
    (.ok r, .errored, w') → A ctx w'.log (allowed r)

theorem clientInv_step {env : Env} {A : lib.Ctx → List Event → UInt8 → Prop}
    (hA : Answered lib env A)
    (pre : List Call) (ses : Session (CState lib)) (c : Call) (h : ClientInv lib A pre ses) :
    ClientInv lib A (pre ++ [c]) (ses.step (client lib) env c).2 := by
  have hpend : ∀ ctx w r, InitiatedBy lib pre ctx → Pended lib env ctx c.input w r →
      ClientInv lib A (pre ++ [c]) ⟨r.2.1, r.2.2.slot, r.2.2.rng, r.2.2.log⟩ := by
    intro ctx w r hi hp
    cases hp with
    | failed o w' h h' => trivial
    | more tok ctx' w' hs hc => exact hi.snoc c hs
    | complete tok ctx' w₁ r w' hs hc hr => exact ⟨hi.snoc c hs, hc, hA _ _ _ _ hr⟩
  have hm := clientStep_cases (lib := lib) env c.input ses.st
    { wr := ⟨[], c.sched⟩, rng := ses.rng, slot := ses.slot, log := ses.log }
  have hs : (ses.step (client lib) env c).2 =
      (fun r : Outcome State × CState lib × World => (⟨r.2.1, r.2.2.slot, r.2.2.rng, r.2.2.log⟩ : Session _))
      (clientStep lib env c.input ses.st
        { wr := ⟨[], c.sched⟩, rng := ses.rng, slot := ses.slot, log := ses.log }) := rfl
  rw [hs]
  unfold ClientInv at h
  generalize hst : ses.st = st at hm h
  generalize clientStep lib env c.input st _ = r at hm ⊢
  cases hm with
  | failed st o w' h h' => trivial
  | start name ctx w₁ r hn hp =>
    cases h
    exact hpend ctx w₁ r ⟨name, ctx, hn, rfl⟩ hp
  | next ctx r hp => exact hpend ctx _ r h hp
  | finish ctx acc b ctx₁ wrapped ctx₂ w' bits l resp hi hlt hu hl hr hw hout => trivial

/-- A client that finishes: what its last step consisted of. -/
theorem client_finishes {env : Env} {A : lib.Ctx → List Event → UInt8 → Prop}
    (hA : Answered lib env A)
    (rng : Nat → Nat) (calls : List Call) (c : Call) {ses ses' : Session (CState lib)}
    {r : Reply State} {k : MessageSent}
    (hrun : (Session.run (client lib) env { st := .initial, rng := rng } calls).2 = ses)
    (hstep : ses.step (client lib) env c = (r, ses')) (hfin : r.res = .ok (.finished k)) :
    ∃ l bits acc ctx b, c.input = some b ∧ InitiatedBy lib calls ctx ∧ lib.isComplete ctx = true ∧
      LayerToken lib ctx b bits ∧ A ctx ses'.log acc ∧ Strongest bits acc l ∧
      InForce lib (client lib) ses' l ∧ k = .yes ∧
      ∃ ctx₁ ctx₂ x y z, lib.wrap ctx₁ false [l.only, x, y, z] = (.ok r.out, ctx₂) := by
  have hinv : ClientInv lib A calls ses := by
    have := run_induction (m := client lib) (I := ClientInv lib A) (clientInv_step hA) calls []
      { st := .initial, rng := rng } rfl
    rw [hrun] at this
    exact this
  have hm := clientStep_cases (lib := lib) env c.input ses.st
    { wr := ⟨[], c.sched⟩, rng := ses.rng, slot := ses.slot, log := ses.log }
  have hs : ses.step (client lib) env c =
      (fun r : Outcome State × CState lib × World =>
        ((⟨r.1, r.2.2.wr.out⟩ : Reply State), (⟨r.2.1, r.2.2.slot, r.2.2.rng, r.2.2.log⟩ : Session _)))
      (clientStep lib env c.input ses.st
        { wr := ⟨[], c.sched⟩, rng := ses.rng, slot := ses.slot, log := ses.log }) := rfl
  rw [hs] at hstep
  clear hs hrun
  unfold ClientInv at hinv
  obtain ⟨st, slot, rng', log⟩ := ses
  dsimp only at hm hinv hstep
  generalize clientStep lib env c.input st _ = x at hm hstep
  have hpend : ∀ ctx w x, Pended lib env ctx c.input w x → x.1 ≠ .ok (.finished k) := by
    intro ctx w x hp
    cases hp with
    | failed o w' h h' => exact h' k
    | more => nofun
    | complete => nofun
  cases hm with
  | failed st o w' h h' => cases hstep; exact absurd hfin (h' k)
  | start name ctx w₁ r hn hp => cases hstep; exact absurd hfin (hpend _ _ _ hp)
  | next ctx r hp => cases hstep; exact absurd hfin (hpend _ _ _ hp)
  | finish ctx acc b ctx₁ wrapped ctx₂ w' bits l resp hi hlt hu hl hr hw hout =>
    cases hstep
    cases hfin
    obtain ⟨hi1, hi2, hi3⟩ := hinv
    obtain ⟨x, y, z, hu⟩ := hu
    obtain ⟨ho, hlog⟩ := M.writeAll_eq_ok hout
    simp only [List.nil_append] at ho
    dsimp only at hlog
    rw [← hlog] at hi3
    refine ⟨l, bits, acc.bits, ctx, b, hi, hi1, hi2, ⟨hlt, x, y, z, ctx₁, hu⟩, hi3, hl,
      ⟨ctx₂, client_inForce _ l ctx₂ rfl⟩, rfl, ctx₁, ctx₂, ?_⟩
    obtain ⟨h1, h2⟩ := hr
    match resp, h1, h2 with
    | [_, x, y, z], rfl, _ => exact ⟨x, y, z, hw.trans (by rw [ho])⟩

theorem clientAcceptable_err {ctx : lib.Ctx} {v : SecurityLayer} {s s' : CState lib} {w w' : World}
    {e : SessionError} (h : clientAcceptable lib ctx v s w = (.err e, s', w')) :
    ∃ m, e = .mechanismError m := by
  unfold clientAcceptable at h
  cases hf : lib.flags ctx with
  | error n => rw [hf, M.bind_err (liftGss_error rfl s w)] at h; cases h; exact ⟨_, rfl⟩
  | ok fl =>
    rw [hf, M.bind_ok (liftGss_ok rfl s w)] at h
    repeat' split at h
    all_goals first | (cases h; done) | (cases h; exact ⟨_, rfl⟩)

theorem clientAcceptable_no_panic {ctx : lib.Ctx} {v : SecurityLayer} {s s' : CState lib}
    {w w' : World} : clientAcceptable lib ctx v s w ≠ (.panic, s', w') := by
  intro h
  unfold clientAcceptable at h
  cases hf : lib.flags ctx with
  | error n => rw [hf, M.bind_err (liftGss_error rfl s w)] at h; cases h
  | ok fl =>
    rw [hf, M.bind_ok (liftGss_ok rfl s w)] at h
    repeat' split at h
    all_goals cases h

/-- With a well-behaved callback, what counts is its answer. -/
theorem answered_offers {env : Env} {o : Option SecurityLayer}
    (ho : env.Offers .gssSecurityLayer o) :
    Answered lib env (fun _ _ a => a = allowed o) := by
  intro ctx w r w' h
  cases o with
  | none =>
    rw [maybeNeedWith_declines (ho w.log .empty)] at h
    cases h
    rfl
  | some a =>
    obtain ⟨es, hq, he⟩ := maybeNeedWith_answers (ho w.log .empty) (clientAcceptable lib ctx)
      CState.errored
    rw [he] at h
    rcases hf : clientAcceptable lib ctx a .errored
      (w.addLog (.asked .gssSecurityLayer .empty :: es ++ [.answered .gssSecurityLayer a]))
      with ⟨o, s, w₁⟩
    rw [hf] at h
    cases o with
    | ok g =>
      obtain ⟨rfl, -⟩ := clientAcceptable_ok hf
      cases h
      rfl
    | err e =>
      obtain ⟨m, rfl⟩ := clientAcceptable_err hf
      cases h
    | panic => cases h

/-- With any callback, either an answer given counts, or nothing was answered that counts and
everything is allowed. -/
theorem answered_any (env : Env) : Answered lib env (fun _ log a =>
    a = 7 ∨ ∃ v : SecurityLayer, .answered .gssSecurityLayer v ∈ log ∧ a = v.bits) := by
  intro ctx w r w' h
  cases r with
  | none => exact .inl rfl
  | some a =>
    obtain ⟨v, es, es', w₁, hq, hq', hf, rfl⟩ := maybeNeedWith_some h
    obtain ⟨rfl, rfl⟩ := clientAcceptable_ok hf
    exact .inr ⟨a, by simp, rfl⟩

/-- Full C39: whatever the callback answered allows the layer in force (and it is the strongest
such layer the server offered). Not true: see `C39_false`. -/
def C39 : Prop :=
  ∀ (lib : Lib) (env : Env) (rng : Nat → Nat) (calls : List Call) (c : Call)
    (r : Reply State) (ses' : Session (CState lib)) (k : MessageSent),
    (Session.run (client lib) env { st := .initial, rng := rng } calls).2.step (client lib) env c =
      (r, ses') → r.res = .ok (.finished k) →
    ∃ l bits, (∃ ctx b, c.input = some b ∧ LayerToken lib ctx b bits) ∧
      InForce lib (client lib) ses' l ∧ Allows bits l ∧
      ∀ a : SecurityLayer, .answered .gssSecurityLayer a ∈ ses'.log → Strongest bits a.bits l

/-- C39 for callbacks that answer the question for acceptable layers always in the same way and
hand on the result, or never answer it. When the client's step returns Finished, its input was
(under the context established by the inputs before) the server's set of layers; the layer then in
force is the strongest one in that set and the user's, and it is the one named in the answer
sent. Missing from the full claim: callbacks that hide a failed `satisfy`, or answer twice; there
the answer is forgotten and every layer counts as acceptable (`C39_any_partial`, `C39_false`). -/
theorem C39_partial {env : Env} {o : Option SecurityLayer} (ho : env.Offers .gssSecurityLayer o)
    (rng : Nat → Nat) (calls : List Call) (c : Call) {ses' : Session (CState lib)}
    {r : Reply State} {k : MessageSent}
    (hstep : (Session.run (client lib) env { st := .initial, rng := rng } calls).2.step
      (client lib) env c = (r, ses')) (hfin : r.res = .ok (.finished k)) :
    ∃ l bits ctx b, c.input = some b ∧ InitiatedBy lib calls ctx ∧ lib.isComplete ctx = true ∧
      LayerToken lib ctx b bits ∧ Strongest bits (allowed o) l ∧
      InForce lib (client lib) ses' l ∧
      ∃ ctx₁ ctx₂ x y z, lib.wrap ctx₁ false [l.only, x, y, z] = (.ok r.out, ctx₂) := by
  obtain ⟨l, bits, acc, ctx, b, h1, h2, h3, h4, rfl, h6, h7, -, h8⟩ :=
    client_finishes (answered_offers ho) rng calls c rfl hstep hfin
  exact ⟨l, bits, ctx, b, h1, h2, h3, h4, h6, h7, h8⟩

/-- C39 for arbitrary callbacks: the layer in force is the strongest in the server's set and in
either a set the callback answered during the session, or the set of all layers. -/
theorem C39_any_partial (env : Env) (rng : Nat → Nat) (calls : List Call) (c : Call)
    {ses' : Session (CState lib)} {r : Reply State} {k : MessageSent}
    (hstep : (Session.run (client lib) env { st := .initial, rng := rng } calls).2.step
      (client lib) env c = (r, ses')) (hfin : r.res = .ok (.finished k)) :
    ∃ l bits acc ctx b, c.input = some b ∧ InitiatedBy lib calls ctx ∧ lib.isComplete ctx = true ∧
      LayerToken lib ctx b bits ∧ Strongest bits acc l ∧ InForce lib (client lib) ses' l ∧
      (acc = 7 ∨ ∃ v : SecurityLayer, .answered .gssSecurityLayer v ∈ ses'.log ∧ acc = v.bits) := by
  obtain ⟨l, bits, acc, ctx, b, h1, h2, h3, h4, h5, h6, h7, -, -⟩ :=
    client_finishes (answered_any env) rng calls c rfl hstep hfin
  exact ⟨l, bits, acc, ctx, b, h1, h2, h3, h4, h6, h7, h5⟩

/-- A client session has a layer only right after the step that returned Finished. -/
theorem C39_layer_finished (env : Env) (ses : Session (CState lib)) (c : Call) :
    (ses.step (client lib) env c).2.hasSecurityLayer (client lib) = true →
    ∃ k, (ses.step (client lib) env c).1.res = .ok (.finished k) := by
  intro h
  have hm := clientStep_cases (lib := lib) env c.input ses.st
    { wr := ⟨[], c.sched⟩, rng := ses.rng, slot := ses.slot, log := ses.log }
  have h : clientHasLayer lib (clientStep lib env c.input ses.st
    { wr := ⟨[], c.sched⟩, rng := ses.rng, slot := ses.slot, log := ses.log }).2.1 = true := h
  show ∃ k, (clientStep lib env c.input ses.st
    { wr := ⟨[], c.sched⟩, rng := ses.rng, slot := ses.slot, log := ses.log }).1 = .ok (.finished k)
  generalize ses.st = st at hm h
  generalize clientStep lib env c.input st _ = x at hm h
  have hpend : ∀ ctx w x, Pended lib env ctx c.input w x → clientHasLayer lib x.2.1 = false := by
    intro ctx w x hp
    cases hp <;> rfl
  cases hm with
  | failed st o w' h h' => cases h
  | start name ctx w₁ r hn hp => rw [hpend _ _ _ hp] at h; cases h
  | next ctx r hp => rw [hpend _ _ _ hp] at h; cases h
  | finish => exact ⟨_, rfl⟩

/-! ### An example and the counterexample -/

/-- A library like `toyGss` whose contexts have the given flags. -/
def flagGss (fl : Flags) : Lib := { toyGss with flags := fun _ => .ok fl }

/-- The user wants integrity or confidentiality; the server has integrity or nothing. -/
example : ∃ r ses', (Session.run (client toyGss) (exampleEnv [⟨.gssService, c!"imap"⟩,
      ⟨.hostname, c!"h"⟩, ⟨.gssSecurityLayer, (⟨6⟩ : SecurityLayer)⟩])
      { st := .initial, rng := fun _ => 0 } [⟨none, []⟩]).2.step (client toyGss)
      (exampleEnv [⟨.gssService, c!"imap"⟩, ⟨.hostname, c!"h"⟩,
        ⟨.gssSecurityLayer, (⟨6⟩ : SecurityLayer)⟩])
      ⟨some [3, 255, 255, 255], []⟩ = (r, ses') ∧ r.res = .ok (.finished .yes) ∧
      r.out = [2, 255, 255, 255] := ⟨_, _, rfl, by decide +kernel, by decide +kernel⟩

example : (exampleEnv [⟨.gssService, c!"imap"⟩, ⟨.hostname, c!"h"⟩,
    ⟨.gssSecurityLayer, (⟨6⟩ : SecurityLayer)⟩]).Offers .gssSecurityLayer (some ⟨6⟩) :=
  fun _ _ => answers_answerAll _ [⟨.gssService, c!"imap"⟩, ⟨.hostname, c!"h"⟩] [] rfl
    (by simp)

/-- A callback for GSSAPI that allows only confidentiality, and does not look at the result of
`satisfy`. -/
def carelessEnv : Env :=
  { exampleEnv [] with
    callback := fun _ _ _ => CbProg.satisfy .gssService (c!"imap") fun _ =>
      CbProg.satisfy .hostname (c!"h") fun _ =>
      CbProg.satisfy .gssSecurityLayer ⟨4⟩ fun _ => CbProg.ret (.ok ()) }

/-- Full C39 does not hold: the context cannot give confidentiality, so `satisfy` fails; the
callback ignores that, the client takes it for no answer, and finishes without any layer. -/
theorem C39_false : ¬ C39 := by
  intro h
  have hlog : (Session.run (client (flagGss ⟨false, false, false⟩)) carelessEnv
      { st := .initial, rng := fun _ => 0 } [⟨none, []⟩]).2.step
      (client (flagGss ⟨false, false, false⟩)) carelessEnv ⟨some [1, 0, 0, 0], []⟩ =
      (⟨.ok (.finished .yes), [1, 0, 0, 0]⟩,
        { st := .completed none, rng := fun _ => 0,
          log := [.asked .gssService .empty, .answered .gssService (c!"imap"),
            .asked .hostname .empty, .answered .hostname (c!"h"),
            .asked .gssSecurityLayer .empty, .answered .gssSecurityLayer ⟨4⟩] }) := rfl
  obtain ⟨l, bits, ⟨ctx, b, hb, ht⟩, hin, ha, hs⟩ := h _ _ _ _ _ _ _ _ hlog rfl
  have := (hs ⟨4⟩ (by simp)).2.1
  have hl : l = .confidentiality := by
    cases l with
    | confidentiality => rfl
    | none => exact absurd this (by unfold Allows; decide)
    | integrity => exact absurd this (by unfold Allows; decide)
  subst hl
  obtain ⟨ctx, hin⟩ := hin
  exact nomatch (hin carelessEnv []).2

/-! ## C40: the server -/

/-- The server's set after a run: what is known in each state. -/
def ServerInv (lib : Lib) (A : List Event → UInt8 → Prop) (ses : Session (SState lib)) : Prop :=
  match ses.st with
  | .installed _ set => ∃ a ctx fl, A ses.log a ∧ lib.flags ctx = .ok fl ∧ set = serverRestrict ⟨a⟩ fl
  | .final _ set => ∃ a ctx fl, A ses.log a ∧ lib.flags ctx = .ok fl ∧ set = serverRestrict ⟨a⟩ fl
  | _ => True

/-- The user's answer to the question for acceptable layers. -/
def SAnswered (lib : Lib) (env : Env) (A : List Event → UInt8 → Prop) : Prop :=
  ∀ w r w', maybeNeedWith (S := SState lib) env .gssSecurityLayer .empty (fun a => pure a) .errored w =
    (.ok r, .errored, w') → A w'.log (allowed r)

theorem writeAll_log {S : Type} (b : Bytes) (s : S) (w : World) :
    ((M.writeAll b : M S Unit) s w).2.2.log = w.log := by
  unfold M.writeAll
  rcases w.wr.writeAll b with ⟨r, wr⟩
  cases r <;> rfl

theorem serverInv_step {env : Env} {A : List Event → UInt8 → Prop} (hA : SAnswered lib env A)
    (pre : List Call) (ses : Session (SState lib)) (c : Call) (h : ServerInv lib A ses) :
    ServerInv lib A (ses.step (server lib) env c).2 := by
  have hpend : ∀ ctx w r, SPended lib env ctx c.input w r →
      ServerInv lib A ⟨r.2.1, r.2.2.slot, r.2.2.rng, r.2.2.log⟩ := by
    intro ctx w r hp
    cases hp with
    | failed => trivial
    | stuck => trivial
    | installed b tok ctx' r fl o w₁ w' hi h hc hr hfl hne ho =>
      have := writeAll_log tok (SState.installed ctx' (serverRestrict ⟨allowed r⟩ fl)) w₁
      rw [ho] at this
      refine ⟨allowed r, ctx', fl, ?_, hfl, rfl⟩
      rw [show (w'.log : List Event) = w₁.log from this]
      exact hA _ _ _ hr
    | offered b ctx' r fl w₁ x y z wrapped ctx'' w' hi h hc hr hfl hne hw ho =>
      have := writeAll_log wrapped (SState.errored : SState lib) w₁
      rw [ho] at this
      refine ⟨allowed r, ctx', fl, ?_, hfl, rfl⟩
      rw [show (w'.log : List Event) = w₁.log from this]
      exact hA _ _ _ hr
  have hm := serverStep_cases (lib := lib) env c.input ses.st
    { wr := ⟨[], c.sched⟩, rng := ses.rng, slot := ses.slot, log := ses.log }
  have hs : (ses.step (server lib) env c).2 =
      (fun r : Outcome State × SState lib × World => (⟨r.2.1, r.2.2.slot, r.2.2.rng, r.2.2.log⟩ : Session _))
      (serverStep lib env c.input ses.st
        { wr := ⟨[], c.sched⟩, rng := ses.rng, slot := ses.slot, log := ses.log }) := rfl
  rw [hs]
  unfold ServerInv at h
  obtain ⟨st, slot, rng', log⟩ := ses
  dsimp only at hm h ⊢
  generalize serverStep lib env c.input st _ = r at hm ⊢
  cases hm with
  | failed => trivial
  | start ctx r hn hp => exact hpend ctx _ r hp
  | next ctx r hp => exact hpend ctx _ r hp
  | offer ctx set x y z wrapped ctx' w' hw ho =>
    have := writeAll_log wrapped (SState.errored : SState lib) ⟨⟨[], c.sched⟩, rng', slot, log⟩
    rw [ho] at this
    obtain ⟨a, ctx, fl, h1, h2⟩ := h
    refine ⟨a, ctx, fl, ?_, h2⟩
    rw [show (w'.log : List Event) = log from this]
    exact h1
  | finish => trivial

/-- A server that finishes: what its last step consisted of. `set` is what it had offered. -/
theorem server_finishes {env : Env} {A : List Event → UInt8 → Prop} (hA : SAnswered lib env A)
    (rng : Nat → Nat) (calls : List Call) (c : Call) {ses' : Session (SState lib)}
    {r : Reply State} {k : MessageSent}
    (hstep : (Session.run (server lib) env { st := .initial, rng := rng } calls).2.step
      (server lib) env c = (r, ses')) (hfin : r.res = .ok (.finished k)) :
    ∃ bits a ctx ctx' ctx₀ fl b, c.input = some b ∧ LayerToken lib ctx b bits ∧ A ses'.log a ∧
      lib.flags ctx₀ = .ok fl ∧
      SecurityLayer.intersects ⟨bits⟩ (serverRestrict ⟨a⟩ fl) = true ∧
      ses'.st = .done ((serverWrap ⟨bits⟩).map fun e => (ctx', e)) ∧ k = .no := by
  have hinv : ServerInv lib A (Session.run (server lib) env { st := .initial, rng := rng } calls).2 :=
    run_induction (m := server lib) (I := fun _ => ServerInv lib A) (serverInv_step hA) calls [] _
      trivial
  generalize (Session.run (server lib) env { st := .initial, rng := rng } calls).2 = ses at hinv hstep
  have hm := serverStep_cases (lib := lib) env c.input ses.st
    { wr := ⟨[], c.sched⟩, rng := ses.rng, slot := ses.slot, log := ses.log }
  have hs : ses.step (server lib) env c =
      (fun r : Outcome State × SState lib × World =>
        ((⟨r.1, r.2.2.wr.out⟩ : Reply State), (⟨r.2.1, r.2.2.slot, r.2.2.rng, r.2.2.log⟩ : Session _)))
      (serverStep lib env c.input ses.st
        { wr := ⟨[], c.sched⟩, rng := ses.rng, slot := ses.slot, log := ses.log }) := rfl
  rw [hs] at hstep
  clear hs
  unfold ServerInv at hinv
  obtain ⟨st, slot, rng', log⟩ := ses
  dsimp only at hm hinv hstep
  generalize serverStep lib env c.input st _ = x at hm hstep
  have hpend : ∀ ctx w x, SPended lib env ctx c.input w x → x.1 ≠ .ok (.finished k) := by
    intro ctx w x hp
    cases hp with
    | failed o w' h h' => exact h' k
    | stuck => nofun
    | installed b tok ctx' r fl o w₁ w' => cases o <;> nofun
    | offered => nofun
  cases hm with
  | failed st o w' h h' => cases hstep; exact absurd hfin (h' k)
  | start ctx r hn hp => cases hstep; exact absurd hfin (hpend _ _ _ hp)
  | next ctx r hp => cases hstep; exact absurd hfin (hpend _ _ _ hp)
  | offer => cases hstep; cases hfin
  | finish ctx set b ctx' bits hi hlt hu hs =>
    cases hstep
    cases hfin
    obtain ⟨a, ctx₀, fl, h1, h2, rfl⟩ := hinv
    obtain ⟨x, y, z, hu⟩ := hu
    exact ⟨bits, a, ctx, ctx', ctx₀, fl, b, hi, ⟨hlt, x, y, z, ctx', hu⟩, h1, h2, hs, rfl, rfl⟩

theorem sanswered_offers {env : Env} {o : Option SecurityLayer}
    (ho : env.Offers .gssSecurityLayer o) : SAnswered lib env (fun _ a => a = allowed o) := by
  intro w r w' h
  cases o with
  | none =>
    rw [maybeNeedWith_declines (ho w.log .empty)] at h
    cases h
    rfl
  | some a =>
    obtain ⟨es, hq, he⟩ := maybeNeedWith_answers (ho w.log .empty)
      (fun a => (pure a : M (SState lib) SecurityLayer)) SState.errored
    rw [he] at h
    cases h
    rfl

theorem sanswered_any (env : Env) : SAnswered lib env (fun log a =>
    a = 7 ∨ ∃ v : SecurityLayer, .answered .gssSecurityLayer v ∈ log ∧ a = v.bits) := by
  intro w r w' h
  cases r with
  | none => exact .inl rfl
  | some a =>
    obtain ⟨v, es, es', w₁, hq, hq', hf, rfl⟩ := maybeNeedWith_some h
    cases hf
    exact .inr ⟨a, by simp, rfl⟩

/-- `serverWrap` for a single layer. -/
theorem serverWrap_only (l : Layer) (ctx : lib.Ctx) :
    (serverWrap ⟨l.only⟩).map (fun e => (ctx, e)) = l.protect ctx := by
  cases l <;> rfl

/-- Full C40: the layer in force on the server side is one the callback allowed. Not true: see
`C40_false`. -/
def C40 : Prop :=
  ∀ (lib : Lib) (env : Env) (o : Option SecurityLayer) (rng : Nat → Nat) (calls : List Call)
    (c : Call) (r : Reply State) (ses' : Session (SState lib)) (k : MessageSent),
    env.Offers .gssSecurityLayer o →
    (Session.run (server lib) env { st := .initial, rng := rng } calls).2.step (server lib) env c =
      (r, ses') → r.res = .ok (.finished k) →
    ∃ l, InForce lib (server lib) ses' l ∧ Allows (allowed o) l

/-- C40 as far as it holds: when the server finishes, the client's last message named a set of
layers with at least one the server's callback allowed (and the context supports); and if it
named just one layer, that one is in force, allowed and supported. Missing: clients that name
several layers at once. -/
theorem C40_partial {env : Env} {o : Option SecurityLayer} (ho : env.Offers .gssSecurityLayer o)
    (rng : Nat → Nat) (calls : List Call) (c : Call) {ses' : Session (SState lib)}
    {r : Reply State} {k : MessageSent}
    (hstep : (Session.run (server lib) env { st := .initial, rng := rng } calls).2.step
      (server lib) env c = (r, ses')) (hfin : r.res = .ok (.finished k)) :
    ∃ bits ctx b, c.input = some b ∧ LayerToken lib ctx b bits ∧
      (∃ l, Allows bits l ∧ Allows (allowed o) l) ∧
      ∀ l : Layer, bits = l.only → InForce lib (server lib) ses' l ∧ Allows (allowed o) l ∧
        ∃ ctx₀ fl, lib.flags ctx₀ = .ok fl ∧
          (l = .confidentiality → fl.mutualAuth = true ∧ fl.conf = true) ∧
          (l = .integrity → fl.integ = true) := by
  obtain ⟨bits, a, ctx, ctx', ctx₀, fl, b, h1, h2, rfl, h4, h5, h6, -⟩ :=
    server_finishes (sanswered_offers ho) rng calls c hstep hfin
  refine ⟨bits, ctx, b, h1, h2, ?_, ?_⟩
  · obtain ⟨l, hl1, hl2⟩ := intersects_some (a := ⟨bits⟩) h2.1 h5
    exact ⟨l, hl1, ((restrict_spec _ _ _).1 hl2).1⟩
  · rintro l rfl
    obtain ⟨hl1, hl2⟩ := (restrict_spec _ _ _).1 (intersects_only h5)
    refine ⟨⟨ctx', server_inForce _ l ctx' (by rw [h6, serverWrap_only])⟩, hl1, ctx₀, fl, h4, hl2⟩

/-- C40 for arbitrary callbacks: as above, with a set the callback answered, or all layers. -/
theorem C40_any_partial (env : Env) (rng : Nat → Nat) (calls : List Call) (c : Call)
    {ses' : Session (SState lib)} {r : Reply State} {k : MessageSent}
    (hstep : (Session.run (server lib) env { st := .initial, rng := rng } calls).2.step
      (server lib) env c = (r, ses')) (hfin : r.res = .ok (.finished k)) :
    ∃ bits acc ctx b, c.input = some b ∧ LayerToken lib ctx b bits ∧
      (acc = 7 ∨ ∃ v : SecurityLayer, .answered .gssSecurityLayer v ∈ ses'.log ∧ acc = v.bits) ∧
      (∃ l, Allows bits l ∧ Allows acc l) ∧
      ∀ l : Layer, bits = l.only → InForce lib (server lib) ses' l ∧ Allows acc l := by
  obtain ⟨bits, a, ctx, ctx', ctx₀, fl, b, h1, h2, h3, h4, h5, h6, -⟩ :=
    server_finishes (sanswered_any env) rng calls c hstep hfin
  refine ⟨bits, a, ctx, b, h1, h2, h3, ?_, ?_⟩
  · obtain ⟨l, hl1, hl2⟩ := intersects_some (a := ⟨bits⟩) h2.1 h5
    exact ⟨l, hl1, ((restrict_spec _ _ _).1 hl2).1⟩
  · rintro l rfl
    exact ⟨⟨ctx', server_inForce _ l ctx' (by rw [h6, serverWrap_only])⟩,
      ((restrict_spec _ _ _).1 (intersects_only h5)).1⟩

theorem serverWrap_strongest {bits : UInt8} {l₀ : Layer} (h : Allows bits l₀)
    (ctx : lib.Ctx) : ∃ l, Strongest bits bits l ∧
      (serverWrap ⟨bits⟩).map (fun e => (ctx, e)) = l.protect ctx := by
  have key : ∀ l : Layer, SecurityLayer.contains ⟨bits⟩ ⟨l.only⟩ = true ↔ Allows bits l :=
    fun l => contains_iff ⟨bits⟩ l
  unfold serverWrap
  by_cases h1 : SecurityLayer.contains ⟨bits⟩ .confidentiality = true
  · rw [if_pos h1]
    have := (key .confidentiality).1 h1
    exact ⟨.confidentiality, ⟨this, this, fun l' _ _ => by cases l' <;> decide⟩, rfl⟩
  · rw [if_neg h1]
    have h1' : ¬ Allows bits .confidentiality := fun h => h1 ((key .confidentiality).2 h)
    by_cases h2 : SecurityLayer.contains ⟨bits⟩ .integrity = true
    · rw [if_pos h2]
      have := (key .integrity).1 h2
      refine ⟨.integrity, ⟨this, this, fun l' h _ => ?_⟩, rfl⟩
      cases l' <;> first | decide | exact absurd h h1'
    · rw [if_neg h2]
      have h2' : ¬ Allows bits .integrity := fun h => h2 ((key .integrity).2 h)
      have h3 : ∀ l, Allows bits l → l = .none := fun l h => by
        cases l <;> first | rfl | exact absurd h h1' | exact absurd h h2'
      have := h3 _ h
      subst this
      exact ⟨.none, ⟨h, h, fun l' h' _ => by rw [h3 _ h']; exact Nat.le_refl _⟩, rfl⟩

/-- C40 for all clients: the layer in force is the strongest one the client named, whether allowed or
not; one of those it named is allowed and supported by the context. So the layer in force is
allowed if and only if the strongest the client named is. -/
theorem C40_strongest {env : Env} {o : Option SecurityLayer} (ho : env.Offers .gssSecurityLayer o)
    (rng : Nat → Nat) (calls : List Call) (c : Call) {ses' : Session (SState lib)}
    {r : Reply State} {k : MessageSent}
    (hstep : (Session.run (server lib) env { st := .initial, rng := rng } calls).2.step
      (server lib) env c = (r, ses')) (hfin : r.res = .ok (.finished k)) :
    ∃ bits ctx b l, c.input = some b ∧ LayerToken lib ctx b bits ∧ Strongest bits bits l ∧
      InForce lib (server lib) ses' l ∧
      ∃ l' ctx₀ fl, lib.flags ctx₀ = .ok fl ∧ Allows bits l' ∧ Allows (allowed o) l' ∧
        (l' = .confidentiality → fl.mutualAuth = true ∧ fl.conf = true) ∧
        (l' = .integrity → fl.integ = true) := by
  obtain ⟨bits, a, ctx, ctx', ctx₀, fl, b, h1, h2, rfl, h4, h5, h6, -⟩ :=
    server_finishes (sanswered_offers ho) rng calls c hstep hfin
  obtain ⟨l', hl1, hl2⟩ := intersects_some (a := ⟨bits⟩) h2.1 h5
  obtain ⟨l, hl, hw⟩ := serverWrap_strongest hl1 ctx'
  obtain ⟨h7, h8⟩ := (restrict_spec _ _ _).1 hl2
  exact ⟨bits, ctx, b, l, h1, h2, hl, ⟨ctx', server_inForce _ l ctx' (by rw [h6, hw])⟩, l', ctx₀, fl,
    h4, hl1, h7, h8⟩

/-- The server's callback allows only integrity. -/
def integrityEnv : Env := exampleEnv [⟨.gssSecurityLayer, (⟨2⟩ : SecurityLayer)⟩]

theorem integrityEnv_offers : integrityEnv.Offers .gssSecurityLayer (some ⟨2⟩) :=
  fun _ _ => answers_answerAll _ [] [] rfl (by simp)

/-- An integrity layer is negotiated. -/
example : ∃ r ses', (Session.run (server toyGss) integrityEnv
      { st := .initial, rng := fun _ => 0 } [⟨some [], []⟩]).2.step (server toyGss) integrityEnv
      ⟨some [2, 255, 255, 255], []⟩ = (r, ses') ∧ r.res = .ok (.finished .no) :=
  ⟨_, _, rfl, by decide +kernel⟩

/-- A library whose encrypted messages differ from the others. -/
def sealGss : Lib := { toyGss with wrap := fun _ e b => (.ok (if e then 1 :: b else b), ()) }

/-- Full C40 does not hold: the server allowed and offered integrity only; the client answers with
integrity and "no layer" and confidentiality at once, and confidentiality is in force. -/
theorem C40_false : ¬ C40 := by
  intro h
  have hst : (Session.run (server sealGss) integrityEnv
      { st := .initial, rng := fun _ => 0 } [⟨some [], []⟩]).2.step (server sealGss) integrityEnv
      ⟨some [7, 255, 255, 255], []⟩ =
      (⟨.ok (.finished .no), []⟩,
        { st := .done (some ((), true))
          rng := fun _ => 0
          log := [.asked .gssSecurityLayer .empty, .answered .gssSecurityLayer ⟨2⟩] }) := rfl
  obtain ⟨l, hin, ha⟩ := h sealGss integrityEnv (some ⟨2⟩) _ _ _ _ _ _ integrityEnv_offers hst rfl
  have hl : l = .integrity := by
    cases l with
    | integrity => rfl
    | none => exact absurd ha (by unfold Allows; decide)
    | confidentiality => exact absurd ha (by unfold Allows; decide)
  subst hl
  obtain ⟨ctx, hx⟩ := hin
  have : [Answer.count ⟨.ok 0, [1]⟩] = [Answer.count ⟨.ok 0, []⟩] :=
    (hx integrityEnv [.encode [] []]).1
  cases this

/-! ## C41: contexts that need several tokens -/

/-- The acceptor's side of a security context: the tokens coming in and going out from `ctx` until
the context is complete, which it is in the end and not before. -/
inductive Handshake (lib : Lib) : lib.Ctx → List (Bytes × Option Bytes) → lib.Ctx → Prop where
  | last {c i o c'} (h : lib.serverStep c i = (.ok o, c')) (hc : lib.isComplete c' = true) :
      Handshake lib c [(i, o)] c'
  | more {c i o c' ts c''} (h : lib.serverStep c i = (.ok (some o), c'))
      (hc : lib.isComplete c' = false) (ht : Handshake lib c' ts c'') :
      Handshake lib c ((i, some o) :: ts) c''

/-- The layers a server may offer: those allowed that the context supports. -/
def Available (o : Option SecurityLayer) (fl : Flags) (l : Layer) : Prop :=
  Allows (allowed o) l ∧ (l = .confidentiality → fl.mutualAuth = true ∧ fl.conf = true) ∧
    (l = .integrity → fl.integ = true)

/-- The calls of a handshake: the tokens, an empty message if the last token was answered, and the
client's choice. -/
def handshakeCalls (ts : List (Bytes × Option Bytes)) (choice : Bytes) : List Call :=
  (ts.map fun t => ⟨some t.1, []⟩) ++
    (match ts.getLast? with
      | some (_, some _) => [⟨some [], []⟩]
      | _ => []) ++ [⟨some choice, []⟩]

/-- The replies: the tokens, the offer, and the end. -/
def handshakeReplies (ts : List (Bytes × Option Bytes)) (offer : Bytes) : List (Reply State) :=
  ((ts.filterMap (·.2) ++ [offer]).map fun out => ⟨.ok .running, out⟩) ++ [⟨.ok (.finished .no), []⟩]

/-- The server goes through the handshake `ts` from `ctx` to `ctx'`, offers the available layers,
and finishes with any of them the client chooses. The size it offers is the greatest one, or zero if
no layer is available that needs it (RFC 4752, 3.2). -/
def GoesThrough (lib : Lib) (env : Env) (o : Option SecurityLayer) (ts : List (Bytes × Option Bytes))
    (ctx' : lib.Ctx) (fl : Flags) : Prop :=
  ∃ set x y z offer ctx₁, (∀ l, Allows set l ↔ Available o fl l) ∧
    ((∃ l, l ≠ .none ∧ Available o fl l) → [x, y, z] = [0xFF, 0xFF, 0xFF]) ∧
    ((∀ l, Available o fl l → l = .none) → [x, y, z] = [0, 0, 0]) ∧
    lib.wrap ctx' false [set, x, y, z] = (.ok offer, ctx₁) ∧
    ∀ l choice, Available o fl l → LayerToken lib ctx₁ choice l.only → ∀ rng,
      (Session.run (server lib) env { st := .initial, rng := rng } (handshakeCalls ts choice)).1 =
        handshakeReplies ts offer

/-- Full C41: whatever tokens the context needs, the server goes through the handshake. Not true:
see `C41_false`. -/
def C41 : Prop :=
  ∀ (lib : Lib) (env : Env) (o : Option SecurityLayer) (ctx ctx' : lib.Ctx)
    (ts : List (Bytes × Option Bytes)) (fl : Flags),
    env.Offers .gssSecurityLayer o → lib.newServer = .ok ctx → Handshake lib ctx ts ctx' →
    lib.flags ctx' = .ok fl → (∃ l, Available o fl l) →
    (∀ b, ∃ out c, lib.wrap ctx' false b = (.ok out, c)) → GoesThrough lib env o ts ctx' fl

theorem writeAll_free {S : Type} (b : Bytes) (s : S) (out : Bytes) (rng : Nat → Nat)
    (slot : Option VVal) (log : List Event) :
    (M.writeAll b : M S Unit) s ⟨⟨out, []⟩, rng, slot, log⟩ =
      (.ok (), s, ⟨⟨out ++ b, []⟩, rng, slot, log⟩) := by
  cases b with
  | nil =>
    rw [List.append_nil]
    rfl
  | cons => rfl

theorem serverPending_stuck {env : Env} {ctx ctx' : lib.Ctx} {i tok : Bytes}
    (hs : lib.serverStep ctx i = (.ok (some tok), ctx')) (hc : lib.isComplete ctx' = false)
    (rng : Nat → Nat) (slot : Option VVal) (log : List Event) :
    serverPending lib env ctx (some i) .errored ⟨⟨[], []⟩, rng, slot, log⟩ =
      (.ok .running, .errored, ⟨⟨tok, []⟩, rng, slot, log⟩) := by
  unfold serverPending
  rw [M.bind_ok (M.okOr_some ..), hs]
  dsimp only
  rw [M.bind_ok (liftGss_ok rfl _ _), hc, if_neg (by simp)]
  dsimp only
  rw [M.bind_ok (writeAll_free ..)]
  rfl

theorem serverStep_initial {env : Env} {ctx : lib.Ctx} (hn : lib.newServer = .ok ctx)
    (input : Option Bytes) (w : World) :
    serverStep lib env input .initial w = serverPending lib env ctx input .errored w := by
  unfold serverStep
  rw [M.bind_ok (M.get_apply ..), M.bind_ok (M.set_apply ..)]
  dsimp only
  rw [M.bind_ok (liftGss_ok hn _ _)]

/-- What C41 comes to for contexts that need more than one token: the server returns Running, loses
the context, and all it does from then on is fail. -/
theorem C41_never {env : Env} {ctx ctx' : lib.Ctx} {i tok : Bytes} (hn : lib.newServer = .ok ctx)
    (hs : lib.serverStep ctx i = (.ok (some tok), ctx')) (hc : lib.isComplete ctx' = false)
    (rng : Nat → Nat) (calls : List Call) :
    (Session.run (server lib) env { st := .initial, rng := rng } (⟨some i, []⟩ :: calls)).1 =
      ⟨.ok .running, tok⟩ :: calls.map fun _ => ⟨.err .mechanismDone, []⟩ := by
  have herr : ∀ (calls : List Call) (ses : Session (SState lib)), ses.st = .errored →
      (Session.run (server lib) env ses calls).1 = calls.map fun _ => ⟨.err .mechanismDone, []⟩ := by
    intro calls
    induction calls with
    | nil => intros; rfl
    | cons c cs ih =>
      rintro ⟨_, slot, rng, log⟩ rfl
      exact congrArg (_ :: ·) (ih _ rfl)
  rw [run_cons, step_of (m := server lib) (env := env) (ses := { st := .initial, rng := rng })
    (c := ⟨some i, []⟩) ((serverStep_initial hn _ _).trans (serverPending_stuck hs hc rng none []))]
  exact congrArg (_ :: ·) (herr _ _ rfl)

theorem isEmpty_of_allows {s : SecurityLayer} {l : Layer} (h : Allows s.bits l) :
    s.isEmpty = false := by
  cases he : s.isEmpty with
  | false => rfl
  | true =>
    have : s.bits = 0 := by simpa [SecurityLayer.isEmpty] using he
    rw [this] at h
    cases l <;> exact absurd h (by unfold Allows; decide)

theorem intersects_of_allows {s : SecurityLayer} {l : Layer} (h : Allows s.bits l) :
    SecurityLayer.intersects ⟨l.only⟩ s = true := by
  obtain ⟨x⟩ := s
  have key : ∀ n < 256, ∀ k < 3, n.testBit k = true →
      (UInt8.ofNat (2 ^ k) &&& UInt8.ofNat n != 0) = true := by decide +kernel
  have := key x.toNat x.toNat_lt l.index (by cases l <;> decide) h
  rw [UInt8.ofNat_toNat] at this
  exact this

/-- The bytes offered with a set. -/
def offerBytes (set : SecurityLayer) : Bytes :=
  if set.intersects (SecurityLayer.confidentiality.union .integrity) then
    [set.bits, 0xFF, 0xFF, 0xFF]
  else [set.bits, 0x00, 0x00, 0x00]

theorem offerBytes_layers (set : SecurityLayer) :
    ((∃ l, l ≠ .none ∧ Allows set.bits l) → offerBytes set = [set.bits, 0xFF, 0xFF, 0xFF]) ∧
    ((∀ l, Allows set.bits l → l = .none) → offerBytes set = [set.bits, 0, 0, 0]) := by
  obtain ⟨x⟩ := set
  have key : ∀ n < 256, (UInt8.ofNat n &&& ((4 : UInt8) ||| 2) != 0) = (n.testBit 1 || n.testBit 2) := by
    decide +kernel
  have key : (x &&& ((4 : UInt8) ||| 2) != 0) = (x.toNat.testBit 1 || x.toNat.testBit 2) := by
    have := key x.toNat x.toNat_lt
    rwa [UInt8.ofNat_toNat] at this
  have hi : SecurityLayer.intersects ⟨x⟩ (SecurityLayer.confidentiality.union .integrity) =
    (x.toNat.testBit 1 || x.toNat.testBit 2) := key
  unfold offerBytes
  constructor
  · rintro ⟨l, hne, hl⟩
    rw [if_pos]
    rw [hi]
    cases l with
    | none => exact absurd rfl hne
    | integrity => rw [show x.toNat.testBit 1 = true from hl]; rfl
    | confidentiality => rw [show x.toNat.testBit 2 = true from hl]; simp
  · intro h
    rw [if_neg]
    rw [hi]
    intro hb
    rcases Bool.or_eq_true _ _ ▸ hb with hb | hb
    · exact absurd (h .integrity hb) nofun
    · exact absurd (h .confidentiality hb) nofun

theorem serverInstalled_free {ctx ctx₁ : lib.Ctx} {set : SecurityLayer} {offer : Bytes}
    (hw : lib.wrap ctx false (offerBytes set) = (.ok offer, ctx₁)) (rng : Nat → Nat)
    (slot : Option VVal) (log : List Event) :
    serverInstalled lib ctx set .errored ⟨⟨[], []⟩, rng, slot, log⟩ =
      (.ok .running, .final ctx₁ set, ⟨⟨offer, []⟩, rng, slot, log⟩) := by
  show (liftGss (lib.wrap ctx false (offerBytes set)).1 >>= fun wrapped => do
    M.writeAll wrapped
    M.set (.final (lib.wrap ctx false (offerBytes set)).2 set)
    pure .running : M (SState lib) State) .errored _ = _
  rw [hw]
  rw [M.bind_ok (liftGss_ok rfl _ _), M.bind_ok (writeAll_free ..), M.bind_ok (M.set_apply ..)]
  rfl

theorem serverPending_complete {env : Env} {ctx ctx' ctx₁ : lib.Ctx} {i offer : Bytes}
    {tok : Option Bytes} {o : Option SecurityLayer} {fl : Flags}
    (ho : env.Offers .gssSecurityLayer o)
    (hs : lib.serverStep ctx i = (.ok tok, ctx')) (hc : lib.isComplete ctx' = true)
    (hfl : lib.flags ctx' = .ok fl)
    (hne : (serverRestrict ⟨allowed o⟩ fl).isEmpty = false)
    (hw : lib.wrap ctx' false (offerBytes (serverRestrict ⟨allowed o⟩ fl)) = (.ok offer, ctx₁))
    (rng : Nat → Nat) (slot : Option VVal) (log : List Event) :
    ∃ log', serverPending lib env ctx (some i) .errored ⟨⟨[], []⟩, rng, slot, log⟩ =
      (.ok .running, match tok with
        | some _ => .installed ctx' (serverRestrict ⟨allowed o⟩ fl)
        | none => .final ctx₁ (serverRestrict ⟨allowed o⟩ fl),
        ⟨⟨tok.getD offer, []⟩, rng, slot, log'⟩) := by
  have hask : ∃ log', maybeNeedWith (S := SState lib) env .gssSecurityLayer .empty (fun a => pure a)
      .errored ⟨⟨[], []⟩, rng, slot, log⟩ = (.ok o, .errored, ⟨⟨[], []⟩, rng, slot, log'⟩) := by
    cases o with
    | none => exact ⟨_, maybeNeedWith_declines (ho log .empty) _ _⟩
    | some a =>
      obtain ⟨es, hq, he⟩ := maybeNeedWith_answers (w := ⟨⟨[], []⟩, rng, slot, log⟩) (ho log .empty)
        (fun a => (pure a : M (SState lib) SecurityLayer)) SState.errored
      exact ⟨_, he⟩
  obtain ⟨log', hask⟩ := hask
  refine ⟨log', ?_⟩
  unfold serverPending
  rw [M.bind_ok (M.okOr_some ..), hs]
  dsimp only
  rw [M.bind_ok (liftGss_ok rfl _ _), hc, if_pos rfl, M.bind_ok hask]
  suffices H : ∀ a : SecurityLayer, a = ⟨allowed o⟩ →
      ((liftGss (lib.flags ctx') >>= fun flags =>
        if (serverRestrict a flags).isEmpty then M.fail badContext
        else do
          M.set (.installed ctx' (serverRestrict a flags))
          match tok with
          | some token => do
            M.writeAll token
            pure .running
          | none => do
            M.set .errored
            serverInstalled lib ctx' (serverRestrict a flags) : M (SState lib) State)
        .errored ⟨⟨[], []⟩, rng, slot, log'⟩) = _ from H _ (by cases o <;> rfl)
  rintro a rfl
  rw [M.bind_ok (liftGss_ok hfl _ _), hne, if_neg (by simp), M.bind_ok (M.set_apply ..)]
  cases tok with
  | none =>
    dsimp only
    rw [M.bind_ok (M.set_apply ..), serverInstalled_free hw]
    rfl
  | some t =>
    dsimp only
    rw [M.bind_ok (writeAll_free ..)]
    rfl

theorem serverStep_installed {env : Env} {ctx ctx₁ : lib.Ctx} {set : SecurityLayer} {offer : Bytes}
    (hw : lib.wrap ctx false (offerBytes set) = (.ok offer, ctx₁)) (input : Option Bytes)
    (rng : Nat → Nat) (slot : Option VVal) (log : List Event) :
    serverStep lib env input (.installed ctx set) ⟨⟨[], []⟩, rng, slot, log⟩ =
      (.ok .running, .final ctx₁ set, ⟨⟨offer, []⟩, rng, slot, log⟩) := by
  unfold serverStep
  rw [M.bind_ok (M.get_apply ..), M.bind_ok (M.set_apply ..)]
  exact serverInstalled_free hw ..

theorem serverStep_chosen {env : Env} {ctx ctx' : lib.Ctx} {set : SecurityLayer} {choice : Bytes}
    {l : Layer} {x y z : UInt8} (hu : lib.unwrap ctx choice = (.ok [l.only, x, y, z], ctx'))
    (hl : Allows set.bits l) (rng : Nat → Nat) (slot : Option VVal) (log : List Event) :
    serverStep lib env (some choice) (.final ctx set) ⟨⟨[], []⟩, rng, slot, log⟩ =
      (.ok (.finished .no), .done (l.protect ctx'), ⟨⟨[], []⟩, rng, slot, log⟩) := by
  unfold serverStep
  rw [M.bind_ok (M.get_apply ..), M.bind_ok (M.set_apply ..)]
  dsimp only
  rw [M.bind_ok (M.okOr_some ..)]
  show (liftGss (lib.unwrap ctx choice).1 >>= fun unwrapped => do
    let selected ← M.lift (finalToken unwrapped)
    if selected.intersects set then do
      M.set (.done ((serverWrap selected).map fun e => ((lib.unwrap ctx choice).2, e)))
      pure (.finished .no)
    else M.fail badFinalToken : M (SState lib) State) .errored _ = _
  rw [hu, M.bind_ok (liftGss_ok rfl _ _)]
  have hf : finalToken [l.only, x, y, z] = .ok ⟨l.only⟩ := by cases l <;> rfl
  rw [hf, M.bind_ok (show M.lift (S := SState lib) (.ok _) _ _ = _ from rfl), intersects_of_allows hl,
    if_pos rfl, M.bind_ok (M.set_apply ..), serverWrap_only]
  rfl

theorem serverStep_final {env : Env} {ctx : lib.Ctx} {set : SecurityLayer} {choice : Bytes}
    {l : Layer} (ht : LayerToken lib ctx choice l.only) (hl : Allows set.bits l)
    (rng : Nat → Nat) (slot : Option VVal) (log : List Event) :
    ∃ ctx', serverStep lib env (some choice) (.final ctx set) ⟨⟨[], []⟩, rng, slot, log⟩ =
      (.ok (.finished .no), .done (l.protect ctx'), ⟨⟨[], []⟩, rng, slot, log⟩) := by
  obtain ⟨-, x, y, z, ctx', hu⟩ := ht
  exact ⟨ctx', serverStep_chosen hu hl rng slot log⟩

/-- C41 for contexts that are complete after the first token. Missing: contexts that need more
(`C41_never`). -/
theorem C41_partial {env : Env} {o : Option SecurityLayer} {ctx ctx' : lib.Ctx} {i : Bytes}
    {tok : Option Bytes} {fl : Flags} (ho : env.Offers .gssSecurityLayer o)
    (hn : lib.newServer = .ok ctx) (hh : Handshake lib ctx [(i, tok)] ctx')
    (hfl : lib.flags ctx' = .ok fl) (hl : ∃ l, Available o fl l)
    (hw : ∀ b, ∃ out c, lib.wrap ctx' false b = (.ok out, c)) :
    GoesThrough lib env o [(i, tok)] ctx' fl := by
  obtain ⟨l₀, hl₀⟩ := hl
  obtain ⟨offer, ctx₁, hw⟩ := hw (offerBytes (serverRestrict ⟨allowed o⟩ fl))
  have hset : ∀ l, Allows (serverRestrict ⟨allowed o⟩ fl).bits l ↔ Available o fl l :=
    fun l => restrict_spec ..
  have hne := isEmpty_of_allows ((hset l₀).2 hl₀)
  obtain ⟨hs, hc⟩ : lib.serverStep ctx i = (.ok tok, ctx') ∧ lib.isComplete ctx' = true := by
    cases hh with
    | last h hc => exact ⟨h, hc⟩
    | more h hc ht => cases ht
  have hob : ∃ x y z, offerBytes (serverRestrict ⟨allowed o⟩ fl) =
      [(serverRestrict ⟨allowed o⟩ fl).bits, x, y, z] := by
    unfold offerBytes
    split <;> exact ⟨_, _, _, rfl⟩
  obtain ⟨x, y, z, hob⟩ := hob
  obtain ⟨hsome, hnone⟩ := offerBytes_layers (serverRestrict ⟨allowed o⟩ fl)
  rw [hob] at hsome hnone
  refine ⟨_, x, y, z, offer, ctx₁, hset, fun ⟨l, hne, hl⟩ => List.tail_eq_of_cons_eq
    (hsome ⟨l, hne, (hset l).2 hl⟩), fun h => List.tail_eq_of_cons_eq
    (hnone fun l hl => h l ((hset l).1 hl)), hob ▸ hw, fun l choice hl ht rng => ?_⟩
  obtain ⟨log', h1⟩ := serverPending_complete ho hs hc hfl hne hw rng none []
  have h1 := step_of (m := server lib) (env := env) (ses := { st := .initial, rng := rng })
    (c := ⟨some i, []⟩) ((serverStep_initial hn _ _).trans h1)
  obtain ⟨ctx₂, h3⟩ := serverStep_final (env := env) ht ((hset l).2 hl) rng none log'
  have h3 := step_of (m := server lib) (env := env) (ses := ⟨.final ctx₁ _, none, rng, log'⟩)
    (c := ⟨some choice, []⟩) h3
  cases tok with
  | none =>
    show (Session.run (server lib) env _ [⟨some i, []⟩, ⟨some choice, []⟩]).1 = _
    rw [run_cons, h1, run_cons, h3]
    rfl
  | some t =>
    have h2 := step_of (m := server lib) (env := env) (ses := ⟨.installed ctx' _, none, rng, log'⟩)
      (c := ⟨some [], []⟩) (serverStep_installed hw (some []) rng none log')
    show (Session.run (server lib) env _ [⟨some i, []⟩, ⟨some [], []⟩, ⟨some choice, []⟩]).1 = _
    rw [run_cons, h1, run_cons, h2, run_cons, h3]
    rfl

/-- A library whose contexts are complete after `n` tokens, answering each. -/
def roundsGss (n : Nat) : Lib :=
  { Ctx := Nat
    newClient := fun _ => .ok 0
    newServer := .ok 0
    clientStep := fun c _ => (.ok (some [UInt8.ofNat c]), c + 1)
    serverStep := fun c _ => (.ok (some [UInt8.ofNat c]), c + 1)
    isComplete := fun c => c == n
    flags := fun _ => .ok ⟨true, true, true⟩
    wrap := fun c _ b => (.ok b, c)
    unwrap := fun c b => (.ok b, c) }

example : Handshake (roundsGss 1) (0 : Nat) [([], some [0])] (1 : Nat) := .last rfl rfl

example : Available (some ⟨2⟩) ⟨true, true, true⟩ .integrity :=
  ⟨by unfold Allows; decide, nofun, fun _ => rfl⟩

example (lib : Lib) (ctx : lib.Ctx) (b : Bytes) (h : lib.unwrap ctx b = (.ok [2, 0, 0, 0], ctx)) :
    LayerToken lib ctx b Layer.integrity.only := ⟨by decide, 0, 0, 0, ctx, h⟩

/-- Full C41 does not hold: a context that needs two tokens. -/
theorem C41_false : ¬ C41 := by
  intro h
  obtain ⟨set, x, y, z, offer, ctx₁, hset, -, -, hw, hg⟩ := h (roundsGss 2) integrityEnv (some ⟨2⟩)
    (0 : Nat) (2 : Nat) [([], some [0]), ([], some [1])] ⟨true, true, true⟩ integrityEnv_offers rfl
    (.more rfl rfl (.last rfl rfl)) rfl
    ⟨.integrity, by unfold Allows; decide, nofun, fun _ => rfl⟩ (fun b => ⟨b, (2 : Nat), rfl⟩)
  have := hg .integrity [2, 0, 0, 0] ⟨by unfold Allows; decide, nofun, fun _ => rfl⟩
    ⟨by decide, 0, 0, 0, ctx₁, rfl⟩ (fun _ => 0)
  have hnever := C41_never (lib := roundsGss 2) (env := integrityEnv) (i := []) (tok := [0])
    (ctx := (0 : Nat)) (ctx' := (1 : Nat)) rfl rfl rfl (fun _ => 0)
    [⟨some [], []⟩, ⟨some [], []⟩, ⟨some [2, 0, 0, 0], []⟩]
  have := hnever.symm.trans this
  cases this

end Rsasl.Gssapi

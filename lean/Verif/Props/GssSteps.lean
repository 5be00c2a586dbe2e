/-
C101: how the steps of a GSSAPI exchange before the last one end, exactly.
-/
import Verif.Spec.GssSteps
import Verif.Props.Requests
import Verif.Props.GssFinal

namespace Rsasl

open Spec

variable {S : Type}

/-! ## Requests -/

/-- Exactly how a request ends whose answer is taken as it is, or objected to. -/
theorem maybeNeedWith_settled {p : Property} {f : p.Value → M S p.Value} {obj : p.Value → Option SessionError}
    (hf : ∀ v s w, f v s w = (match obj v with | none => .ok v | some e => .err e, s, w)) (env : Env)
    (ctx : Provider) (s : S) (w : World) :
    maybeNeedWith env p ctx f s w =
      (match settled p obj (env.callback w.log env.sd ctx) with | .ok v => .ok v | .error e => .err e, s,
        w.addLog (settledLog p obj ctx (env.callback w.log env.sd ctx))) := by
  have h := C17_exact env p ctx f s w
  unfold settled settledLog
  generalize beginning p 0 (env.callback w.log env.sd ctx) = b at h
  rcases b with ⟨n, r⟩ | ⟨n, v, k⟩
  · simp only at h ⊢
    rw [h]
    cases complaint r <;> rfl
  · simp only [hf] at h
    rcases ho : obj v with _ | e
    · simp only [ho] at h ⊢
      rw [h]
      simp only [World.addLog_addLog, Option.getD_none]
      refine Prod.ext ?_ (Prod.ext rfl ?_)
      · cases complaint (sequel p (k (.error (.callbackError .earlyReturn)))).result <;> rfl
      · simp [evaluations]
    · simp only [ho] at h ⊢
      rw [h]
      simp only [World.addLog_addLog, Option.getD_some]
      refine Prod.ext ?_ (Prod.ext rfl ?_)
      · cases complaint (sequel p (k (.error e))).result <;> rfl
      · simp [evaluations]

theorem needWith_settled {p : Property} {f : p.Value → M S p.Value} {obj : p.Value → Option SessionError}
    (hf : ∀ v s w, f v s w = (match obj v with | none => .ok v | some e => .err e, s, w)) (env : Env)
    (ctx : Provider) (s : S) (w : World) :
    needWith env p ctx f s w =
      (match settledNeed p obj (env.callback w.log env.sd ctx) with | .ok v => .ok v | .error e => .err e, s,
        w.addLog (settledLog p obj ctx (env.callback w.log env.sd ctx))) := by
  unfold needWith settledNeed
  have h := maybeNeedWith_settled hf env ctx s w
  rcases hs : settled p obj (env.callback w.log env.sd ctx) with e | (_ | v)
  · rw [hs] at h; rw [M.bind_err h]
  · rw [hs] at h; rw [M.bind_ok h]; rfl
  · rw [hs] at h; rw [M.bind_ok h]; rfl

namespace Gssapi

variable {lib : Lib}

theorem clientAcceptable_objection (ctx : lib.Ctx) (a : SecurityLayer) (s : CState lib) (w : World) :
    clientAcceptable lib ctx a s w =
      (match objection (lib.flags ctx) a with | none => .ok a | some e => .err e, s, w) := by
  unfold clientAcceptable objection
  rcases hf : lib.flags ctx with n | fl
  · rw [M.bind_err (liftGss_error rfl s w)]
  · rw [M.bind_ok (liftGss_ok rfl s w)]
    have hn : a.contains .none = true ↔ Allows a.bits .none := contains_iff a .none
    have hi : a.contains .integrity = true ↔ Allows a.bits .integrity := contains_iff a .integrity
    have he : a.isEmpty = true ↔ a.bits = 0 := by simp [SecurityLayer.isEmpty]
    have hc : (fl.integ && fl.mutualAuth && fl.conf) = true ↔ Supports fl .confidentiality := by
      unfold Supports
      simp only [Bool.and_eq_true]
      tauto
    by_cases h : a.bits = 0 ∨ Allows a.bits .none ∨ (Allows a.bits .integrity ∧ fl.integ = true) ∨
        Supports fl .confidentiality
    · simp only [if_pos h]
      by_cases h1 : (a.isEmpty || a.contains .none) = true
      · rw [if_pos h1]; rfl
      · rw [if_neg h1]
        rw [Bool.or_eq_true, he, hn] at h1
        by_cases h2 : (a.contains .integrity && fl.integ) = true
        · rw [if_pos h2]; rfl
        · rw [if_neg h2]
          rw [Bool.and_eq_true, hi] at h2
          rw [if_pos (hc.2 (by tauto))]; rfl
    · simp only [if_neg h]
      rw [if_neg (by rw [Bool.or_eq_true, he, hn]; tauto), if_neg (by rw [Bool.and_eq_true, hi]; tauto),
        if_neg (by rw [hc]; tauto)]
      rfl

/-- What the writer is given, and what comes back. -/
theorem writeAll_apply {T : Type} (t : Bytes) (s : T) (wr : Writer) (rng : Nat → Nat) (slot : Option VVal) (log : List Event) :
    (M.writeAll t : M T Unit) s ⟨wr, rng, slot, log⟩ =
      (match (Writer.writeAll wr t).1 with | .ok () => .ok () | .error e => .err (.io e), s,
        ⟨(Writer.writeAll wr t).2, rng, slot, log⟩) := by
  unfold M.writeAll
  rcases h : Writer.writeAll wr t with ⟨_ | _, w⟩ <;> simp

/-- What a client does after its token. -/
def afterToken (lib : Lib) (env : Env) (ctx : lib.Ctx) : M (CState lib) State :=
  if lib.isComplete ctx = true then do
    let acceptable ← maybeNeedWith env .gssSecurityLayer .empty (clientAcceptable lib ctx)
    M.set (.last ctx (match acceptable with
      | some a => a
      | none => .all))
    pure .running
  else do
    M.set (.pending ctx)
    pure .running

/-- The client's token, if there is one, is written; an empty one needs no call of the writer. -/
theorem clientPending_token {env : Env} {ctx : lib.Ctx} {input t : Option Bytes}
    (hs : (lib.clientStep ctx input).1 = .ok t) (s : CState lib) (wr : Writer) (rng : Nat → Nat)
    (slot : Option VVal) (log : List Event) :
    clientPending lib env ctx input s ⟨wr, rng, slot, log⟩ =
      (do M.writeAll (t.getD []); afterToken lib env (lib.clientStep ctx input).2 : M (CState lib) State) s
        ⟨wr, rng, slot, log⟩ := by
  have h0 : Writer.writeAll wr [] = (.ok (), wr) := by
    obtain ⟨o, sc⟩ := wr
    cases sc <;> rfl
  have h1 := writeAll_apply (T := CState lib) [] s wr rng slot log
  rw [h0] at h1
  unfold clientPending
  dsimp only
  rw [hs, M.bind_ok (liftGss_ok rfl _ _)]
  rcases t with _ | (_ | ⟨b, t⟩)
  · rw [Option.getD_none, M.bind_ok h1]; rfl
  · rw [Option.getD_some, M.bind_ok h1]; rfl
  · rfl

theorem clientPending_goesOn (env : Env) (ctx : lib.Ctx) (input : Option Bytes) (sched : List WResp)
    (rng : Nat → Nat) (slot : Option VVal) (log : List Event) :
    ∃ o st w, clientPending lib env ctx input .errored ⟨⟨[], sched⟩, rng, slot, log⟩ = (o, st, w) ∧
      ∃ l, w.log = log ++ l ∧
      ClientGoesOn lib ctx (env.callback log env.sd .empty) sched input ⟨o, w.wr.out⟩ st l := by
  rcases hs : (lib.clientStep ctx input).1 with n | t
  · refine ⟨.err (.mechanismError (.gss n)), .errored, ⟨⟨[], sched⟩, rng, slot, log⟩, ?_, [],
      (List.append_nil _).symm, .refused hs⟩
    unfold clientPending
    dsimp only
    rw [hs, M.bind_err (liftGss_error rfl _ _)]
  · rw [clientPending_token hs]
    have ht := writeAll_apply (T := CState lib) (t.getD []) .errored ⟨[], sched⟩ rng slot log
    rcases hw : Writer.writeAll ⟨[], sched⟩ (t.getD []) with ⟨e | u, w⟩
    · rw [hw] at ht
      rw [M.bind_err ht]
      exact ⟨_, _, _, rfl, [], (List.append_nil _).symm, .unwritten hs hw⟩
    · rw [hw] at ht
      rw [M.bind_ok ht]
      unfold afterToken
      rcases hc : lib.isComplete (lib.clientStep ctx input).2 with _ | _
      · exact ⟨_, _, _, rfl, [], (List.append_nil _).symm, .incomplete hs hw hc⟩
      · have ha := maybeNeedWith_settled (S := CState lib) (p := .gssSecurityLayer)
          (clientAcceptable_objection (lib.clientStep ctx input).2) env .empty
          .errored ⟨w, rng, slot, log⟩
        simp only [if_true]
        rcases hr : settled .gssSecurityLayer (objection (lib.flags (lib.clientStep ctx input).2))
            (env.callback log env.sd .empty) with e | a
        · simp only [hr] at ha
          rw [M.bind_err ha]
          exact ⟨_, _, _, rfl, _, rfl, .failed hs hw hc hr⟩
        · simp only [hr] at ha
          rw [M.bind_ok ha, M.bind_ok (M.set_apply ..)]
          refine ⟨_, _, _, rfl, _, rfl, ?_⟩
          have := ClientGoesOn.complete (sched := sched) hs hw hc hr
          cases a <;> exact this

/-- Exactly how a step of a client with a context ends: the reply, the state after it and what happened. -/
theorem C101_client (env : Env) (ctx : lib.Ctx) (ses : Session (CState lib)) (hst : ses.st = .pending ctx)
    (c : Call) :
    ∃ l, (ses.step (client lib) env c).2.log = ses.log ++ l ∧
      ClientGoesOn lib ctx (env.callback ses.log env.sd .empty) c.sched c.input
        (ses.step (client lib) env c).1 (ses.step (client lib) env c).2.st l := by
  obtain ⟨o, st, w, h1, l, h2, h3⟩ :=
    clientPending_goesOn env ctx c.input c.sched ses.rng ses.slot ses.log
  have he : ses.step (client lib) env c = (⟨o, w.wr.out⟩, ⟨st, w.slot, w.rng, w.log⟩) :=
    step_of (m := client lib) (by rw [hst]; exact h1)
  rw [he]
  exact ⟨l, h2, h3⟩

/-- Exactly how the first step of a client ends. -/
theorem C101_client_begins (env : Env) (ses : Session (CState lib)) (hst : ses.st = .initial) (c : Call) :
    ∃ l, (ses.step (client lib) env c).2.log = ses.log ++ l ∧
      ClientBegins lib (fun log => env.callback log env.sd .empty) c.sched c.input ses.log
        (ses.step (client lib) env c).1 (ses.step (client lib) env c).2.st l := by
  have key : ∃ o st w, clientStep lib env c.input .initial ⟨⟨[], c.sched⟩, ses.rng, ses.slot, ses.log⟩ = (o, st, w) ∧
      ∃ l, w.log = ses.log ++ l ∧
      ClientBegins lib (fun log => env.callback log env.sd .empty) c.sched c.input ses.log ⟨o, w.wr.out⟩ st l := by
    unfold clientStep
    rw [M.bind_ok (M.get_apply ..), M.bind_ok (M.set_apply ..)]
    simp only []
    have hs := needWith_settled (S := CState lib) (p := .gssService) (f := fun s => pure s) (obj := fun _ => none)
      (fun _ _ _ => rfl) env .empty .errored ⟨⟨[], c.sched⟩, ses.rng, ses.slot, ses.log⟩
    rcases hr : settledNeed .gssService (fun _ => none) (env.callback ses.log env.sd .empty) with e | s
    · simp only [hr] at hs
      rw [M.bind_err hs]
      exact ⟨_, _, _, rfl, _, rfl, .nameless hr⟩
    · simp only [hr] at hs
      rw [M.bind_ok hs]
      generalize hl : settledLog .gssService (fun _ => none) .empty (env.callback ses.log env.sd .empty) = l
      have hh := needWith_settled (S := CState lib) (p := .hostname) (f := fun s => pure s)
        (obj := fun _ => none) (fun _ _ _ => rfl) env .empty .errored
        ⟨⟨[], c.sched⟩, ses.rng, ses.slot, ses.log ++ l⟩
      rcases hq : settledNeed .hostname (fun _ => none) (env.callback (ses.log ++ l) env.sd .empty) with e | host
      · simp only [hq] at hh
        rw [World.addLog, M.bind_err hh]
        exact ⟨_, _, _, rfl, _, List.append_assoc .., .placeless hr hl.symm hq⟩
      · simp only [hq] at hh
        rw [World.addLog, M.bind_ok hh]
        generalize hl' : settledLog .hostname (fun _ => none) .empty
          (env.callback (ses.log ++ l) env.sd .empty) = l'
        rcases hn : lib.newClient (Str.bytes (s ++ c!"@" ++ host)) with n | ctx
        · have hn' : lib.newClient (Str.bytes (s ++ '@' :: host)) = .error n := by
            rw [← hn]; simp
          rw [hn', M.bind_err (liftGss_error rfl _ _)]
          exact ⟨_, _, _, rfl, _, List.append_assoc .., .unmade hr hl.symm hq (by rw [hl']) hn⟩
        · have hn' : lib.newClient (Str.bytes (s ++ '@' :: host)) = .ok ctx := by
            rw [← hn]; simp
          rw [hn', M.bind_ok (liftGss_ok rfl _ _)]
          obtain ⟨o, st, w, h1, l'', h2, h3⟩ :=
            clientPending_goesOn env ctx c.input c.sched ses.rng ses.slot (ses.log ++ l ++ l')
          refine ⟨o, st, w, h1, (l ++ l') ++ l'', by rw [h2]; simp, ?_⟩
          refine .made hr hl.symm hq (by rw [hl']) hn ?_
          rw [← List.append_assoc]
          exact h3
  obtain ⟨o, st, w, h1, l, h2, h3⟩ := key
  have he : ses.step (client lib) env c = (⟨o, w.wr.out⟩, ⟨st, w.slot, w.rng, w.log⟩) :=
    step_of (m := client lib) (by rw [hst]; exact h1)
  rw [he]
  exact ⟨l, h2, h3⟩

/-! ## The server -/

theorem leaves_unique {fl : Flags} {a r r' : UInt8} (h : Leaves fl a r) (h' : Leaves fl a r') : r = r' :=
  UInt8.toNat_inj.mp (Nat.eq_of_testBit_eq fun i => Bool.eq_iff_iff.mpr ((h i).trans (h' i).symm))

set_option maxRecDepth 100000 in
theorem leaves_table : ∀ n : Fin 256, ∀ m cf ig : Bool, ∀ i : Fin 8,
    (serverRestrict ⟨UInt8.ofFin n⟩ ⟨m, cf, ig⟩).bits.toNat.testBit i = true ↔
      (UInt8.ofFin n).toNat.testBit i = true ∧ ((i : Nat) = 1 → ig = true) ∧
        ((i : Nat) = 2 → m = true ∧ cf = true) := by
  decide +kernel

theorem testBit_of_le {b : UInt8} {i : Nat} (h : 8 ≤ i) : b.toNat.testBit i = false :=
  Nat.testBit_lt_two_pow (Nat.lt_of_lt_of_le b.toNat_lt (Nat.pow_le_pow_right (by decide) h))

/-- What the server leaves of a set of layers. -/
theorem serverRestrict_leaves (a : SecurityLayer) (fl : Flags) : Leaves fl a.bits (serverRestrict a fl).bits := by
  intro i
  obtain ⟨m, cf, ig⟩ := fl
  by_cases h : i < 8
  · exact leaves_table a.bits.toFin m cf ig ⟨i, h⟩
  · rw [testBit_of_le (by omega), testBit_of_le (by omega)]
    simp

set_option maxRecDepth 100000 in
theorem offer_table : ∀ n : Fin 256,
    (if (⟨UInt8.ofFin n⟩ : SecurityLayer).intersects (SecurityLayer.confidentiality.union .integrity) then
        [UInt8.ofFin n, 0xFF, 0xFF, 0xFF]
      else [UInt8.ofFin n, 0x00, 0x00, 0x00] : Bytes) = offerOf (UInt8.ofFin n) := by
  decide +kernel

theorem offer_eq (r : SecurityLayer) :
    (if r.intersects (SecurityLayer.confidentiality.union .integrity) then [r.bits, 0xFF, 0xFF, 0xFF]
      else [r.bits, 0x00, 0x00, 0x00] : Bytes) = offerOf r.bits :=
  offer_table r.bits.toFin

theorem serverInstalled_offers (ctx : lib.Ctx) (r : SecurityLayer) (sched : List WResp)
    (rng : Nat → Nat) (slot : Option VVal) (log : List Event) :
    ∃ o st w, serverInstalled lib ctx r .errored ⟨⟨[], sched⟩, rng, slot, log⟩ = (o, st, w) ∧ w.log = log ∧
      ServerOffers lib ctx r sched ⟨o, w.wr.out⟩ st := by
  unfold serverInstalled
  rw [offer_eq]
  dsimp only
  rcases hs : (lib.wrap ctx false (offerOf r.bits)).1 with n | t
  · rw [M.bind_err (liftGss_error rfl _ _)]
    exact ⟨_, _, _, rfl, rfl, .unwrapped hs⟩
  · rw [M.bind_ok (liftGss_ok rfl _ _)]
    have ht := writeAll_apply (T := SState lib) t .errored ⟨[], sched⟩ rng slot log
    rcases hw : Writer.writeAll ⟨[], sched⟩ t with ⟨e | u, w⟩
    · rw [hw] at ht
      rw [M.bind_err ht]
      exact ⟨_, _, _, rfl, rfl, .unwritten hs hw⟩
    · rw [hw] at ht
      rw [M.bind_ok ht]
      exact ⟨_, _, _, rfl, rfl, .sent hs hw⟩

/-- What a server does once it knows the acceptable layers. -/
def afterLayers (lib : Lib) (ctx : lib.Ctx) (token : Option Bytes) (a : SecurityLayer) : M (SState lib) State := do
  let flags ← liftGss (lib.flags ctx)
  let acceptable := serverRestrict a flags
  if acceptable.isEmpty then M.fail badContext
  else do
    M.set (.installed ctx acceptable)
    match token with
    | some token => do
      M.writeAll token
      pure .running
    | none => do
      M.set .errored
      serverInstalled lib ctx acceptable

theorem afterLayers_goesOn {ctx : lib.Ctx} {prog : CbProg} {i : Bytes} {t : Option Bytes}
    {a : Option SecurityLayer} (sched : List WResp)
    (rng : Nat → Nat) (slot : Option VVal) (log : List Event)
    (hs : (lib.serverStep ctx i).1 = .ok t) (hc : lib.isComplete (lib.serverStep ctx i).2 = true)
    (hr : settled .gssSecurityLayer (fun _ => none) prog = .ok a) {l : List Event}
    (hl : l = settledLog .gssSecurityLayer (fun _ => none) .empty prog) :
    ∃ o st w, afterLayers lib (lib.serverStep ctx i).2 t (orAll a) .errored ⟨⟨[], sched⟩, rng, slot,
        log ++ l⟩ = (o, st, w) ∧
      ∃ l, w.log = log ++ l ∧ ServerGoesOn lib ctx prog sched (some i) ⟨o, w.wr.out⟩ st l := by
  subst hl
  unfold afterLayers
  rcases hf : lib.flags (lib.serverStep ctx i).2 with n | fl
  · rw [M.bind_err (liftGss_error rfl _ _)]
    exact ⟨_, _, _, rfl, _, rfl, .flagless hs hc hr hf⟩
  rw [M.bind_ok (liftGss_ok rfl _ _)]
  have hl := serverRestrict_leaves (orAll a) fl
  generalize serverRestrict (orAll a) fl = r at hl
  by_cases he : r.bits = 0
  · have : r.isEmpty = true := by simp [SecurityLayer.isEmpty, he]
    simp only [this, if_true]
    exact ⟨_, _, _, rfl, _, rfl, .layerless hs hc hr hf (he ▸ hl)⟩
  · have : r.isEmpty = false := by simp [SecurityLayer.isEmpty, he]
    simp only [this, Bool.false_eq_true, if_false]
    rw [M.bind_ok (M.set_apply ..)]
    rcases t with _ | t
    · simp only []
      rw [M.bind_ok (M.set_apply ..)]
      obtain ⟨o, st, w, h1, h2, h3⟩ := serverInstalled_offers (lib.serverStep ctx i).2 r sched rng slot
        (log ++ settledLog .gssSecurityLayer (fun _ => none) .empty prog)
      exact ⟨o, st, w, h1, _, h2, .offers hs hc hr hf hl he h3⟩
    · simp only []
      have ht := writeAll_apply (T := SState lib) t (.installed (lib.serverStep ctx i).2 r) ⟨[], sched⟩ rng slot
        (log ++ settledLog .gssSecurityLayer (fun _ => none) .empty prog)
      rcases hw : Writer.writeAll ⟨[], sched⟩ t with ⟨e | u, w⟩
      · rw [hw] at ht
        rw [M.bind_err ht]
        exact ⟨_, _, _, rfl, _, rfl, .answered_unwritten hs hc hr hf hl he hw⟩
      · rw [hw] at ht
        rw [M.bind_ok ht]
        exact ⟨_, _, _, rfl, _, rfl, .answered hs hc hr hf hl he hw⟩

theorem serverPending_goesOn (env : Env) (ctx : lib.Ctx) (input : Option Bytes) (sched : List WResp)
    (rng : Nat → Nat) (slot : Option VVal) (log : List Event) :
    ∃ o st w, serverPending lib env ctx input .errored ⟨⟨[], sched⟩, rng, slot, log⟩ = (o, st, w) ∧
      ∃ l, w.log = log ++ l ∧
      ServerGoesOn lib ctx (env.callback log env.sd .empty) sched input ⟨o, w.wr.out⟩ st l := by
  unfold serverPending
  rcases input with _ | i
  · exact ⟨_, _, _, rfl, [], (List.append_nil _).symm, .nothing⟩
  rw [M.bind_ok (M.okOr_some ..)]
  dsimp only
  rcases hs : (lib.serverStep ctx i).1 with n | t
  · rw [M.bind_err (liftGss_error rfl _ _)]
    exact ⟨_, _, _, rfl, [], (List.append_nil _).symm, .refused hs⟩
  rw [M.bind_ok (liftGss_ok rfl _ _)]
  rcases hc : lib.isComplete (lib.serverStep ctx i).2 with _ | _
  · simp only [Bool.false_eq_true, if_false]
    rcases t with _ | t
    · exact ⟨_, _, _, rfl, [], (List.append_nil _).symm, .incomplete_silent hs hc⟩
    · have ht := writeAll_apply (T := SState lib) t .errored ⟨[], sched⟩ rng slot log
      simp only []
      rcases hw : Writer.writeAll ⟨[], sched⟩ t with ⟨e | u, w⟩
      · rw [hw] at ht
        rw [M.bind_err ht]
        exact ⟨_, _, _, rfl, [], (List.append_nil _).symm, .incomplete_unwritten hs hc hw⟩
      · rw [hw] at ht
        rw [M.bind_ok ht]
        exact ⟨_, _, _, rfl, [], (List.append_nil _).symm, .incomplete hs hc hw⟩
  · simp only [if_true]
    have ha := maybeNeedWith_settled (S := SState lib) (p := .gssSecurityLayer) (f := fun a => pure a)
      (obj := fun _ => none) (fun _ _ _ => rfl) env .empty .errored ⟨⟨[], sched⟩, rng, slot, log⟩
    rcases hr : settled .gssSecurityLayer (fun _ => none) (env.callback log env.sd .empty) with e | a
    · simp only [hr] at ha
      rw [M.bind_err ha]
      exact ⟨_, _, _, rfl, _, rfl, .failed hs hc hr⟩
    simp only [hr] at ha
    rw [M.bind_ok ha, World.addLog]
    generalize hl : settledLog .gssSecurityLayer (fun _ => none) .empty (env.callback log env.sd .empty) = l
    have := afterLayers_goesOn sched rng slot log hs hc hr hl.symm
    cases a <;> exact this

/-- Exactly how a step of a server with a context ends. -/
theorem C101_server (env : Env) (ctx : lib.Ctx) (ses : Session (SState lib)) (hst : ses.st = .pending ctx)
    (c : Call) :
    ∃ l, (ses.step (server lib) env c).2.log = ses.log ++ l ∧
      ServerGoesOn lib ctx (env.callback ses.log env.sd .empty) c.sched c.input
        (ses.step (server lib) env c).1 (ses.step (server lib) env c).2.st l := by
  obtain ⟨o, st, w, h1, l, h2, h3⟩ :=
    serverPending_goesOn env ctx c.input c.sched ses.rng ses.slot ses.log
  have he : ses.step (server lib) env c = (⟨o, w.wr.out⟩, ⟨st, w.slot, w.rng, w.log⟩) :=
    step_of (m := server lib) (by rw [hst]; exact h1)
  rw [he]
  exact ⟨l, h2, h3⟩

/-- Exactly how the first step of a server ends. -/
theorem C101_server_begins (env : Env) (ses : Session (SState lib)) (hst : ses.st = .initial) (c : Call) :
    match lib.newServer with
    | .error n => ses.step (server lib) env c =
        (⟨.err (.mechanismError (.gss n)), []⟩, { ses with st := .errored })
    | .ok ctx => ∃ l, (ses.step (server lib) env c).2.log = ses.log ++ l ∧
        ServerGoesOn lib ctx (env.callback ses.log env.sd .empty) c.sched c.input
          (ses.step (server lib) env c).1 (ses.step (server lib) env c).2.st l := by
  rcases hn : lib.newServer with n | ctx
  · refine step_of (m := server lib) (w' := ⟨⟨[], c.sched⟩, ses.rng, ses.slot, ses.log⟩) ?_
    rw [hst]
    show serverStep lib env c.input .initial _ = _
    unfold serverStep
    rw [M.bind_ok (M.get_apply ..), M.bind_ok (M.set_apply ..)]
    simp only [hn]
    rw [M.bind_err (liftGss_error rfl _ _)]
    rfl
  · obtain ⟨o, st, w, h1, l, h2, h3⟩ :=
      serverPending_goesOn env ctx c.input c.sched ses.rng ses.slot ses.log
    have he : ses.step (server lib) env c = (⟨o, w.wr.out⟩, ⟨st, w.slot, w.rng, w.log⟩) := by
      refine step_of (m := server lib) ?_
      rw [hst]
      show serverStep lib env c.input .initial _ = _
      unfold serverStep
      rw [M.bind_ok (M.get_apply ..), M.bind_ok (M.set_apply ..)]
      simp only [hn]
      rw [M.bind_ok (liftGss_ok rfl _ _)]
      exact h1
    simp only [he]
    exact ⟨l, h2, h3⟩

/-- Exactly how the step ends in which a server sends its offer; nobody is asked. -/
theorem C101_server_offers (env : Env) (ctx : lib.Ctx) (r : SecurityLayer) (ses : Session (SState lib))
    (hst : ses.st = .installed ctx r) (c : Call) :
    (ses.step (server lib) env c).2.log = ses.log ∧
      ServerOffers lib ctx r c.sched (ses.step (server lib) env c).1 (ses.step (server lib) env c).2.st := by
  obtain ⟨o, st, w, h1, h2, h3⟩ :=
    serverInstalled_offers ctx r c.sched ses.rng ses.slot ses.log
  have he : ses.step (server lib) env c = (⟨o, w.wr.out⟩, ⟨st, w.slot, w.rng, w.log⟩) :=
    step_of (m := server lib) (by rw [hst]; exact h1)
  rw [he]
  exact ⟨h2, h3⟩

/-! ## The descriptions leave no choice -/

theorem C101_client_unique {ctx : lib.Ctx} {prog : CbProg} {sched : List WResp} {input : Option Bytes}
    {r r' : Reply State} {st st' : CState lib} {l l' : List Event}
    (h : ClientGoesOn lib ctx prog sched input r st l) (h' : ClientGoesOn lib ctx prog sched input r' st' l') :
    r = r' ∧ st = st' ∧ l = l' := by
  cases h <;> cases h' <;> simp_all

theorem C101_begins_unique {asks : List Event → CbProg} {sched : List WResp} {input : Option Bytes}
    {log : List Event} {r r' : Reply State} {st st' : CState lib} {l l' : List Event}
    (h : ClientBegins lib asks sched input log r st l) (h' : ClientBegins lib asks sched input log r' st' l') :
    r = r' ∧ st = st' ∧ l = l' := by
  cases h <;> cases h'
  case made.made h hl hh hl' hn hg _ _ _ _ _ _ k kl kh kl' kn kg =>
    subst hl; subst kl
    cases h.symm.trans k
    cases hh.symm.trans kh
    subst hl'; subst kl'
    cases hn.symm.trans kn
    obtain ⟨rfl, rfl, rfl⟩ := C101_client_unique hg kg
    exact ⟨rfl, rfl, rfl⟩
  all_goals simp_all

theorem C101_offers_unique {ctx : lib.Ctx} {o : SecurityLayer} {sched : List WResp}
    {r r' : Reply State} {st st' : SState lib}
    (h : ServerOffers lib ctx o sched r st) (h' : ServerOffers lib ctx o sched r' st') :
    r = r' ∧ st = st' := by
  cases h <;> cases h' <;> simp_all

theorem C101_server_unique {ctx : lib.Ctx} {prog : CbProg} {sched : List WResp} {input : Option Bytes}
    {r r' : Reply State} {st st' : SState lib} {l l' : List Event}
    (h : ServerGoesOn lib ctx prog sched input r st l) (h' : ServerGoesOn lib ctx prog sched input r' st' l') :
    r = r' ∧ st = st' ∧ l = l' := by
  have hz : ∀ {fl a} {r : SecurityLayer}, r.bits ≠ 0 → Leaves fl a 0 → Leaves fl a r.bits → False :=
    fun hr h h' => hr (leaves_unique h h').symm
  have hu : ∀ {fl a} {r r' : SecurityLayer}, Leaves fl a r.bits → Leaves fl a r'.bits → r = r' := by
    rintro fl a ⟨r⟩ ⟨r'⟩ h h'
    exact congrArg SecurityLayer.mk (leaves_unique h h')
  cases h <;> cases h'
  all_goals try (simp_all; done)
  case offers.offers h hc ha hf hl hr ho a' fl' r' ha' hl' hr' h' hc' hf' ho' =>
    cases ha.symm.trans ha'
    cases hf.symm.trans hf'
    cases hu hl hl'
    obtain ⟨rfl, rfl⟩ := C101_offers_unique ho ho'
    exact ⟨rfl, rfl, rfl⟩
  all_goals simp_all
  all_goals exact hu ‹_› ‹_›

/-- A client has nothing against a set of layers exactly if it is empty or its context can do one of them. -/
theorem C101_objection {fl : Flags} {a : SecurityLayer} (ha : a.bits.toNat < 8) :
    objection (.ok fl) a = none ↔ a.bits = 0 ∨ ∃ l, Allows a.bits l ∧ Supports fl l := by
  have e := clientAcceptable_objection (lib := { toyGss with flags := fun _ => .ok fl }) () a .errored
    ⟨⟨[], []⟩, fun _ => 0, none, []⟩
  rcases clientAcceptable_exact (lib := { toyGss with flags := fun _ => .ok fl }) (ctx := ()) rfl ha .errored
      ⟨⟨[], []⟩, fun _ => 0, none, []⟩ with ⟨h, h'⟩ | ⟨⟨h0, h⟩, h'⟩
  · rw [h'] at e
    refine ⟨fun _ => h, fun _ => ?_⟩
    rcases ho : objection (.ok fl) a with _ | x
    · rfl
    · simp [ho] at e
  · rw [h'] at e
    refine ⟨fun ho => ?_, fun k => absurd k (by simp [h0, h])⟩
    simp [ho] at e

/-! ## Steps -/

/-- A client that is told its service and host makes its context, which has no token to send; it accepts the
layer it is told. -/
example : ∃ l, ((⟨.initial, none, fun _ => 0, []⟩ : Session (CState toyGss)).step (client toyGss)
      (exampleEnv [⟨.gssService, c!"imap"⟩, ⟨.hostname, c!"h"⟩, ⟨.gssSecurityLayer, ⟨1⟩⟩]) ⟨none, []⟩).2 =
    ⟨.last () ⟨1⟩, none, fun _ => 0, l⟩ := ⟨_, rfl⟩

/-- It does not accept a layer its context lacks. -/
example : objection (.ok ⟨true, false, false⟩) ⟨2⟩ = some (.mechanismError .gssBadContext) := rfl
example : objection (.ok ⟨true, false, false⟩) ⟨3⟩ = none := rfl

/-- What is left of all layers without protection of integrity. -/
example : serverRestrict ⟨7⟩ ⟨true, true, false⟩ = ⟨5⟩ := rfl
example : Leaves ⟨true, true, false⟩ 7 5 := serverRestrict_leaves ⟨7⟩ ⟨true, true, false⟩

/-- The offer. -/
example : offerOf 5 = [5, 255, 255, 255] := rfl
example : offerOf 1 = [1, 0, 0, 0] := rfl

/-- A server whose context is complete at once, with nothing to say, makes its offer at once. -/
example : ((⟨.pending (), none, fun _ => 0, []⟩ : Session (SState toyGss)).step (server toyGss)
      (exampleEnv [⟨.gssSecurityLayer, ⟨1⟩⟩]) ⟨some [9], []⟩).2.st = .final () ⟨1⟩ := rfl

end Gssapi

end Rsasl

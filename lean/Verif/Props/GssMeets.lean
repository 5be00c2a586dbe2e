/-
C109: exactly when a GSSAPI exchange succeeds.
-/
import Verif.Spec.GssMeets
import Verif.Props.GssSteps
import Verif.Props.GssFinal
import Verif.Props.GssLayer
import Verif.Props.ScramMeets

namespace Rsasl.Gssapi

open Spec

variable {lib : Lib}

/-- The end of both exchanges: a client that waits for an offer and a server that has sent one. -/
theorem last_two {R : lib.Ctx → lib.Ctx → Prop} (hR : Connects lib R) (cenv senv : Env) (c : Session (CState lib))
    (s : Session (SState lib)) (cx dx d' : lib.Ctx) (a r : SecurityLayer) (offer : Bytes) (hc : c.st = .last cx a)
    (hd : R dx cx) (hw : lib.wrap dx false (offerOf r.bits) = (.ok offer, d')) (hs : s.st = .final d' r)
    (w w' : List WResp) (hw' : Patient w) :
    ((passed (c.step (client lib) cenv ⟨some offer, w⟩)).bind fun x =>
      (passed (s.step (server lib) senv ⟨some x.1, w'⟩)).map fun y => (x.2, y.2)).isSome = true ↔
      r.bits.toNat < 8 ∧ ∃ l, Allows a.bits l ∧ Allows r.bits l := by
  obtain ⟨y, d₂, c₁, hw₂, hu, hr⟩ := hR.carries dx cx hd false (offerOf r.bits)
  rw [hw] at hw₂
  cases hw₂
  obtain ⟨x₁, x₂, x₃, ho⟩ : ∃ x y z, offerOf r.bits = [r.bits, x, y, z] := by
    unfold offerOf
    split <;> exact ⟨_, _, _, rfl⟩
  obtain ⟨he, -⟩ := C93_client cenv cx a c hc ⟨some offer, w⟩
  generalize c.step (client lib) cenv ⟨some offer, w⟩ = rc at he
  obtain ⟨rc, c'⟩ := rc
  simp only at he
  by_cases hlt : r.bits.toNat < 8
  · have hls : LayerSet (offerOf r.bits) r.bits := ⟨hlt, x₁, x₂, x₃, ho⟩
    by_cases hsh : ∃ l, Allows a.bits l ∧ Allows r.bits l
    · obtain ⟨l₀, h1, h2⟩ := hsh
      obtain ⟨l, hl⟩ : ∃ l, Strongest r.bits a.bits l := by
        by_cases h3 : Allows r.bits .confidentiality ∧ Allows a.bits .confidentiality
        · exact ⟨_, h3.1, h3.2, fun l' _ _ => by cases l' <;> decide⟩
        · by_cases h4 : Allows r.bits .integrity ∧ Allows a.bits .integrity
          · refine ⟨_, h4.1, h4.2, fun l' g1 g2 => ?_⟩
            cases l'
            · decide
            · decide
            · exact absurd ⟨g1, g2⟩ h3
          · cases l₀
            · refine ⟨.none, h2, h1, fun l' g1 g2 => ?_⟩
              cases l'
              · decide
              · exact absurd ⟨g1, g2⟩ h4
              · exact absurd ⟨g1, g2⟩ h3
            · exact absurd ⟨h2, h1⟩ h4
            · exact absurd ⟨h2, h1⟩ h3
      obtain ⟨y, c₂, d₃, hw₃, hu₃, -⟩ := hR.carries c₁ d' (hR.symm _ _ hr) false
        (l.only :: if l = .none then [0, 0, 0] else [255, 255, 255])
      obtain ⟨sc, -, hwr⟩ := Writer.writeAll_patient (w := ⟨[], w⟩) hw' y
      have hch := ClientEnd.chosen (lib := lib) (ctx := cx) (allowed := a.bits) (sched := w) (i := offer)
        (congrArg Prod.fst hu) hls hl (congrArg Prod.fst ((congrArg (fun z => lib.wrap z false _)
          (congrArg Prod.snd hu)).trans hw₃)) hwr
      cases C93_client_unique he hch
      simp only [passed_ok, Option.bind_some, List.nil_append]
      obtain ⟨hse, -, -⟩ := C93_server senv d' r s hs ⟨some y, w'⟩
      have hls' : LayerSet (l.only :: if l = .none then [0, 0, 0] else [255, 255, 255]) l.only := by
        cases l
        · exact ⟨by decide, 0, 0, 0, rfl⟩
        · exact ⟨by decide, 255, 255, 255, rfl⟩
        · exact ⟨by decide, 255, 255, 255, rfl⟩
      have honly : Allows l.only l := by
        unfold Allows
        cases l <;> decide
      have hok := C93_server_unique hse (ServerEnd.chosen (congrArg Prod.fst hu₃) hls' ⟨honly, hl.1⟩)
      rw [show passed (s.step (server lib) senv ⟨some y, w'⟩) = some ((s.step (server lib) senv ⟨some y, w'⟩).1.out,
        (s.step (server lib) senv ⟨some y, w'⟩).2) from by unfold passed; rw [hok]]
      simp only [Option.map_some, Option.isSome_some, true_iff]
      exact ⟨hlt, l₀, h1, h2⟩
    · have hf := ClientEnd.foreign (lib := lib) (ctx := cx) (allowed := a.bits) (sched := w) (i := offer)
        (congrArg Prod.fst hu) hls (fun l hl => hsh ⟨l, hl.2, hl.1⟩)
      cases C93_client_unique he hf
      simp only [passed, Option.bind_none, Option.isSome_none, Bool.false_eq_true, false_iff]
      exact fun h => hsh h.2
  · have hf := ClientEnd.malformed (lib := lib) (ctx := cx) (allowed := a.bits) (sched := w) (i := offer)
      (congrArg Prod.fst hu) (fun set ⟨hset, y₁, y₂, y₃, hy⟩ => by
        rw [ho] at hy
        cases hy
        exact hlt hset)
    cases C93_client_unique he hf
    simp only [passed, Option.bind_none, Option.isSome_none, Bool.false_eq_true, false_iff]
    exact fun h => hlt h.1

/-- What the client's callback says before there is a context. -/
def Named (lib : Lib) (cenv : Env) (c : Session (CState lib)) (context : lib.Ctx) (l : List Event) : Prop :=
  ∃ service host,
    settledNeed .gssService fine (cenv.callback c.log cenv.sd .empty) = .ok service ∧
    settledNeed .hostname fine (cenv.callback (c.log ++ settledLog .gssService fine .empty
      (cenv.callback c.log cenv.sd .empty)) cenv.sd .empty) = .ok host ∧
    lib.newClient (Str.bytes (service ++ c!"@" ++ host)) = .ok context ∧
    l = settledLog .gssService fine .empty (cenv.callback c.log cenv.sd .empty) ++
      settledLog .hostname fine .empty (cenv.callback (c.log ++ settledLog .gssService fine .empty
        (cenv.callback c.log cenv.sd .empty)) cenv.sd .empty)

theorem client_start (cenv : Env) (c : Session (CState lib)) (hc : c.st = .initial) (call : Call) :
    (passed (c.step (client lib) cenv call) = none ∧ ¬ ∃ context l, Named lib cenv c context l) ∨
    ∃ context l, Named lib cenv c context l ∧ ∃ l', (c.step (client lib) cenv call).2.log = c.log ++ l ++ l' ∧
      ClientGoesOn lib context (cenv.callback (c.log ++ l) cenv.sd .empty) call.sched call.input
        (c.step (client lib) cenv call).1 (c.step (client lib) cenv call).2.st l' := by
  obtain ⟨l, hl, hb⟩ := C101_client_begins cenv c hc call
  generalize c.step (client lib) cenv call = r at hl hb
  obtain ⟨r, st, slot, rng, log⟩ := r
  simp only at hl hb
  have hlog := hl
  clear hl
  cases hb with
  | nameless h =>
    refine .inl ⟨by simp [passed], ?_⟩
    rintro ⟨-, -, s, host, h', -⟩
    cases (show settledNeed _ fine _ = _ from h).symm.trans h'
  | placeless h hl hh =>
    subst hl
    refine .inl ⟨by simp [passed], ?_⟩
    rintro ⟨-, -, s, host, -, h', -⟩
    cases (show settledNeed _ fine _ = _ from hh).symm.trans h'
  | unmade h hl hh hl' hn =>
    subst hl hl'
    refine .inl ⟨by simp [passed], ?_⟩
    rintro ⟨x, -, s, host, h1, h2, h3, -⟩
    cases (show settledNeed _ fine _ = _ from h).symm.trans h1
    cases (show settledNeed _ fine _ = _ from hh).symm.trans h2
    cases hn.symm.trans h3
  | @made s host l l' l'' ctx r st h hl hh hl' hn hg =>
    subst hl hl'
    exact .inr ⟨ctx, _, ⟨s, host, h, hh, hn, rfl⟩, l'', by rw [hlog]; simp; rfl, hg⟩

theorem named_unique {cenv : Env} {c : Session (CState lib)} {x y : lib.Ctx} {l l' : List Event}
    (h : Named lib cenv c x l) (h' : Named lib cenv c y l') : x = y ∧ l = l' := by
  obtain ⟨s, host, h1, h2, h3, rfl⟩ := h
  obtain ⟨s', host', g1, g2, g3, rfl⟩ := h'
  cases h1.symm.trans g1
  cases h2.symm.trans g2
  cases h3.symm.trans g3
  exact ⟨rfl, rfl⟩

theorem agree_iff {flC flS : Flags} {cenv senv : Env} {c : Session (CState lib)} {s : Session (SState lib)}
    {x : lib.Ctx} {l : List Event} (hn : Named lib cenv c x l) :
    GssAgree lib flC flS cenv senv c s ↔ ∃ ours theirs offer,
      settled .gssSecurityLayer (objection (.ok flC)) (cenv.callback (c.log ++ l) cenv.sd .empty) = .ok ours ∧
      settled .gssSecurityLayer fine (senv.callback s.log senv.sd .empty) = .ok theirs ∧
      Leaves flS (orAll theirs).bits offer ∧ offer.toNat < 8 ∧
      ∃ layer, Allows (orAll ours).bits layer ∧ Allows offer layer := by
  obtain ⟨sv, host, h1, h2, h3, rfl⟩ := hn
  constructor
  · rintro ⟨-, -, -, ours, theirs, offer, -, -, -, h⟩
    exact ⟨ours, theirs, offer, h⟩
  · rintro ⟨ours, theirs, offer, h⟩
    exact ⟨sv, host, x, ours, theirs, offer, h1, h2, h3, h⟩

theorem not_agree {flC flS : Flags} {cenv senv : Env} {c : Session (CState lib)} {s : Session (SState lib)}
    (hn : ¬ ∃ x l, Named lib cenv c x l) : ¬ GssAgree lib flC flS cenv senv c s := by
  rintro ⟨sv, host, x, -, -, -, h1, h2, h3, -⟩
  exact hn ⟨x, _, sv, host, h1, h2, h3, rfl⟩

theorem passed_of {S : Type} {r : Reply State × Session S} {st : State} (h : r.1.res = .ok st) :
    passed r = some (r.1.out, r.2) := by
  unfold passed
  rw [h]

/-- C109: exactly when an exchange with a token each way succeeds. -/
theorem C109_each_way {R : lib.Ctx → lib.Ctx → Prop} (hR : Connects lib R) {flC flS : Flags}
    (hlib : ∀ name x, lib.newClient name = .ok x → TokenEachWay lib R flC flS x) (cenv senv : Env)
    (c : Session (CState lib)) (s : Session (SState lib)) (hc : c.st = .initial) (hs : s.st = .initial)
    (w : Fin 6 → List WResp) (hw : ∀ i, Patient (w i)) :
    (gssExchange lib cenv senv c s w).isSome = true ↔ GssAgree lib flC flS cenv senv c s := by
  unfold gssExchange
  rcases client_start cenv c hc ⟨none, w 0⟩ with ⟨h, hn⟩ | ⟨x, l, hn, l', hlog, hg⟩
  · rw [h]
    simp only [Option.bind_none, Option.isSome_none, Bool.false_eq_true, false_iff]
    exact not_agree hn
  rw [agree_iff hn]
  obtain ⟨sv, host, -, -, hx, -⟩ := hn
  obtain ⟨d₀, t₁, c₁, t₂, d, t₃, c₂, hnew, h1, h1', h2, h2', hfS, h3, h3', hfC, hcd⟩ := hlib _ _ hx
  obtain ⟨sc, -, hwr⟩ := Writer.writeAll_patient (w := ⟨[], w 0⟩) (hw 0) (t₁.getD [])
  have hone := ClientGoesOn.incomplete (prog := cenv.callback (c.log ++ l) cenv.sd .empty)
    (congrArg Prod.fst h1) hwr (by rw [h1]; exact h1')
  obtain ⟨hr, hst, rfl⟩ := C101_client_unique hg hone
  rw [passed_of (congrArg Reply.res hr), hr]
  generalize (c.step (client lib) cenv ⟨none, w 0⟩).2 = c' at hst hlog
  simp only [List.append_nil, h1] at hst hlog
  simp only [Option.bind_some, List.nil_append]
  have hb := C101_server_begins senv s hs ⟨some (t₁.getD []), w 1⟩
  rw [hnew] at hb
  simp only at hb
  obtain ⟨l₂, hlog₂, hb⟩ := hb
  rcases hset : settled .gssSecurityLayer (fun _ => none) (senv.callback s.log senv.sd .empty) with e | theirs
  · have hf := ServerGoesOn.failed (lib := lib) (ctx := d₀) (sched := w 1) (congrArg Prod.fst h2) (by rw [h2]; exact h2') hset
    obtain ⟨hr, -, -⟩ := C101_server_unique hb hf
    rw [show passed (s.step (server lib) senv ⟨some (t₁.getD []), w 1⟩) = none from by unfold passed; rw [hr]]
    simp only [Option.bind_none, Option.isSome_none, Bool.false_eq_true, false_iff]
    rintro ⟨ours, theirs, offer, -, h, -⟩
    cases (show settled _ fine _ = _ from hset).symm.trans h
  have hlv := serverRestrict_leaves (orAll theirs) flS
  generalize serverRestrict (orAll theirs) flS = r at hlv
  by_cases hr0 : r.bits = 0
  · rw [hr0] at hlv
    have hf := ServerGoesOn.layerless (lib := lib) (ctx := d₀) (sched := w 1) (congrArg Prod.fst h2) (by rw [h2]; exact h2')
      hset (by rw [h2]; exact hfS) hlv
    obtain ⟨hr, -, -⟩ := C101_server_unique hb hf
    rw [show passed (s.step (server lib) senv ⟨some (t₁.getD []), w 1⟩) = none from by unfold passed; rw [hr]]
    simp only [Option.bind_none, Option.isSome_none, Bool.false_eq_true, false_iff]
    rintro ⟨ours, theirs', offer, -, h, h', -, layer, -, ha⟩
    cases (show settled _ fine _ = _ from hset).symm.trans h
    cases leaves_unique hlv h'
    simp [Allows] at ha
  obtain ⟨sc₁, -, hwr₁⟩ := Writer.writeAll_patient (w := ⟨[], w 1⟩) (hw 1) t₂
  have htwo := ServerGoesOn.answered (lib := lib) (ctx := d₀) (sched := w 1) (congrArg Prod.fst h2) (by rw [h2]; exact h2')
      hset (by rw [h2]; exact hfS) hlv hr0 hwr₁
  obtain ⟨hr, hst₂, -⟩ := C101_server_unique hb htwo
  rw [passed_of (congrArg Reply.res hr), hr]
  generalize (s.step (server lib) senv ⟨some (t₁.getD []), w 1⟩).2 = s' at hst₂ hlog₂
  simp only [Option.bind_some, List.nil_append]
  rw [h2] at hst₂
  obtain ⟨l₃, hlog₃, hg₃⟩ := C101_client cenv c₁ c' hst ⟨some t₂, w 2⟩
  rw [hlog] at hg₃
  obtain ⟨sc₂, -, hwr₂⟩ := Writer.writeAll_patient (w := ⟨[], w 2⟩) (hw 2) (t₃.getD [])
  rcases hset' : settled .gssSecurityLayer (objection (.ok flC)) (cenv.callback (c.log ++ l) cenv.sd .empty) with e | ours
  · have hf := ClientGoesOn.failed (lib := lib) (ctx := c₁) (sched := w 2) (congrArg Prod.fst h3) hwr₂
      (by rw [h3]; exact h3') (by rw [h3]; simp only [hfC]; exact hset')
    obtain ⟨hr, -, -⟩ := C101_client_unique hg₃ hf
    rw [show passed (c'.step (client lib) cenv ⟨some t₂, w 2⟩) = none from by unfold passed; rw [hr]]
    simp
  have hthree := ClientGoesOn.complete (lib := lib) (ctx := c₁) (sched := w 2) (congrArg Prod.fst h3) hwr₂
      (by rw [h3]; exact h3') (by rw [h3]; simp only [hfC]; exact hset')
  obtain ⟨hr, hst₃, -⟩ := C101_client_unique hg₃ hthree
  rw [passed_of (congrArg Reply.res hr), hr]
  generalize (c'.step (client lib) cenv ⟨some t₂, w 2⟩).2 = c'' at hst₃ hlog₃
  simp only [Option.bind_some, List.nil_append]
  rw [h3] at hst₃
  obtain ⟨-, ho⟩ := C101_server_offers senv d r s' hst₂ ⟨some (t₃.getD []), w 3⟩
  obtain ⟨y, d', c₃, hwrap, -, -⟩ := hR.carries d c₂ (hR.symm _ _ hcd) false (offerOf r.bits)
  obtain ⟨sc₃, -, hwr₃⟩ := Writer.writeAll_patient (w := ⟨[], w 3⟩) (hw 3) y
  have hfour := ServerOffers.sent (lib := lib) (ctx := d) (offered := r) (sched := w 3) (congrArg Prod.fst hwrap) hwr₃
  obtain ⟨hr, hst₄⟩ := C101_offers_unique ho hfour
  rw [passed_of (congrArg Reply.res hr), hr]
  generalize (s'.step (server lib) senv ⟨some (t₃.getD []), w 3⟩).2 = s'' at hst₄
  simp only [Option.bind_some, List.nil_append]
  rw [hwrap] at hst₄
  refine (last_two hR cenv senv c'' s'' c₂ d d' (orAll ours) r y hst₃ (hR.symm _ _ hcd) hwrap hst₄ (w 4) (w 5) (hw 4)).trans ?_
  constructor
  · rintro ⟨h, layer, ha, hb⟩
    exact ⟨ours, theirs, r.bits, rfl, hset, hlv, h, layer, ha, hb⟩
  · rintro ⟨ours', theirs', offer, h, h', hl', h8, layer, ha, hb⟩
    cases h
    cases (show settled _ fine _ = _ from hset).symm.trans h'
    cases leaves_unique hlv hl'
    exact ⟨h8, layer, ha, hb⟩

/-- C109: exactly when an exchange with a single token succeeds. -/
theorem C109_one_way {R : lib.Ctx → lib.Ctx → Prop} (hR : Connects lib R) {flC flS : Flags}
    (hlib : ∀ name x, lib.newClient name = .ok x → TokenOneWay lib R flC flS x) (cenv senv : Env)
    (c : Session (CState lib)) (s : Session (SState lib)) (hc : c.st = .initial) (hs : s.st = .initial)
    (w : Fin 4 → List WResp) (hw : ∀ i, Patient (w i)) :
    (gssShortExchange lib cenv senv c s w).isSome = true ↔ GssAgree lib flC flS cenv senv c s := by
  unfold gssShortExchange
  rcases client_start cenv c hc ⟨none, w 0⟩ with ⟨h, hn⟩ | ⟨x, l, hn, l', hlog, hg⟩
  · rw [h]
    simp only [Option.bind_none, Option.isSome_none, Bool.false_eq_true, false_iff]
    exact not_agree hn
  rw [agree_iff hn]
  obtain ⟨sv, host, -, -, hx, -⟩ := hn
  obtain ⟨d₀, t₁, d, c₂, hnew, h1, h1', hfC, h2, h2', hfS, hcd⟩ := hlib _ _ hx
  obtain ⟨sc, -, hwr⟩ := Writer.writeAll_patient (w := ⟨[], w 0⟩) (hw 0) (t₁.getD [])
  rcases hset' : settled .gssSecurityLayer (objection (.ok flC)) (cenv.callback (c.log ++ l) cenv.sd .empty) with e | ours
  · have hf := ClientGoesOn.failed (lib := lib) (ctx := x) (sched := w 0) (congrArg Prod.fst h1) hwr
      (by rw [h1]; exact h1') (by rw [h1]; simp only [hfC]; exact hset')
    obtain ⟨hr, -, -⟩ := C101_client_unique hg hf
    rw [show passed (c.step (client lib) cenv ⟨none, w 0⟩) = none from by unfold passed; rw [hr]]
    simp
  have hone := ClientGoesOn.complete (lib := lib) (ctx := x) (sched := w 0) (congrArg Prod.fst h1) hwr
      (by rw [h1]; exact h1') (by rw [h1]; simp only [hfC]; exact hset')
  obtain ⟨hr, hst, -⟩ := C101_client_unique hg hone
  rw [passed_of (congrArg Reply.res hr), hr]
  generalize (c.step (client lib) cenv ⟨none, w 0⟩).2 = c' at hst hlog
  simp only [h1] at hst
  simp only [Option.bind_some, List.nil_append]
  have hb := C101_server_begins senv s hs ⟨some (t₁.getD []), w 1⟩
  rw [hnew] at hb
  simp only at hb
  obtain ⟨l₂, hlog₂, hb⟩ := hb
  rcases hset : settled .gssSecurityLayer (fun _ => none) (senv.callback s.log senv.sd .empty) with e | theirs
  · have hf := ServerGoesOn.failed (lib := lib) (ctx := d₀) (sched := w 1) (congrArg Prod.fst h2) (by rw [h2]; exact h2') hset
    obtain ⟨hr, -, -⟩ := C101_server_unique hb hf
    rw [show passed (s.step (server lib) senv ⟨some (t₁.getD []), w 1⟩) = none from by unfold passed; rw [hr]]
    simp only [Option.bind_none, Option.isSome_none, Bool.false_eq_true, false_iff]
    rintro ⟨ours, theirs, offer, -, h, -⟩
    cases (show settled _ fine _ = _ from hset).symm.trans h
  have hlv := serverRestrict_leaves (orAll theirs) flS
  generalize serverRestrict (orAll theirs) flS = r at hlv
  by_cases hr0 : r.bits = 0
  · rw [hr0] at hlv
    have hf := ServerGoesOn.layerless (lib := lib) (ctx := d₀) (sched := w 1) (congrArg Prod.fst h2) (by rw [h2]; exact h2')
      hset (by rw [h2]; exact hfS) hlv
    obtain ⟨hr, -, -⟩ := C101_server_unique hb hf
    rw [show passed (s.step (server lib) senv ⟨some (t₁.getD []), w 1⟩) = none from by unfold passed; rw [hr]]
    simp only [Option.bind_none, Option.isSome_none, Bool.false_eq_true, false_iff]
    rintro ⟨ours, theirs', offer, -, h, h', -, layer, -, ha⟩
    cases (show settled _ fine _ = _ from hset).symm.trans h
    cases leaves_unique hlv h'
    simp [Allows] at ha
  obtain ⟨y, d', c₃, hwrap, -, -⟩ := hR.carries d c₂ (hR.symm _ _ hcd) false (offerOf r.bits)
  obtain ⟨sc₁, -, hwr₁⟩ := Writer.writeAll_patient (w := ⟨[], w 1⟩) (hw 1) y
  have hsent := ServerOffers.sent (lib := lib) (ctx := d) (offered := r) (sched := w 1) (congrArg Prod.fst hwrap) hwr₁
  have htwo := ServerGoesOn.offers (lib := lib) (ctx := d₀) (sched := w 1) (congrArg Prod.fst h2) (by rw [h2]; exact h2')
      hset (by rw [h2]; exact hfS) hlv hr0 (by rw [h2]; exact hsent)
  obtain ⟨hr, hst₂, -⟩ := C101_server_unique hb htwo
  rw [passed_of (congrArg Reply.res hr), hr]
  generalize (s.step (server lib) senv ⟨some (t₁.getD []), w 1⟩).2 = s' at hst₂ hlog₂
  simp only [Option.bind_some, List.nil_append]
  rw [hwrap] at hst₂
  refine (last_two hR cenv senv c' s' c₂ d d' (orAll ours) r y hst (hR.symm _ _ hcd) hwrap hst₂ (w 2) (w 3) (hw 2)).trans ?_
  constructor
  · rintro ⟨h, layer, ha, hb⟩
    exact ⟨ours, theirs, r.bits, rfl, hset, hlv, h, layer, ha, hb⟩
  · rintro ⟨ours', theirs', offer, h, h', hl', h8, layer, ha, hb⟩
    cases h
    cases (show settled _ fine _ = _ from hset).symm.trans h'
    cases leaves_unique hlv hl'
    exact ⟨h8, layer, ha, hb⟩

/-! ### Examples -/

section Examples

theorem countGss_tokens (name : Bytes) (x : countGss.Ctx) (h : countGss.newClient name = .ok x) :
    TokenEachWay countGss Counted ⟨true, true, true⟩ ⟨true, true, true⟩ x := by
  cases h
  exact ⟨_, _, _, _, _, _, _, rfl, rfl, rfl, rfl, rfl, rfl, rfl, rfl, rfl, rfl⟩

def gssUser (a : UInt8) : Env := exampleEnv [⟨.gssService, c!"imap"⟩, ⟨.hostname, c!"h"⟩, ⟨.gssSecurityLayer, ⟨a⟩⟩]

/-- Integrity or confidentiality on one side, integrity or nothing on the other. -/
example : (gssExchange countGss (gssUser 6) (gssUser 3) ⟨.initial, none, fun _ => 0, []⟩ ⟨.initial, none, fun _ => 0, []⟩
    (fun _ => [])).isSome = true := by
  refine (C109_each_way counted countGss_tokens _ _ _ _ rfl rfl _ (by intro i r hr; simp at hr)).2 ?_
  exact ⟨c!"imap", c!"h", ((0, 0) : Nat × Nat), some ⟨6⟩, some ⟨3⟩, 3, rfl, rfl, rfl, rfl, rfl,
    serverRestrict_leaves ⟨3⟩ ⟨true, true, true⟩, by decide, .integrity, by decide, by decide⟩

/-- Confidentiality on one side, integrity or nothing on the other. -/
example : (gssExchange countGss (gssUser 4) (gssUser 3) ⟨.initial, none, fun _ => 0, []⟩ ⟨.initial, none, fun _ => 0, []⟩
    (fun _ => [])).isSome = false := by
  rw [← Bool.not_eq_true]
  refine mt (C109_each_way counted countGss_tokens _ _ _ _ rfl rfl _ (by intro i r hr; simp at hr)).1 ?_
  rintro ⟨s, h, x, ours, theirs, offer, -, -, -, h1, h2, h3, -, l, h4, h5⟩
  cases (show Except.ok (some (⟨4⟩ : SecurityLayer)) = .ok ours from h1)
  cases (show Except.ok (some (⟨3⟩ : SecurityLayer)) = .ok theirs from h2)
  cases leaves_unique h3 (serverRestrict_leaves ⟨3⟩ ⟨true, true, true⟩)
  cases l
  · exact absurd h4 (by decide)
  · exact absurd h4 (by decide)
  · exact absurd h5 (by decide)

/-- A library with a single token. -/
def shortGss : Lib :=
  { countGss with
    clientStep := fun _ _ => (.ok (some [1]), (2, 0))
    serverStep := fun _ _ => (.ok none, (2, 0)) }

example : (gssShortExchange shortGss (gssUser 1) (exampleEnv []) ⟨.initial, none, fun _ => 0, []⟩
    ⟨.initial, none, fun _ => 0, []⟩ (fun _ => [])).isSome = true := by
  have hs : Connects shortGss Counted := ⟨counted.symm, counted.carries⟩
  refine (C109_one_way hs (flC := ⟨true, true, true⟩) (flS := ⟨true, true, true⟩) ?_ _ _ _ _ rfl rfl _
    (by intro i r hr; simp at hr)).2 ?_
  · intro name x h
    cases h
    exact ⟨_, _, _, _, rfl, rfl, rfl, rfl, rfl, rfl, rfl, rfl⟩
  · exact ⟨c!"imap", c!"h", ((0, 0) : Nat × Nat), some ⟨1⟩, none, 7, rfl, rfl, rfl, rfl, rfl,
      serverRestrict_leaves ⟨7⟩ ⟨true, true, true⟩, by decide, .none, by decide, by decide⟩

end Examples

end Rsasl.Gssapi

/-
C93: how the last step of a GSSAPI exchange ends, exactly.
-/
import Verif.Props.GssLayer
import Verif.Props.StepErrors

namespace Rsasl.Spec

/-- A set of layers as the peers exchange it: four bytes, the first of which is the set and has no
unknown bit. -/
def LayerSet (b : Bytes) (set : UInt8) : Prop := set.toNat < 8 ∧ ∃ x y z, b = [set, x, y, z]

/-- How the server's last step ends, given the set of layers it offered, the message and the
library. -/
inductive ServerEnd (lib : Gssapi.Lib) (ctx : lib.Ctx) (offered : UInt8) :
    Option Bytes → Outcome State → Prop where
  | nothing : ServerEnd lib ctx offered none (.err .inputDataRequired)
  | refused {i : Bytes} {n : Nat} (h : (lib.unwrap ctx i).1 = .error n) :
      ServerEnd lib ctx offered (some i) (.err (.mechanismError (.gss n)))
  | malformed {i b : Bytes} (h : (lib.unwrap ctx i).1 = .ok b) (hb : ∀ set, ¬ LayerSet b set) :
      ServerEnd lib ctx offered (some i) (.err (.mechanismError .gssBadFinalToken))
  | foreign {i b : Bytes} {set : UInt8} (h : (lib.unwrap ctx i).1 = .ok b) (hb : LayerSet b set)
      (hs : ∀ l, ¬ (Allows set l ∧ Allows offered l)) :
      ServerEnd lib ctx offered (some i) (.err (.mechanismError .gssBadFinalToken))
  | chosen {i b : Bytes} {set : UInt8} {l : Layer} (h : (lib.unwrap ctx i).1 = .ok b)
      (hb : LayerSet b set) (hs : Allows set l ∧ Allows offered l) :
      ServerEnd lib ctx offered (some i) (.ok (.finished .no))

/-- How the client's last step ends, given the set of layers its user allows, the message, the
library and the writer; and what is written. -/
inductive ClientEnd (lib : Gssapi.Lib) (ctx : lib.Ctx) (allowed : UInt8) (sched : List WResp) :
    Option Bytes → Reply State → Prop where
  | nothing : ClientEnd lib ctx allowed sched none ⟨.err .inputDataRequired, []⟩
  | refused {i : Bytes} {n : Nat} (h : (lib.unwrap ctx i).1 = .error n) :
      ClientEnd lib ctx allowed sched (some i) ⟨.err (.mechanismError (.gss n)), []⟩
  | malformed {i b : Bytes} (h : (lib.unwrap ctx i).1 = .ok b) (hb : ∀ set, ¬ LayerSet b set) :
      ClientEnd lib ctx allowed sched (some i) ⟨.err (.mechanismError .gssBadFinalToken), []⟩
  | foreign {i b : Bytes} {set : UInt8} (h : (lib.unwrap ctx i).1 = .ok b) (hb : LayerSet b set)
      (hs : ∀ l, ¬ (Allows set l ∧ Allows allowed l)) :
      ClientEnd lib ctx allowed sched (some i) ⟨.err (.mechanismError .gssBadContext), []⟩
  | unwrapped {i b : Bytes} {set : UInt8} {l : Layer} {n : Nat} (h : (lib.unwrap ctx i).1 = .ok b)
      (hb : LayerSet b set) (hs : Strongest set allowed l)
      (hw : (lib.wrap (lib.unwrap ctx i).2 false
        (l.only :: if l = .none then [0, 0, 0] else [255, 255, 255])).1 = .error n) :
      ClientEnd lib ctx allowed sched (some i) ⟨.err (.mechanismError (.gss n)), []⟩
  | unwritten {i b t : Bytes} {set : UInt8} {l : Layer} {e : IoErr} {w : Writer}
      (h : (lib.unwrap ctx i).1 = .ok b) (hb : LayerSet b set) (hs : Strongest set allowed l)
      (hw : (lib.wrap (lib.unwrap ctx i).2 false
        (l.only :: if l = .none then [0, 0, 0] else [255, 255, 255])).1 = .ok t)
      (ht : Writer.writeAll ⟨[], sched⟩ t = (.error e, w)) :
      ClientEnd lib ctx allowed sched (some i) ⟨.err (.io e), w.out⟩
  | chosen {i b t : Bytes} {set : UInt8} {l : Layer}
      (h : (lib.unwrap ctx i).1 = .ok b) (hb : LayerSet b set) (hs : Strongest set allowed l)
      (hw : (lib.wrap (lib.unwrap ctx i).2 false
        (l.only :: if l = .none then [0, 0, 0] else [255, 255, 255])).1 = .ok t)
      {w : Writer} (ht : Writer.writeAll ⟨[], sched⟩ t = (.ok (), w)) :
      ClientEnd lib ctx allowed sched (some i) ⟨.ok (.finished .yes), w.out⟩

end Rsasl.Spec

namespace Rsasl.Gssapi

open Spec

variable {lib : Lib}

theorem finalToken_layerSet {b : Bytes} {set : UInt8} (h : LayerSet b set) :
    finalToken b = .ok ⟨set⟩ := by
  obtain ⟨h1, x, y, z, rfl⟩ := h
  simp only [finalToken, fromBits_lt h1]

/-- Every message is read or refused. -/
theorem finalToken_cases (b : Bytes) :
    (∃ set, LayerSet b set ∧ finalToken b = .ok ⟨set⟩) ∨
    (∀ set, ¬ LayerSet b set) ∧ finalToken b = .error (.mechanismError .gssBadFinalToken) := by
  cases h : finalToken b with
  | ok l =>
    obtain ⟨h1, x, y, z, h2⟩ := finalToken_ok h
    exact .inl ⟨l.bits, ⟨h1, x, y, z, h2⟩, rfl⟩
  | error e =>
    refine .inr ⟨fun set hs => ?_, ?_⟩
    · rw [finalToken_layerSet hs] at h; cases h
    · rw [finalToken_err h]; rfl

theorem intersects_iff : ∀ a < 8, ∀ b < 256,
    ((UInt8.ofNat a &&& UInt8.ofNat b != 0) = true ↔
      (a.testBit 0 = true ∧ b.testBit 0 = true) ∨ (a.testBit 1 = true ∧ b.testBit 1 = true) ∨
      a.testBit 2 = true ∧ b.testBit 2 = true) := by
  decide +kernel

/-- Two sets meet if a layer is in both. -/
theorem intersects_allows {a b : UInt8} (h : a.toNat < 8) :
    SecurityLayer.intersects ⟨a⟩ ⟨b⟩ = true ↔ ∃ l, Allows a l ∧ Allows b l := by
  have := intersects_iff a.toNat h b.toNat b.toNat_lt
  simp only [UInt8.ofNat_toNat] at this
  unfold SecurityLayer.intersects
  rw [this]
  constructor
  · rintro (h | h | h)
    · exact ⟨.none, h⟩
    · exact ⟨.integrity, h⟩
    · exact ⟨.confidentiality, h⟩
  · rintro ⟨l, h⟩
    cases l
    · exact .inl h
    · exact .inr (.inl h)
    · exact .inr (.inr h)

/-- C93, the server: whatever the callback, the message, the library and the writer, the step ends
as specified; nothing is written and nobody is asked. -/
theorem C93_server (env : Env) (ctx : lib.Ctx) (offered : SecurityLayer) (ses : Session (SState lib))
    (hst : ses.st = .final ctx offered) (c : Call) :
    ServerEnd lib ctx offered.bits c.input (ses.step (server lib) env c).1.res ∧
    (ses.step (server lib) env c).1.out = [] ∧ (ses.step (server lib) env c).2.log = ses.log := by
  obtain ⟨input, sched⟩ := c
  have key : ∀ w : World, ∃ o s', serverStep lib env input (.final ctx offered) w = (o, s', w) ∧
      ServerEnd lib ctx offered.bits input o := by
    intro w
    unfold serverStep
    rw [M.bind_ok (M.get_apply ..), M.bind_ok (M.set_apply ..)]
    dsimp only
    cases input with
    | none => exact ⟨_, _, rfl, .nothing⟩
    | some i =>
      rw [M.bind_ok (M.okOr_some ..)]
      show ∃ o s', (liftGss (lib.unwrap ctx i).1 >>= fun unwrapped => do
        let selected ← M.lift (finalToken unwrapped)
        if selected.intersects offered then do
          M.set (.done ((serverWrap selected).map fun e => ((lib.unwrap ctx i).2, e)))
          pure (.finished .no)
        else M.fail badFinalToken : M (SState lib) State) .errored w = (o, s', w) ∧ _
      cases hu : (lib.unwrap ctx i).1 with
      | error n => exact ⟨_, _, M.bind_err (liftGss_error rfl _ _), .refused hu⟩
      | ok b =>
        rw [M.bind_ok (liftGss_ok rfl _ _)]
        rcases finalToken_cases b with ⟨set, hs, ht⟩ | ⟨hs, ht⟩
        · rw [ht, M.bind_ok (M.lift_ok ..)]
          cases hi : SecurityLayer.intersects ⟨set⟩ offered with
          | true =>
            obtain ⟨l, hl⟩ := (intersects_allows hs.1).1 hi
            exact ⟨_, _, rfl, .chosen hu hs hl⟩
          | false =>
            refine ⟨_, _, rfl, .foreign hu hs fun l hl => ?_⟩
            rw [(intersects_allows (b := offered.bits) hs.1).2 ⟨l, hl⟩] at hi
            cases hi
        · rw [ht]
          exact ⟨_, _, rfl, .malformed hu hs⟩
  obtain ⟨o, s', h1, h2⟩ := key ⟨⟨[], sched⟩, ses.rng, ses.slot, ses.log⟩
  have he : ses.step (server lib) env ⟨input, sched⟩ = (⟨o, []⟩, ⟨s', ses.slot, ses.rng, ses.log⟩) :=
    step_of (m := server lib) (w' := ⟨⟨[], sched⟩, ses.rng, ses.slot, ses.log⟩)
      (by rw [hst]; exact h1)
  rw [he]
  exact ⟨h2, rfl, rfl⟩

/-- What the client answers. -/
theorem clientChoose_exact {a b : SecurityLayer} {resp : Bytes} {wr : Option Bool}
    (h : clientChoose a b = some (resp, wr)) : ∃ l : Layer, Strongest a.bits b.bits l ∧
      resp = l.only :: if l = .none then [0, 0, 0] else [255, 255, 255] := by
  obtain ⟨l, hl, h1, h2, h3⟩ := clientChoose_spec h
  refine ⟨l, hl, ?_⟩
  unfold clientChoose at h
  dsimp only at h
  split at h
  · cases h; cases l <;> first | rfl | cases h3
  · split at h
    · cases h; cases l <;> first | rfl | cases h3
    · split at h
      · cases h; cases l <;> first | rfl | cases h3
      · cases h

/-- C93, the client: whatever the callback, the message, the library and the writer, the step ends
as specified and nobody is asked. -/
theorem C93_client (env : Env) (ctx : lib.Ctx) (allowed : SecurityLayer) (ses : Session (CState lib))
    (hst : ses.st = .last ctx allowed) (c : Call) :
    ClientEnd lib ctx allowed.bits c.sched c.input (ses.step (client lib) env c).1 ∧
    (ses.step (client lib) env c).2.log = ses.log := by
  obtain ⟨input, sched⟩ := c
  have key : ∀ rng slot log, ∃ o s' w' , clientStep lib env input (.last ctx allowed)
        ⟨⟨[], sched⟩, rng, slot, log⟩ = (o, s', w') ∧ w'.log = log ∧
      ClientEnd lib ctx allowed.bits sched input ⟨o, w'.wr.out⟩ := by
    intro rng slot log
    unfold clientStep
    rw [M.bind_ok (M.get_apply ..), M.bind_ok (M.set_apply ..)]
    dsimp only
    cases input with
    | none => exact ⟨_, _, _, rfl, rfl, .nothing⟩
    | some i =>
      rw [M.bind_ok (M.okOr_some ..)]
      show ∃ o s' w', (liftGss (lib.unwrap ctx i).1 >>= fun unwrapped => do
        let supported ← M.lift (finalToken unwrapped)
        match clientChoose supported allowed with
        | none => M.fail badContext
        | some (response, wrap) => do
          let wrapped ← liftGss (lib.wrap (lib.unwrap ctx i).2 false response).1
          M.writeAll wrapped
          M.set (.completed (wrap.map fun e => ((lib.wrap (lib.unwrap ctx i).2 false response).2, e)))
          pure (.finished .yes) : M (CState lib) State) .errored _ = (o, s', w') ∧ _
      cases hu : (lib.unwrap ctx i).1 with
      | error n => exact ⟨_, _, _, M.bind_err (liftGss_error rfl _ _), rfl, .refused hu⟩
      | ok b =>
        rw [M.bind_ok (liftGss_ok rfl _ _)]
        rcases finalToken_cases b with ⟨set, hs, ht⟩ | ⟨hs, ht⟩
        · rw [ht, M.bind_ok (M.lift_ok ..)]
          cases hc : clientChoose ⟨set⟩ allowed with
          | none => exact ⟨_, _, _, rfl, rfl, .foreign hu hs (clientChoose_none hc)⟩
          | some rw' =>
            obtain ⟨resp, wr⟩ := rw'
            obtain ⟨l, hl, rfl⟩ := clientChoose_exact hc
            dsimp only
            cases hw : (lib.wrap (lib.unwrap ctx i).2 false
                (l.only :: if l = .none then [0, 0, 0] else [255, 255, 255])).1 with
            | error n =>
              rw [M.bind_err (liftGss_error rfl _ _)]
              exact ⟨_, _, _, rfl, rfl, .unwrapped hu hs hl hw⟩
            | ok t =>
              rw [M.bind_ok (liftGss_ok rfl _ _)]
              rcases hx : Writer.writeAll ⟨[], sched⟩ t with ⟨r, w⟩
              cases r with
              | error e =>
                have : (M.writeAll t : M (CState lib) Unit) .errored
                    ⟨⟨[], sched⟩, rng, slot, log⟩ = (.err (.io e), .errored, ⟨w, rng, slot, log⟩) := by
                  unfold M.writeAll; dsimp only; rw [hx]
                rw [M.bind_err this]
                exact ⟨_, _, _, rfl, rfl, .unwritten hu hs hl hw hx⟩
              | ok u =>
                have : (M.writeAll t : M (CState lib) Unit) .errored
                    ⟨⟨[], sched⟩, rng, slot, log⟩ = (.ok (), .errored, ⟨w, rng, slot, log⟩) := by
                  unfold M.writeAll; dsimp only; rw [hx]
                rw [M.bind_ok this, M.bind_ok (M.set_apply ..)]
                exact ⟨_, _, _, rfl, rfl, .chosen hu hs hl hw hx⟩
        · rw [ht]
          exact ⟨_, _, _, rfl, rfl, .malformed hu hs⟩
  obtain ⟨o, s', w', h1, h2, h3⟩ := key ses.rng ses.slot ses.log
  have he : ses.step (client lib) env ⟨input, sched⟩ =
      (⟨o, w'.wr.out⟩, ⟨s', w'.slot, w'.rng, w'.log⟩) :=
    step_of (m := client lib) (by rw [hst]; exact h1)
  rw [he]
  exact ⟨h3, h2⟩

/-! ## The specifications leave nothing open -/

theorem layerSet_unique {b : Bytes} {x y : UInt8} (hx : LayerSet b x) (hy : LayerSet b y) : x = y := by
  obtain ⟨-, _, _, _, rfl⟩ := hx
  obtain ⟨-, _, _, _, h⟩ := hy
  cases h
  rfl

theorem strongest_unique {a b : UInt8} {l l' : Layer} (h : Strongest a b l) (h' : Strongest a b l') :
    l = l' := by
  have h1 := h.2.2 l' h'.1 h'.2.1
  have h2 := h'.2.2 l h.1 h.2.1
  revert h1 h2
  cases l <;> cases l' <;> decide

theorem C93_server_unique {ctx : lib.Ctx} {offered : UInt8} {i : Option Bytes} {o o' : Outcome State}
    (h : ServerEnd lib ctx offered i o) (h' : ServerEnd lib ctx offered i o') : o = o' := by
  have same : ∀ {r : Except Nat Bytes} {b b' : Bytes}, r = .ok b → r = .ok b' → b = b' := by
    rintro r b b' rfl h; cases h; rfl
  have clash : ∀ {r : Except Nat Bytes} {b : Bytes} {n : Nat}, r = .ok b → r = .error n → False := by
    rintro r b n rfl h; cases h
  cases h with
  | nothing => cases h'; rfl
  | refused h =>
    cases h' with
    | refused h' => rw [h] at h'; cases h'; rfl
    | malformed h' | foreign h' | chosen h' => exact (clash h' h).elim
  | malformed h hb =>
    cases h' with
    | refused h' => exact (clash h h').elim
    | malformed h' | foreign h' => rfl
    | chosen h' hb' => exact absurd (same h h' ▸ hb') (hb _)
  | foreign h hb hs =>
    cases h' with
    | refused h' => exact (clash h h').elim
    | malformed h' | foreign h' => rfl
    | chosen h' hb' hs' =>
      cases same h h'
      cases layerSet_unique hb hb'
      exact absurd hs' (hs _)
  | chosen h hb hs =>
    cases h' with
    | refused h' => exact (clash h h').elim
    | malformed h' hb' => exact absurd (same h h' ▸ hb) (hb' _)
    | foreign h' hb' hs' =>
      cases same h h'
      cases layerSet_unique hb hb'
      exact absurd hs (hs' _)
    | chosen => rfl

theorem C93_client_unique {ctx : lib.Ctx} {allowed : UInt8} {sched : List WResp} {i : Option Bytes}
    {r r' : Reply State} (h : ClientEnd lib ctx allowed sched i r)
    (h' : ClientEnd lib ctx allowed sched i r') : r = r' := by
  have same : ∀ {r : Except Nat Bytes} {b b' : Bytes}, r = .ok b → r = .ok b' → b = b' := by
    rintro r b b' rfl h; cases h; rfl
  have clash : ∀ {r : Except Nat Bytes} {b : Bytes} {n : Nat}, r = .ok b → r = .error n → False := by
    rintro r b n rfl h; cases h
  have some_layer : ∀ {x y : UInt8} {l : Layer}, Strongest x y l → Allows x l ∧ Allows y l :=
    fun h => ⟨h.1, h.2.1⟩
  cases h with
  | nothing => cases h'; rfl
  | refused h =>
    cases h' with
    | refused h' => rw [h] at h'; cases h'; rfl
    | malformed h' | foreign h' | unwrapped h' | unwritten h' | chosen h' => exact (clash h' h).elim
  | malformed h hb =>
    cases h' with
    | refused h' => exact (clash h h').elim
    | malformed h' => rfl
    | foreign h' hb' | unwrapped h' hb' | unwritten h' hb' | chosen h' hb' =>
      exact absurd (same h h' ▸ hb') (hb _)
  | foreign h hb hs =>
    cases h' with
    | refused h' => exact (clash h h').elim
    | malformed h' hb' => exact absurd (same h h' ▸ hb) (hb' _)
    | foreign h' => rfl
    | unwrapped h' hb' hs' | unwritten h' hb' hs' | chosen h' hb' hs' =>
      cases same h h'
      cases layerSet_unique hb hb'
      exact absurd (some_layer hs') (hs _)
  | unwrapped h hb hs hw | unwritten h hb hs hw ht | chosen h hb hs hw ht =>
    cases h' with
    | refused h' => exact (clash h h').elim
    | malformed h' hb' => exact absurd (same h h' ▸ hb) (hb' _)
    | foreign h' hb' hs' =>
      cases same h h'
      cases layerSet_unique hb hb'
      exact absurd (some_layer hs) (hs' _)
    | unwrapped h' hb' hs' hw' | unwritten h' hb' hs' hw' ht' | chosen h' hb' hs' hw' ht' =>
      cases same h h'
      cases layerSet_unique hb hb'
      cases strongest_unique hs hs'
      rw [hw] at hw'
      cases hw'
      try (rw [ht] at ht'; cases ht')
      try rfl

/-! ## Examples -/

/-- A client chooses confidentiality; a server that has not offered it refuses it. -/
example : ServerEnd toyGss () 3 (some [4, 0, 0, 0]) (.err (.mechanismError .gssBadFinalToken)) ∧
    ServerEnd toyGss () 7 (some [4, 0, 0, 0]) (.ok (.finished .no)) ∧
    ClientEnd toyGss () 3 [] (some [7, 0, 0, 0]) ⟨.ok (.finished .yes), [2, 255, 255, 255]⟩ := by
  refine ⟨.foreign (set := 4) rfl ⟨by decide, _, _, _, rfl⟩ fun l => ?_,
    .chosen (set := 4) (l := .confidentiality) rfl ⟨by decide, _, _, _, rfl⟩ ⟨by unfold Allows; decide, by unfold Allows; decide⟩,
    .chosen (set := 7) (l := .integrity) (t := [2, 255, 255, 255]) rfl ⟨by decide, _, _, _, rfl⟩
      ⟨by unfold Allows; decide, by unfold Allows; decide, fun l' => ?_⟩ rfl (w := ⟨_, []⟩) rfl⟩
  · cases l <;> unfold Allows <;> decide
  · cases l' <;> unfold Allows <;> decide

end Rsasl.Gssapi

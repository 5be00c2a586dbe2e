/-
What GSSAPI steps do to the state, for arbitrary callbacks and libraries.
-/
import Verif.Proofs.Silent
import Verif.Proofs.Run
import Verif.Spec.Gssapi

namespace Rsasl

/-- Induction over the steps of a session, with the calls made so far. -/
theorem run_induction {m : Mech} {env : Env} {I : List Call → Session m.S → Prop}
    (hstep : ∀ pre ses c, I pre ses → I (pre ++ [c]) (ses.step m env c).2) (calls pre : List Call)
    (ses : Session m.S) (h : I pre ses) : I (pre ++ calls) (ses.run m env calls).2 := by
  induction calls generalizing pre ses with
  | nil => simpa [Session.run] using h
  | cons c cs ih =>
    have := ih (pre ++ [c]) _ (hstep pre ses c h)
    rw [List.append_assoc] at this
    exact this

namespace Spec

/-- How a layer is kept in the state: the context and whether to encrypt. -/
def Layer.protect {α : Type} (ctx : α) : Layer → Option (α × Bool)
  | .none => Option.none
  | .integrity => some (ctx, false)
  | .confidentiality => some (ctx, true)

theorem testBit_and3 : ∀ n < 8, ∀ x < 256,
    ((UInt8.ofNat x &&& UInt8.ofNat (2 ^ (n % 3)) == UInt8.ofNat (2 ^ (n % 3))) = true ↔
      x.testBit (n % 3) = true) := by
  decide +kernel

theorem contains_iff (a : SecurityLayer) (l : Layer) :
    a.contains ⟨l.only⟩ = true ↔ Allows a.bits l := by
  obtain ⟨b⟩ := a
  have := testBit_and3 l.index (by cases l <;> decide) b.toNat b.toNat_lt
  cases l <;> simpa [SecurityLayer.contains, Allows, Layer.only, Layer.index] using this

theorem allows_and {a b : UInt8} {l : Layer} : Allows (a &&& b) l ↔ Allows a l ∧ Allows b l := by
  simp [Allows, UInt8.toNat_and, Nat.testBit_and]

end Spec

namespace Gssapi

open Spec

variable {lib : Lib}

theorem fromBits_ok {b : UInt8} {l : SecurityLayer} (h : SecurityLayer.fromBits b = some l) :
    l = ⟨b⟩ ∧ b.toNat < 8 := by
  unfold SecurityLayer.fromBits at h
  split at h
  · next hb =>
    cases h
    refine ⟨rfl, ?_⟩
    rw [← hb, UInt8.toNat_and]
    exact Nat.lt_of_le_of_lt Nat.and_le_right (by decide)
  · cases h

theorem fromBits_lt {b : UInt8} (h : b.toNat < 8) : SecurityLayer.fromBits b = some ⟨b⟩ := by
  have key : ∀ n < 8, UInt8.ofNat n &&& 7 = UInt8.ofNat n := by decide
  have := key b.toNat h
  rw [UInt8.ofNat_toNat] at this
  rw [SecurityLayer.fromBits, if_pos this]

theorem finalToken_ok {u : Bytes} {l : SecurityLayer} (h : finalToken u = .ok l) :
    l.bits.toNat < 8 ∧ ∃ x y z, u = [l.bits, x, y, z] := by
  unfold finalToken at h
  split at h
  · next b x y z =>
    split at h
    · next l' hl =>
      cases h
      obtain ⟨rfl, hlt⟩ := fromBits_ok hl
      exact ⟨hlt, x, y, z, rfl⟩
    · cases h
  · cases h

/-- The client's choice is the strongest layer in both sets. -/
theorem clientChoose_spec {a b : SecurityLayer} {resp : Bytes} {wr : Option Bool}
    (h : clientChoose a b = some (resp, wr)) :
    ∃ l : Layer, Strongest a.bits b.bits l ∧ resp.head? = some l.only ∧ resp.length = 4 ∧
      wr = (match l with | .none => none | .integrity => some false | .confidentiality => some true) := by
  have key : ∀ l : Layer, (a.inter b).contains ⟨l.only⟩ = true ↔ Allows a.bits l ∧ Allows b.bits l :=
    fun l => (contains_iff _ l).trans allows_and
  unfold clientChoose at h
  dsimp only at h
  split at h
  · next h1 =>
    cases h
    have := (key .confidentiality).1 h1
    exact ⟨.confidentiality, ⟨this.1, this.2, fun l' _ _ => by cases l' <;> decide⟩, rfl, rfl, rfl⟩
  · next h1 =>
    split at h
    · next h2 =>
      cases h
      have := (key .integrity).1 h2
      refine ⟨.integrity, ⟨this.1, this.2, fun l' ha hb => ?_⟩, rfl, rfl, rfl⟩
      cases l' with
      | confidentiality => exact absurd ((key .confidentiality).2 ⟨ha, hb⟩) h1
      | _ => decide
    · next h2 =>
      split at h
      · next h3 =>
        cases h
        have := (key .none).1 h3
        refine ⟨.none, ⟨this.1, this.2, fun l' ha hb => ?_⟩, rfl, rfl, rfl⟩
        cases l' with
        | confidentiality => exact absurd ((key .confidentiality).2 ⟨ha, hb⟩) h1
        | integrity => exact absurd ((key .integrity).2 ⟨ha, hb⟩) h2
        | none => decide
      · cases h

/-- The client fails to choose only if nothing is shared. -/
theorem clientChoose_none {a b : SecurityLayer} (h : clientChoose a b = none) (l : Layer) :
    ¬ (Allows a.bits l ∧ Allows b.bits l) := by
  have key : ∀ l : Layer, (a.inter b).contains ⟨l.only⟩ = true ↔ Allows a.bits l ∧ Allows b.bits l :=
    fun l => (contains_iff _ l).trans allows_and
  rw [← key]
  unfold clientChoose at h
  dsimp only at h
  split at h
  · cases h
  · next h1 =>
    split at h
    · cases h
    · next h2 =>
      split at h
      · cases h
      · next h3 => cases l <;> assumption

section requests

variable {S G : Type}

/-- A request whose closure leaves the state alone leaves the state alone. -/
theorem maybeNeedWith_state {env : Env} {p : Property} {ctx : Provider} {f : p.Value → M S G}
    (hf : ∀ v s w, (f v s w).2.1 = s) (s : S) (w : World) :
    (maybeNeedWith env p ctx f s w).2.1 = s := by
  have h := maybeNeedWith_run env p ctx f s w
  generalize maybeNeedWith env p ctx f s w = x at h
  cases h with
  | none o es hq ho => rfl
  | ok v es es' g s' w' o hq hq' hf' ho => exact (congrArg (·.2.1) hf').symm.trans (hf v s _)
  | err v es es' e s' w' o hq hq' hf' ho => exact (congrArg (·.2.1) hf').symm.trans (hf v s _)
  | panic v es s' w' hq hf' => exact (congrArg (·.2.1) hf').symm.trans (hf v s _)

theorem needWith_state {env : Env} {p : Property} {ctx : Provider} {f : p.Value → M S G}
    (hf : ∀ v s w, (f v s w).2.1 = s) (s : S) (w : World) :
    (needWith env p ctx f s w).2.1 = s := by
  have h := maybeNeedWith_state hf s w (env := env) (ctx := ctx)
  unfold needWith
  rcases hm : maybeNeedWith env p ctx f s w with ⟨o, s', w'⟩
  rw [hm] at h
  cases o with
  | ok r =>
    rw [M.bind_ok hm]
    cases r <;> exact h
  | err e => rw [M.bind_err hm]; exact h
  | panic => rw [M.bind_panic hm]; exact h

theorem writeAll_state (b : Bytes) (s : S) (w : World) : ((M.writeAll b : M S Unit) s w).2.1 = s := by
  unfold M.writeAll
  rcases w.wr.writeAll b with ⟨r, wr⟩
  cases r <;> rfl

theorem liftGss_ok {α : Type} {r : Except Nat α} {a : α} (h : r = .ok a) (s : S) (w : World) :
    (liftGss r : M S α) s w = (.ok a, s, w) := by rw [h]; rfl

theorem liftGss_error {α : Type} {r : Except Nat α} {n : Nat} (h : r = .error n) (s : S)
    (w : World) : (liftGss r : M S α) s w = (.err (.mechanismError (.gss n)), s, w) := by rw [h]; rfl

end requests

theorem clientAcceptable_state (ctx : lib.Ctx) (v : SecurityLayer) (s : CState lib) (w : World) :
    (clientAcceptable lib ctx v s w).2.1 = s := by
  unfold clientAcceptable
  cases hf : lib.flags ctx with
  | error n => rw [M.bind_err (liftGss_error rfl s w)]
  | ok fl =>
    rw [M.bind_ok (liftGss_ok rfl s w)]
    repeat' split
    all_goals rfl

/-- An answer that is used is used as it is. -/
theorem clientAcceptable_ok {ctx : lib.Ctx} {v g : SecurityLayer} {s s' : CState lib} {w w' : World}
    (h : clientAcceptable lib ctx v s w = (.ok g, s', w')) : g = v ∧ w' = w := by
  unfold clientAcceptable at h
  cases hf : lib.flags ctx with
  | error n => rw [hf, M.bind_err (liftGss_error rfl s w)] at h; cases h
  | ok fl =>
    rw [hf, M.bind_ok (liftGss_ok rfl s w)] at h
    repeat' split at h
    all_goals first | (cases h; exact ⟨rfl, rfl⟩) | cases h

/-- How the `Pending` arm of the client can end, started in state `Errored`. -/
inductive Pended (lib : Lib) (env : Env) (ctx : lib.Ctx) (input : Option Bytes) (w : World) :
    Outcome State × CState lib × World → Prop where
  | failed (o w') (h : o ≠ .ok .running) (h' : ∀ k, o ≠ .ok (.finished k)) :
      Pended lib env ctx input w (o, .errored, w')
  | more (tok ctx' w') (h : lib.clientStep ctx input = (.ok tok, ctx')) (hc : lib.isComplete ctx' = false) :
      Pended lib env ctx input w (.ok .running, .pending ctx', w')
  | complete (tok ctx' w₁ r w') (h : lib.clientStep ctx input = (.ok tok, ctx'))
      (hc : lib.isComplete ctx' = true)
      (hr : maybeNeedWith env .gssSecurityLayer .empty (clientAcceptable lib ctx') .errored w₁ =
        (.ok r, .errored, w')) :
      Pended lib env ctx input w (.ok .running, .last ctx' ⟨Spec.allowed r⟩, w')

theorem clientPending_cases (env : Env) (ctx : lib.Ctx) (input : Option Bytes) (w : World) :
    Pended lib env ctx input w (clientPending lib env ctx input .errored w) := by
  unfold clientPending
  rcases hs : lib.clientStep ctx input with ⟨res, ctx'⟩
  dsimp only
  cases res with
  | error n =>
    rw [M.bind_err (liftGss_error rfl _ w)]
    exact .failed _ _ nofun nofun
  | ok tok =>
    rw [M.bind_ok (liftGss_ok rfl _ w)]
    have hrest : ∀ w₁, Pended lib env ctx input w ((if lib.isComplete ctx' then do
        let acceptable ← maybeNeedWith env .gssSecurityLayer .empty (clientAcceptable lib ctx')
        let acceptable := match acceptable with
          | some a => a
          | none => .all
        M.set (.last ctx' acceptable)
        pure .running
      else do
        M.set (.pending ctx')
        pure .running : M (CState lib) State) .errored w₁) := by
      intro w₁
      split
      · next hc =>
        have hst := maybeNeedWith_state (env := env) (p := .gssSecurityLayer) (ctx := .empty)
          (clientAcceptable_state ctx') .errored w₁
        rcases hm : maybeNeedWith env .gssSecurityLayer .empty (clientAcceptable lib ctx') .errored w₁
          with ⟨o, s', w'⟩
        rw [hm] at hst
        dsimp only at hst
        subst hst
        cases o with
        | ok r =>
          rw [M.bind_ok hm]
          cases r with
          | none => exact .complete tok ctx' w₁ none w' hs hc hm
          | some a => exact .complete tok ctx' w₁ (some a) w' hs hc hm
        | err e => rw [M.bind_err hm]; exact .failed _ _ nofun nofun
        | panic => rw [M.bind_panic hm]; exact .failed _ _ nofun nofun
      · next hc => exact .more tok ctx' w₁ hs (by simpa using hc)
    cases tok with
    | none => exact hrest w
    | some t =>
      dsimp only
      split
      · exact hrest w
      · have hst := writeAll_state t (CState.errored : CState lib) w
        rcases hwr : (M.writeAll t : M (CState lib) Unit) .errored w with ⟨o, s', w'⟩
        rw [hwr] at hst
        dsimp only at hst
        subst hst
        cases o with
        | ok u => rw [M.bind_ok hwr]; exact hrest w'
        | err e => rw [M.bind_err hwr]; exact .failed _ _ nofun nofun
        | panic => rw [M.bind_panic hwr]; exact .failed _ _ nofun nofun

/-- How a step of the client can end. -/
inductive ClientMove (lib : Lib) (env : Env) (input : Option Bytes) (w : World) :
    CState lib → Outcome State × CState lib × World → Prop where
  | failed (st o w') (h : o ≠ .ok .running) (h' : ∀ k, o ≠ .ok (.finished k)) :
      ClientMove lib env input w st (o, .errored, w')
  | start (name ctx w₁ r) (h : lib.newClient name = .ok ctx) (hp : Pended lib env ctx input w₁ r) :
      ClientMove lib env input w .initial r
  | next (ctx r) (hp : Pended lib env ctx input w r) : ClientMove lib env input w (.pending ctx) r
  | finish (ctx acc b ctx₁ wrapped ctx₂ w') (bits : UInt8) (l : Spec.Layer) (resp : Bytes)
      (hi : input = some b) (hlt : bits.toNat < 8)
      (hu : ∃ x y z, lib.unwrap ctx b = (.ok [bits, x, y, z], ctx₁))
      (hl : Strongest bits acc.bits l) (hr : resp.head? = some l.only ∧ resp.length = 4)
      (hw : lib.wrap ctx₁ false resp = (.ok wrapped, ctx₂))
      (hout : (M.writeAll wrapped : M (CState lib) Unit) .errored w = (.ok (), .errored, w')) :
      ClientMove lib env input w (.last ctx acc) (.ok (.finished .yes), .completed (l.protect ctx₂), w')

theorem clientStep_cases (env : Env) (input : Option Bytes) (st : CState lib) (w : World) :
    ClientMove lib env input w st (clientStep lib env input st w) := by
  unfold clientStep
  rw [M.bind_ok (M.get_apply ..), M.bind_ok (M.set_apply ..)]
  cases st with
  | completed l => exact .failed _ _ _ nofun nofun
  | errored => exact .failed _ _ _ nofun nofun
  | pending ctx => exact .next ctx _ (clientPending_cases env ctx input w)
  | initial =>
    dsimp only
    have h1 := needWith_state (S := CState lib) (env := env) (p := .gssService) (ctx := .empty)
      (f := fun s => pure s) (fun _ _ _ => rfl) .errored w
    rcases hm1 : needWith (S := CState lib) env .gssService .empty (fun s => pure s) .errored w
      with ⟨o1, s1, w1⟩
    rw [hm1] at h1
    dsimp only at h1
    subst h1
    cases o1 with
    | err e => rw [M.bind_err hm1]; exact .failed _ _ _ nofun nofun
    | panic => rw [M.bind_panic hm1]; exact .failed _ _ _ nofun nofun
    | ok service =>
      rw [M.bind_ok hm1]
      have h2 := needWith_state (S := CState lib) (env := env) (p := .hostname) (ctx := .empty)
        (f := fun s => pure s) (fun _ _ _ => rfl) .errored w1
      rcases hm2 : needWith (S := CState lib) env .hostname .empty (fun s => pure s) .errored w1
        with ⟨o2, s2, w2⟩
      rw [hm2] at h2
      dsimp only at h2
      subst h2
      cases o2 with
      | err e => rw [M.bind_err hm2]; exact .failed _ _ _ nofun nofun
      | panic => rw [M.bind_panic hm2]; exact .failed _ _ _ nofun nofun
      | ok host =>
        rw [M.bind_ok hm2]
        cases hn : lib.newClient (Str.bytes (service ++ '@' :: host)) with
        | error n => rw [M.bind_err (liftGss_error rfl _ _)]; exact .failed _ _ _ nofun nofun
        | ok ctx =>
          rw [M.bind_ok (liftGss_ok rfl _ _)]
          exact .start _ ctx w2 _ hn (clientPending_cases env ctx input w2)
  | last ctx acc =>
    dsimp only
    cases input with
    | none => exact .failed _ _ _ nofun nofun
    | some b =>
      rw [M.bind_ok (M.okOr_some ..)]
      show ClientMove lib env (some b) w (.last ctx acc)
        ((liftGss (lib.unwrap ctx b).1 >>= fun unwrapped => do
          let supported ← M.lift (finalToken unwrapped)
          match clientChoose supported acc with
          | none => M.fail badContext
          | some (response, wrap) => do
            let wrapped ← liftGss (lib.wrap (lib.unwrap ctx b).2 false response).1
            M.writeAll wrapped
            M.set (.completed (wrap.map fun e => ((lib.wrap (lib.unwrap ctx b).2 false response).2, e)))
            pure (.finished .yes) : M (CState lib) State) .errored w)
      rcases hu : lib.unwrap ctx b with ⟨res, ctx₁⟩
      dsimp only
      cases res with
      | error n => rw [M.bind_err (liftGss_error rfl _ _)]; exact .failed _ _ _ nofun nofun
      | ok u =>
        rw [M.bind_ok (liftGss_ok rfl _ _)]
        cases ht : finalToken u with
        | error e => exact .failed _ _ _ nofun nofun
        | ok sup =>
          rw [M.bind_ok (M.lift_ok ..)]
          obtain ⟨hlt, x, y, z, rfl⟩ := finalToken_ok ht
          cases hc : clientChoose sup acc with
          | none => exact .failed _ _ _ nofun nofun
          | some rw' =>
            obtain ⟨resp, wr⟩ := rw'
            obtain ⟨l, hl, hr1, hr2, rfl⟩ := clientChoose_spec hc
            dsimp only
            rcases hwr : lib.wrap ctx₁ false resp with ⟨res, ctx₂⟩
            dsimp only
            cases res with
            | error n => rw [M.bind_err (liftGss_error rfl _ _)]; exact .failed _ _ _ nofun nofun
            | ok wrapped =>
              rw [M.bind_ok (liftGss_ok rfl _ _)]
              have hst := writeAll_state wrapped (CState.errored : CState lib) w
              rcases hout : (M.writeAll wrapped : M (CState lib) Unit) .errored w with ⟨o, s', w'⟩
              rw [hout] at hst
              dsimp only at hst
              subst hst
              cases o with
              | err e => rw [M.bind_err hout]; exact .failed _ _ _ nofun nofun
              | panic => rw [M.bind_panic hout]; exact .failed _ _ _ nofun nofun
              | ok un =>
                rw [M.bind_ok hout, M.bind_ok (M.set_apply ..)]
                have := ClientMove.finish (env := env) (w := w) ctx acc b ctx₁ wrapped ctx₂ w' sup.bits l resp rfl hlt
                  ⟨x, y, z, hu⟩ hl ⟨hr1, hr2⟩ hwr hout
                cases l <;> exact this

/-! ## The server -/

theorem serverInstalled_cases (ctx : lib.Ctx) (set : SecurityLayer) (w : World) :
    (∃ o w', serverInstalled lib ctx set .errored w = (o, .errored, w') ∧ o ≠ .ok .running ∧
      ∀ k, o ≠ .ok (.finished k)) ∨
    ∃ x y z wrapped ctx' w', lib.wrap ctx false [set.bits, x, y, z] = (.ok wrapped, ctx') ∧
      (M.writeAll wrapped : M (SState lib) Unit) .errored w = (.ok (), .errored, w') ∧
      serverInstalled lib ctx set .errored w = (.ok .running, .final ctx' set, w') := by
  have key : ∀ x y z, (∃ o w', ((liftGss (lib.wrap ctx false [set.bits, x, y, z]).1 >>= fun wrapped => do
      M.writeAll wrapped
      M.set (.final (lib.wrap ctx false [set.bits, x, y, z]).2 set)
      pure .running : M (SState lib) State) .errored w) = (o, .errored, w') ∧ o ≠ .ok .running ∧
      ∀ k, o ≠ .ok (.finished k)) ∨
    ∃ wrapped ctx' w', lib.wrap ctx false [set.bits, x, y, z] = (.ok wrapped, ctx') ∧
      (M.writeAll wrapped : M (SState lib) Unit) .errored w = (.ok (), .errored, w') ∧
      ((liftGss (lib.wrap ctx false [set.bits, x, y, z]).1 >>= fun wrapped => do
      M.writeAll wrapped
      M.set (.final (lib.wrap ctx false [set.bits, x, y, z]).2 set)
      pure .running : M (SState lib) State) .errored w) = (.ok .running, .final ctx' set, w') := by
    intro x y z
    rcases hw : lib.wrap ctx false [set.bits, x, y, z] with ⟨res, ctx'⟩
    cases res with
    | error n =>
      rw [M.bind_err (liftGss_error rfl _ _)]
      exact .inl ⟨_, _, rfl, nofun, nofun⟩
    | ok wrapped =>
      rw [M.bind_ok (liftGss_ok rfl _ _)]
      have hst := writeAll_state wrapped (SState.errored : SState lib) w
      rcases hout : (M.writeAll wrapped : M (SState lib) Unit) .errored w with ⟨o, s', w'⟩
      rw [hout] at hst
      dsimp only at hst
      subst hst
      cases o with
      | err e => rw [M.bind_err hout]; exact .inl ⟨_, _, rfl, nofun, nofun⟩
      | panic => rw [M.bind_panic hout]; exact .inl ⟨_, _, rfl, nofun, nofun⟩
      | ok un =>
        rw [M.bind_ok hout, M.bind_ok (M.set_apply ..)]
        exact .inr ⟨wrapped, ctx', w', rfl, hout, rfl⟩
  unfold serverInstalled
  by_cases h : set.intersects (SecurityLayer.confidentiality.union .integrity) = true
  · simp only [h, if_true]
    rcases key 0xFF 0xFF 0xFF with h | ⟨a, b, c, h⟩
    · exact .inl h
    · exact .inr ⟨_, _, _, a, b, c, h⟩
  · simp only [h]
    rcases key 0 0 0 with h | ⟨a, b, c, h⟩
    · exact .inl h
    · exact .inr ⟨_, _, _, a, b, c, h⟩

/-- How the `Pending` arm of the server can end, started in state `Errored`. -/
inductive SPended (lib : Lib) (env : Env) (ctx : lib.Ctx) (input : Option Bytes) (w : World) :
    Outcome State × SState lib × World → Prop where
  | failed (o w') (h : o ≠ .ok .running) (h' : ∀ k, o ≠ .ok (.finished k)) :
      SPended lib env ctx input w (o, .errored, w')
  /-- the context is not complete: its state is lost -/
  | stuck (b tok ctx' w') (hi : input = some b) (h : lib.serverStep ctx b = (.ok (some tok), ctx'))
      (hc : lib.isComplete ctx' = false) : SPended lib env ctx input w (.ok .running, .errored, w')
  | installed (b tok ctx' r fl o w₁ w') (hi : input = some b)
      (h : lib.serverStep ctx b = (.ok (some tok), ctx')) (hc : lib.isComplete ctx' = true)
      (hr : maybeNeedWith (S := SState lib) env .gssSecurityLayer .empty (fun a => pure a) .errored w =
        (.ok r, .errored, w₁)) (hfl : lib.flags ctx' = .ok fl)
      (hne : (serverRestrict ⟨Spec.allowed r⟩ fl).isEmpty = false)
      (ho : (M.writeAll tok : M (SState lib) Unit) (.installed ctx' (serverRestrict ⟨Spec.allowed r⟩ fl)) w₁ =
        (o, .installed ctx' (serverRestrict ⟨Spec.allowed r⟩ fl), w')) :
      SPended lib env ctx input w (match o with
        | .ok _ => .ok .running
        | .err e => .err e
        | .panic => .panic, .installed ctx' (serverRestrict ⟨Spec.allowed r⟩ fl), w')
  | offered (b ctx' r fl w₁ x y z wrapped ctx'' w') (hi : input = some b)
      (h : lib.serverStep ctx b = (.ok none, ctx')) (hc : lib.isComplete ctx' = true)
      (hr : maybeNeedWith (S := SState lib) env .gssSecurityLayer .empty (fun a => pure a) .errored w =
        (.ok r, .errored, w₁)) (hfl : lib.flags ctx' = .ok fl)
      (hne : (serverRestrict ⟨Spec.allowed r⟩ fl).isEmpty = false)
      (hw : lib.wrap ctx' false [(serverRestrict ⟨Spec.allowed r⟩ fl).bits, x, y, z] = (.ok wrapped, ctx''))
      (ho : (M.writeAll wrapped : M (SState lib) Unit) .errored w₁ = (.ok (), .errored, w')) :
      SPended lib env ctx input w (.ok .running, .final ctx'' (serverRestrict ⟨Spec.allowed r⟩ fl), w')

theorem serverPending_cases (env : Env) (ctx : lib.Ctx) (input : Option Bytes) (w : World) :
    SPended lib env ctx input w (serverPending lib env ctx input .errored w) := by
  unfold serverPending
  cases input with
  | none => exact .failed _ _ nofun nofun
  | some b =>
    rw [M.bind_ok (M.okOr_some ..)]
    rcases hs : lib.serverStep ctx b with ⟨res, ctx'⟩
    dsimp only
    cases res with
    | error n => rw [M.bind_err (liftGss_error rfl _ _)]; exact .failed _ _ nofun nofun
    | ok tok =>
      rw [M.bind_ok (liftGss_ok rfl _ _)]
      split
      · next hc =>
        have hst := maybeNeedWith_state (S := SState lib) (env := env) (p := .gssSecurityLayer)
          (ctx := .empty) (f := fun a => pure a) (fun _ _ _ => rfl) .errored w
        rcases hm : maybeNeedWith (S := SState lib) env .gssSecurityLayer .empty (fun a => pure a)
          .errored w with ⟨o, s', w₁⟩
        rw [hm] at hst
        dsimp only at hst
        subst hst
        cases o with
        | err e => rw [M.bind_err hm]; exact .failed _ _ nofun nofun
        | panic => rw [M.bind_panic hm]; exact .failed _ _ nofun nofun
        | ok r =>
          rw [M.bind_ok hm]
          suffices H : ∀ a : SecurityLayer, a = ⟨Spec.allowed r⟩ →
              SPended lib env ctx (some b) w ((liftGss (lib.flags ctx') >>= fun flags =>
                if (serverRestrict a flags).isEmpty then M.fail badContext
                else do
                  M.set (.installed ctx' (serverRestrict a flags))
                  match tok with
                  | some token => do
                    M.writeAll token
                    pure .running
                  | none => do
                    M.set .errored
                    serverInstalled lib ctx' (serverRestrict a flags) : M (SState lib) State)
                .errored w₁) from H _ (by cases r <;> rfl)
          rintro a rfl
          cases hfl : lib.flags ctx' with
          | error n => rw [M.bind_err (liftGss_error rfl _ _)]; exact .failed _ _ nofun nofun
          | ok fl =>
            rw [M.bind_ok (liftGss_ok rfl _ _)]
            split
            · exact .failed _ _ nofun nofun
            · next hne =>
              have hne : (serverRestrict ⟨Spec.allowed r⟩ fl).isEmpty = false := by simpa using hne
              rw [M.bind_ok (M.set_apply ..)]
              cases tok with
              | none =>
                dsimp only
                rw [M.bind_ok (M.set_apply ..)]
                rcases serverInstalled_cases ctx' (serverRestrict ⟨Spec.allowed r⟩ fl) w₁ with
                  ⟨o, w', h1, h2, h3⟩ | ⟨x, y, z, wrapped, ctx'', w', h1, h2, h3⟩
                · rw [h1]; exact .failed _ _ h2 h3
                · rw [h3]; exact .offered b ctx' r fl w₁ x y z wrapped ctx'' w' rfl hs hc hm hfl hne h1 h2
              | some t =>
                dsimp only
                have hst := writeAll_state t (SState.installed ctx' (serverRestrict ⟨Spec.allowed r⟩ fl)) w₁
                rcases hwr : (M.writeAll t : M (SState lib) Unit)
                  (.installed ctx' (serverRestrict ⟨Spec.allowed r⟩ fl)) w₁ with ⟨o, s', w'⟩
                rw [hwr] at hst
                dsimp only at hst
                subst hst
                have := SPended.installed b t ctx' r fl o w₁ w' rfl hs hc hm hfl hne hwr
                cases o with
                | ok u => rw [M.bind_ok hwr]; exact this
                | err e => rw [M.bind_err hwr]; exact this
                | panic => rw [M.bind_panic hwr]; exact this
      · next hc =>
        cases tok with
        | none => exact .failed _ _ nofun nofun
        | some t =>
          dsimp only
          have hst := writeAll_state t (SState.errored : SState lib) w
          rcases hwr : (M.writeAll t : M (SState lib) Unit) .errored w with ⟨o, s', w'⟩
          rw [hwr] at hst
          dsimp only at hst
          subst hst
          cases o with
          | ok u => rw [M.bind_ok hwr]; exact .stuck b t ctx' w' rfl hs (by simpa using hc)
          | err e => rw [M.bind_err hwr]; exact .failed _ _ nofun nofun
          | panic => rw [M.bind_panic hwr]; exact .failed _ _ nofun nofun

/-- How a step of the server can end. -/
inductive ServerMove (lib : Lib) (env : Env) (input : Option Bytes) (w : World) :
    SState lib → Outcome State × SState lib × World → Prop where
  | failed (st o w') (h : o ≠ .ok .running) (h' : ∀ k, o ≠ .ok (.finished k)) :
      ServerMove lib env input w st (o, .errored, w')
  | start (ctx r) (h : lib.newServer = .ok ctx) (hp : SPended lib env ctx input w r) :
      ServerMove lib env input w .initial r
  | next (ctx r) (hp : SPended lib env ctx input w r) : ServerMove lib env input w (.pending ctx) r
  | offer (ctx set x y z wrapped ctx' w')
      (hw : lib.wrap ctx false [set.bits, x, y, z] = (.ok wrapped, ctx'))
      (ho : (M.writeAll wrapped : M (SState lib) Unit) .errored w = (.ok (), .errored, w')) :
      ServerMove lib env input w (.installed ctx set) (.ok .running, .final ctx' set, w')
  | finish (ctx set b ctx') (bits : UInt8) (hi : input = some b) (hlt : bits.toNat < 8)
      (hu : ∃ x y z, lib.unwrap ctx b = (.ok [bits, x, y, z], ctx'))
      (hs : SecurityLayer.intersects ⟨bits⟩ set = true) :
      ServerMove lib env input w (.final ctx set)
        (.ok (.finished .no), .done ((serverWrap ⟨bits⟩).map fun e => (ctx', e)), w)

theorem serverStep_cases (env : Env) (input : Option Bytes) (st : SState lib) (w : World) :
    ServerMove lib env input w st (serverStep lib env input st w) := by
  unfold serverStep
  rw [M.bind_ok (M.get_apply ..), M.bind_ok (M.set_apply ..)]
  cases st with
  | done l => exact .failed _ _ _ nofun nofun
  | errored => exact .failed _ _ _ nofun nofun
  | pending ctx => exact .next ctx _ (serverPending_cases env ctx input w)
  | initial =>
    dsimp only
    cases hn : lib.newServer with
    | error n => rw [M.bind_err (liftGss_error rfl _ _)]; exact .failed _ _ _ nofun nofun
    | ok ctx =>
      rw [M.bind_ok (liftGss_ok rfl _ _)]
      exact .start ctx _ hn (serverPending_cases env ctx input w)
  | installed ctx set =>
    dsimp only
    rcases serverInstalled_cases ctx set w with
      ⟨o, w', h1, h2, h3⟩ | ⟨x, y, z, wrapped, ctx'', w', h1, h2, h3⟩
    · rw [h1]; exact .failed _ _ _ h2 h3
    · rw [h3]; exact .offer ctx set x y z wrapped ctx'' w' h1 h2
  | final ctx set =>
    dsimp only
    cases input with
    | none => exact .failed _ _ _ nofun nofun
    | some b =>
      rw [M.bind_ok (M.okOr_some ..)]
      show ServerMove lib env (some b) w (.final ctx set)
        ((liftGss (lib.unwrap ctx b).1 >>= fun unwrapped => do
          let selected ← M.lift (finalToken unwrapped)
          if selected.intersects set then do
            M.set (.done ((serverWrap selected).map fun e => ((lib.unwrap ctx b).2, e)))
            pure (.finished .no)
          else M.fail badFinalToken : M (SState lib) State) .errored w)
      rcases hu : lib.unwrap ctx b with ⟨res, ctx₁⟩
      dsimp only
      cases res with
      | error n => rw [M.bind_err (liftGss_error rfl _ _)]; exact .failed _ _ _ nofun nofun
      | ok u =>
        rw [M.bind_ok (liftGss_ok rfl _ _)]
        cases ht : finalToken u with
        | error e => exact .failed _ _ _ nofun nofun
        | ok sel =>
          rw [M.bind_ok (M.lift_ok ..)]
          obtain ⟨hlt, x, y, z, rfl⟩ := finalToken_ok ht
          split
          · next hsel =>
            exact .finish ctx set b ctx₁ sel.bits rfl hlt ⟨x, y, z, hu⟩ hsel
          · exact .failed _ _ _ nofun nofun

/-- The layers left by the flags of the context. -/
theorem restrict_spec (a : SecurityLayer) (fl : Flags) (l : Layer) :
    Allows (serverRestrict a fl).bits l ↔ Allows a.bits l ∧
      (l = .confidentiality → fl.mutualAuth = true ∧ fl.conf = true) ∧
      (l = .integrity → fl.integ = true) := by
  have hnot : ∀ (x : UInt8), Allows (x &&& ~~~4) l ↔ Allows x l ∧ l ≠ .confidentiality := by
    intro x
    rw [allows_and]
    cases l <;> simp [Allows, Layer.index] <;> intro _ <;> decide
  have hnot2 : ∀ (x : UInt8), Allows (x &&& ~~~2) l ↔ Allows x l ∧ l ≠ .integrity := by
    intro x
    rw [allows_and]
    cases l <;> simp [Allows, Layer.index] <;> intro _ <;> decide
  obtain ⟨x⟩ := a
  obtain ⟨m, c, i⟩ := fl
  unfold serverRestrict
  dsimp only
  cases m <;> cases c <;> cases i <;>
    simp only [Bool.and_true, Bool.and_false, Bool.true_and, Bool.false_and, if_true,
      SecurityLayer.remove, SecurityLayer.confidentiality, SecurityLayer.integrity, Bool.false_eq_true,
      if_false, hnot, hnot2] <;>
    cases l <;> simp

/-- A single layer the server accepts is one it offered. -/
theorem intersects_only {l : Layer} {set : SecurityLayer}
    (h : SecurityLayer.intersects ⟨l.only⟩ set = true) : Allows set.bits l := by
  obtain ⟨x⟩ := set
  have key : ∀ n < 256, ∀ k < 3, ((UInt8.ofNat (2 ^ k) &&& UInt8.ofNat n != 0) = true →
      n.testBit k = true) := by decide +kernel
  have := key x.toNat x.toNat_lt l.index (by cases l <;> decide)
  rw [UInt8.ofNat_toNat] at this
  exact this h

theorem intersects_some {a b : SecurityLayer} (ha : a.bits.toNat < 8)
    (h : SecurityLayer.intersects a b = true) : ∃ l, Allows a.bits l ∧ Allows b.bits l := by
  obtain ⟨a⟩ := a
  obtain ⟨b⟩ := b
  have key : ∀ n < 8, ∀ m < 256, ((UInt8.ofNat n &&& UInt8.ofNat m != 0) = true →
      ((n &&& m).testBit 0 || (n &&& m).testBit 1 || (n &&& m).testBit 2) = true) := by
    decide +kernel
  have := key a.toNat ha b.toNat b.toNat_lt
  rw [UInt8.ofNat_toNat, UInt8.ofNat_toNat] at this
  have := this h
  simp only [Nat.testBit_and, Bool.or_eq_true, Bool.and_eq_true] at this
  rcases this with (h | h) | h
  · exact ⟨.none, h⟩
  · exact ⟨.integrity, h⟩
  · exact ⟨.confidentiality, h⟩

end Gssapi

end Rsasl

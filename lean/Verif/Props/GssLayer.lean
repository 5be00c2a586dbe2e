/-
GSSAPI: messages through the layer (C56), both sides together (C57), and which sets of layers the
client goes on with (C58, C59).
-/
import Verif.Props.Gssapi
import Verif.Spec.GssLayer

namespace Rsasl.Gssapi

open Spec

variable {lib : Lib}

/-! ## C56: messages through a layer -/

theorem passedOn_free (n : Nat) (b : Bytes) : passedOn n [] (.ok b) = ⟨.ok n, b⟩ := by
  cases b <;> rfl

section stream

variable {m : Mech} {ses : Session m.S} {ctx : lib.Ctx} {l : Layer}

theorem InForceFrom.encode (h : InForceFrom lib m ses ctx l) (hl : l ≠ .none) (x : Bytes)
    (sched : List WResp) :
    (ses.encode m x sched).1 = passedOn x.length sched (lib.wrap ctx (l == .confidentiality) x).1 ∧
    InForceFrom lib m (ses.encode m x sched).2 (lib.wrap ctx (l == .confidentiality) x).2 l := by
  have key : ∀ env us, Answer.count (ses.encode m x sched).1 ::
      ((ses.encode m x sched).2.performAll m env (us.map Use.op)).1 =
      .count (passedOn x.length sched (lib.wrap ctx (l == .confidentiality) x).1) ::
        (layered lib (l == .confidentiality) (lib.wrap ctx (l == .confidentiality) x).2 us).map .count ∧
      ((ses.encode m x sched).2.afterAll m env (us.map Use.op)).hasSecurityLayer m = true := by
    intro env us
    cases l with
    | none => exact absurd rfl hl
    | integrity => exact h env (.encode x sched :: us)
    | confidentiality => exact h env (.encode x sched :: us)
  constructor
  · have := (key ⟨fun _ _ _ => .ret (.ok ()), fun _ _ _ => .ret (.ok ()), fun _ => none, 0,
      ⟨⟨[], 0, .client⟩, .client⟩⟩ []).1
    injection this with h1 h2
    injection h1
  · cases l with
    | none => exact absurd rfl hl
    | _ => exact fun env us => ⟨(List.cons.inj (key env us).1).2, (key env us).2⟩

theorem InForceFrom.decode (h : InForceFrom lib m ses ctx l) (hl : l ≠ .none) (x : Bytes)
    (sched : List WResp) :
    (ses.decode m x sched).1 = passedOn x.length sched (lib.unwrap ctx x).1 ∧
    InForceFrom lib m (ses.decode m x sched).2 (lib.unwrap ctx x).2 l := by
  have key : ∀ env us, Answer.count (ses.decode m x sched).1 ::
      ((ses.decode m x sched).2.performAll m env (us.map Use.op)).1 =
      .count (passedOn x.length sched (lib.unwrap ctx x).1) ::
        (layered lib (l == .confidentiality) (lib.unwrap ctx x).2 us).map .count ∧
      ((ses.decode m x sched).2.afterAll m env (us.map Use.op)).hasSecurityLayer m = true := by
    intro env us
    cases l with
    | none => exact absurd rfl hl
    | integrity => exact h env (.decode x sched :: us)
    | confidentiality => exact h env (.decode x sched :: us)
  constructor
  · have := (key ⟨fun _ _ _ => .ret (.ok ()), fun _ _ _ => .ret (.ok ()), fun _ => none, 0,
      ⟨⟨[], 0, .client⟩, .client⟩⟩ []).1
    injection this with h1 h2
    injection h1
  · cases l with
    | none => exact absurd rfl hl
    | _ => exact fun env us => ⟨(List.cons.inj (key env us).1).2, (key env us).2⟩

end stream

/-- C56: two sessions with a layer in force, from connected contexts: any number of messages, sent
in either direction in any order, arrive as they were sent. -/
theorem C56 {R : lib.Ctx → lib.Ctx → Prop} (hR : Connects lib R) {m m' : Mech} {l l' : Layer}
    (hl : l ≠ .none) (hl' : l' ≠ .none) (ms : List (Bool × Bytes)) {s : Session m.S}
    {s' : Session m'.S} {c d : lib.Ctx} (hs : InForceFrom lib m s c l)
    (hs' : InForceFrom lib m' s' d l') (hcd : R c d) : Arrived ms (converse m m' s s' ms) := by
  induction ms generalizing s s' c d with
  | nil => exact trivial
  | cons x ms ih =>
    obtain ⟨b, x⟩ := x
    cases b with
    | true =>
      obtain ⟨y, c', d', hw, hu, hr⟩ := hR.carries c d hcd (l == .confidentiality) x
      obtain ⟨h1, h2⟩ := InForceFrom.encode hs hl x []
      rw [hw, passedOn_free] at h1
      rw [hw] at h2
      obtain ⟨h3, h4⟩ := InForceFrom.decode hs' hl' y []
      rw [hu, passedOn_free] at h3
      rw [hu] at h4
      unfold converse
      rw [h1]
      refine ⟨⟨rfl, ⟨y.length, ?_⟩, ?_⟩, ih h2 h4 hr⟩
      · exact congrArg (·.res) h3
      · exact congrArg (·.out) h3
    | false =>
      obtain ⟨y, d', c', hw, hu, hr⟩ := hR.carries d c (hR.symm _ _ hcd) (l' == .confidentiality) x
      obtain ⟨h1, h2⟩ := InForceFrom.encode hs' hl' x []
      rw [hw, passedOn_free] at h1
      rw [hw] at h2
      obtain ⟨h3, h4⟩ := InForceFrom.decode hs hl y []
      rw [hu, passedOn_free] at h3
      rw [hu] at h4
      unfold converse
      rw [h1]
      refine ⟨⟨rfl, ⟨y.length, ?_⟩, ?_⟩, ih h4 h2 (hR.symm _ _ hr)⟩
      · exact congrArg (·.res) h3
      · exact congrArg (·.out) h3

/-! ## C58: when the client goes on -/

theorem allows_bits (l : Layer) : (match l with
    | .none => SecurityLayer.none
    | .integrity => .integrity
    | .confidentiality => .confidentiality) = ⟨l.only⟩ := by cases l <;> rfl

/-- A non-empty set of layers holds one of the three. -/
theorem some_layer {a : UInt8} (ha : a.toNat < 8) (hne : a ≠ 0) : ∃ l, Allows a l := by
  have key : ∀ n < 8, n ≠ 0 → ∃ l : Layer, n.testBit l.index = true := by
    intro n hn h0
    have : n.testBit 0 = true ∨ n.testBit 1 = true ∨ n.testBit 2 = true := by
      revert n; decide
    rcases this with h | h | h
    · exact ⟨.none, h⟩
    · exact ⟨.integrity, h⟩
    · exact ⟨.confidentiality, h⟩
  exact key a.toNat ha (fun h => hne (UInt8.toNat_inj.1 h))

/-- The question for acceptable layers: an answer is taken up exactly if the context supports one of
the layers, or there are none. -/
theorem clientAcceptable_exact {ctx : lib.Ctx} {fl : Flags} (hf : lib.flags ctx = .ok fl)
    {a : SecurityLayer} (ha : a.bits.toNat < 8) (s : CState lib) (w : World) :
    (a.bits = 0 ∨ ∃ l, Allows a.bits l ∧ Supports fl l) ∧
      clientAcceptable lib ctx a s w = (.ok a, s, w) ∨
    (a.bits ≠ 0 ∧ ¬ ∃ l, Allows a.bits l ∧ Supports fl l) ∧
      clientAcceptable lib ctx a s w = (.err badContext, s, w) := by
  unfold clientAcceptable
  rw [M.bind_ok (liftGss_ok hf s w)]
  have hn : a.contains .none = true ↔ Allows a.bits .none := contains_iff a .none
  have hi : a.contains .integrity = true ↔ Allows a.bits .integrity := contains_iff a .integrity
  split
  · next h =>
    refine .inl ⟨?_, rfl⟩
    rcases Bool.or_eq_true _ _ ▸ h with h | h
    · exact .inl (by simpa [SecurityLayer.isEmpty] using h)
    · exact .inr ⟨.none, hn.1 h, trivial⟩
  · next h =>
    have h0 : a.bits ≠ 0 := fun h' => h (by simp [SecurityLayer.isEmpty, h'])
    have h1 : ¬ Allows a.bits .none := fun h' => h (by simp [hn.2 h'])
    split
    · next h2 =>
      obtain ⟨h2, h3⟩ := Bool.and_eq_true _ _ ▸ h2
      exact .inl ⟨.inr ⟨.integrity, hi.1 h2, h3⟩, rfl⟩
    · next h2 =>
      split
      · next h3 =>
        refine .inl ⟨.inr ?_, rfl⟩
        simp only [Bool.and_eq_true] at h3
        obtain ⟨l, hl⟩ := some_layer ha h0
        refine ⟨l, hl, ?_⟩
        cases l with
        | none => trivial
        | integrity => exact h3.1.1
        | confidentiality => exact ⟨h3.1.2, h3.2, h3.1.1⟩
      · next h3 =>
        refine .inr ⟨⟨h0, ?_⟩, rfl⟩
        rintro ⟨l, hl, hs⟩
        cases l with
        | none => exact h1 hl
        | integrity => exact h2 (by simp [hi.2 hl, show fl.integ = true from hs])
        | confidentiality => exact h3 (by simp [show fl.mutualAuth = true ∧ fl.conf = true ∧ fl.integ = true from hs])

/-- The `Pending` arm after the token was written. -/
theorem clientPending_free {env : Env} {ctx ctx' : lib.Ctx} {input tok : Option Bytes}
    (hs : lib.clientStep ctx input = (.ok tok, ctx')) (rng : Nat → Nat) (slot : Option VVal)
    (log : List Event) :
    clientPending lib env ctx input .errored ⟨⟨[], []⟩, rng, slot, log⟩ =
      (if lib.isComplete ctx' then do
        let acceptable ← maybeNeedWith env .gssSecurityLayer .empty (clientAcceptable lib ctx')
        M.set (.last ctx' (match acceptable with
          | some a => a
          | none => .all))
        pure .running
      else do
        M.set (.pending ctx')
        pure .running : M (CState lib) State) .errored ⟨⟨tok.getD [], []⟩, rng, slot, log⟩ := by
  unfold clientPending
  rw [hs]
  dsimp only
  rw [M.bind_ok (liftGss_ok rfl ..)]
  cases tok with
  | none => rfl
  | some t => cases t <;> rfl

/-- The step of a client in which its context becomes complete. -/
theorem clientPending_complete {env : Env} {o : Option SecurityLayer}
    (ho : env.Offers .gssSecurityLayer o) {ctx ctx' : lib.Ctx} {input tok : Option Bytes} {fl : Flags}
    (hs : lib.clientStep ctx input = (.ok tok, ctx')) (hc : lib.isComplete ctx' = true)
    (hf : lib.flags ctx' = .ok fl) (ha : (allowed o).toNat < 8)
    (rng : Nat → Nat) (slot : Option VVal) (log : List Event) :
    ∃ log', ((o = none ∨ allowed o = 0 ∨ ∃ l, Allows (allowed o) l ∧ Supports fl l) ∧
      clientPending lib env ctx input .errored ⟨⟨[], []⟩, rng, slot, log⟩ =
        (.ok .running, .last ctx' ⟨allowed o⟩, ⟨⟨tok.getD [], []⟩, rng, slot, log'⟩)) ∨
    ((o ≠ none ∧ allowed o ≠ 0 ∧ ¬ ∃ l, Allows (allowed o) l ∧ Supports fl l) ∧
      clientPending lib env ctx input .errored ⟨⟨[], []⟩, rng, slot, log⟩ =
        (.err badContext, .errored, ⟨⟨tok.getD [], []⟩, rng, slot, log'⟩)) := by
  rw [clientPending_free hs, hc, if_pos rfl]
  cases o with
  | none =>
    refine ⟨log ++ [.asked .gssSecurityLayer .empty], .inl ⟨.inl rfl, ?_⟩⟩
    rw [M.bind_ok (maybeNeedWith_declines (ho log .empty) _ _)]
    rfl
  | some a =>
    obtain ⟨es, hq, he⟩ := maybeNeedWith_answers (w := ⟨⟨tok.getD [], []⟩, rng, slot, log⟩)
      (ho log .empty) (clientAcceptable lib ctx') CState.errored
    refine ⟨log ++ (.asked .gssSecurityLayer .empty :: es ++ [.answered .gssSecurityLayer a]), ?_⟩
    rcases clientAcceptable_exact hf (a := a) ha CState.errored
      (World.addLog ⟨⟨tok.getD [], []⟩, rng, slot, log⟩
        (.asked .gssSecurityLayer .empty :: es ++ [.answered .gssSecurityLayer a]))
      with ⟨h1, h2⟩ | ⟨⟨h1, h1'⟩, h2⟩
    · refine .inl ⟨.inr h1, ?_⟩
      rw [h2] at he
      rw [M.bind_ok he]
      rfl
    · refine .inr ⟨⟨nofun, h1, h1'⟩, ?_⟩
      rw [h2] at he
      rw [M.bind_err he]
      rfl

/-- A client session about to give `input` to the context `ctx`: it was just started and `ctx` is
the new context for the service and host the callback names, or `ctx` is waiting for a token. -/
def AtContext (lib : Lib) (env : Env) (ses : Session (CState lib)) (ctx : lib.Ctx) : Prop :=
  ses.st = .pending ctx ∨ ses.st = .initial ∧ ∃ service host,
    env.Gives .gssService service ∧ env.Gives .hostname host ∧
    lib.newClient (Str.bytes (service ++ c!"@" ++ host)) = .ok ctx

theorem needWith_gives {S : Type} {env : Env} {p : Property} {v : p.Value} (h : env.Gives p v) (s : S)
    (wr : Writer) (rng : Nat → Nat) (slot : Option VVal) (log : List Event) :
    ∃ log', needWith (S := S) env p .empty (fun v => pure v) s ⟨wr, rng, slot, log⟩ =
      (.ok v, s, ⟨wr, rng, slot, log'⟩) := by
  obtain ⟨es, hq, he⟩ := maybeNeedWith_answers (w := ⟨wr, rng, slot, log⟩) (h log .empty)
    (fun v => (pure v : M S p.Value)) s
  refine ⟨log ++ (.asked p .empty :: es ++ [.answered p v]), ?_⟩
  unfold needWith
  rw [M.bind_ok (he.trans rfl)]
  rfl

/-- Such a step starts with the context. -/
theorem clientStep_at {env : Env} {ses : Session (CState lib)} {ctx : lib.Ctx}
    (h : AtContext lib env ses ctx) (input : Option Bytes) (wr : Writer) :
    ∃ log', clientStep lib env input ses.st ⟨wr, ses.rng, ses.slot, ses.log⟩ =
      clientPending lib env ctx input .errored ⟨wr, ses.rng, ses.slot, log'⟩ := by
  unfold clientStep
  rw [M.bind_ok (M.get_apply ..), M.bind_ok (M.set_apply ..)]
  rcases h with h | ⟨h, service, host, h1, h2, h3⟩
  · exact ⟨ses.log, by rw [h]⟩
  · rw [h]
    dsimp only
    obtain ⟨log₁, h1⟩ := needWith_gives h1 (CState.errored : CState lib) wr ses.rng ses.slot ses.log
    obtain ⟨log₂, h2⟩ := needWith_gives h2 (CState.errored : CState lib) wr ses.rng ses.slot log₁
    refine ⟨log₂, ?_⟩
    rw [M.bind_ok h1, M.bind_ok h2]
    have h3 : lib.newClient (Str.bytes (service ++ '@' :: host)) = .ok ctx := by
      simpa using h3
    rw [M.bind_ok (liftGss_ok h3 ..)]

/-- C58: in the step in which its context becomes complete, a client whose user was asked for
acceptable layers goes on exactly if the context supports one of them. (Or if the set is empty:
such a session fails one step later, by `C39_partial`.) Otherwise the step fails with BadContext,
after the token was written. -/
theorem C58 {env : Env} {a : SecurityLayer} (ho : env.Gives .gssSecurityLayer a)
    (ha : a.bits.toNat < 8) {ses : Session (CState lib)} {ctx ctx' : lib.Ctx}
    (hses : AtContext lib env ses ctx) {input tok : Option Bytes} {fl : Flags}
    (hs : lib.clientStep ctx input = (.ok tok, ctx')) (hc : lib.isComplete ctx' = true)
    (hf : lib.flags ctx' = .ok fl) :
    ((a.bits = 0 ∨ ∃ l, Allows a.bits l ∧ Supports fl l) →
      (ses.step (client lib) env ⟨input, []⟩).1 = ⟨.ok .running, tok.getD []⟩) ∧
    ((a.bits ≠ 0 ∧ ¬ ∃ l, Allows a.bits l ∧ Supports fl l) →
      (ses.step (client lib) env ⟨input, []⟩).1 =
        ⟨.err (.mechanismError .gssBadContext), tok.getD []⟩) := by
  obtain ⟨log₁, h1⟩ := clientStep_at hses input ⟨[], []⟩
  obtain ⟨log₂, h2⟩ := clientPending_complete (o := some a) ho hs hc hf ha ses.rng ses.slot log₁
  have key : ∀ r, clientPending lib env ctx input .errored ⟨⟨[], []⟩, ses.rng, ses.slot, log₁⟩ = r →
      (ses.step (client lib) env ⟨input, []⟩).1 = ⟨r.1, r.2.2.wr.out⟩ := by
    rintro r rfl
    rw [← h1]
    rfl
  rcases h2 with ⟨h2, h3⟩ | ⟨h2, h3⟩
  · refine ⟨fun _ => key _ h3, fun h => ?_⟩
    rcases h2 with h2 | h2 | h2
    · cases h2
    · exact absurd h2 h.1
    · exact absurd h2 h.2
  · refine ⟨fun h => ?_, fun _ => key _ h3⟩
    rcases h with h | h
    · exact absurd h h2.2.1
    · exact absurd h h2.2.2

/-- The user wants confidentiality, the context has integrity only: the client stops. -/
example : AtContext (flagGss ⟨true, false, true⟩)
      (exampleEnv [⟨.gssService, c!"imap"⟩, ⟨.hostname, c!"h"⟩,
        ⟨.gssSecurityLayer, (⟨4⟩ : SecurityLayer)⟩]) { st := .initial, rng := fun _ => 0 } () ∧
    ¬ ∃ l, Allows (4 : UInt8) l ∧ Supports ⟨true, false, true⟩ l := by
  refine ⟨.inr ⟨rfl, c!"imap", c!"h", fun _ _ => answers_answerAll _ [] _ rfl (by simp),
    fun _ _ => answers_answerAll _ [⟨.gssService, c!"imap"⟩] _ rfl (by simp), rfl⟩, ?_⟩
  rintro ⟨l, h1, h2⟩
  cases l with
  | none => exact absurd h1 (by unfold Allows; decide)
  | integrity => exact absurd h1 (by unfold Allows; decide)
  | confidentiality => exact nomatch h2.2.1

/-! ## C59: the layer in force is supported -/

/-- An answer that is used was found to be workable with the context. -/
theorem answered_supported {env : Env} {a : SecurityLayer} (ho : env.Gives .gssSecurityLayer a)
    (ha : a.bits.toNat < 8) :
    Answered lib env (fun ctx _ acc => acc = a.bits ∧ ∃ fl, lib.flags ctx = .ok fl ∧
      (a.bits = 0 ∨ ∃ l, Allows a.bits l ∧ Supports fl l)) := by
  intro ctx w r w' h
  have hr := answered_offers (o := some a) ho ctx w r w' h
  refine ⟨hr, ?_⟩
  obtain ⟨es, hq, he⟩ := maybeNeedWith_answers (ho w.log .empty) (clientAcceptable lib ctx)
    CState.errored
  rw [he] at h
  cases hf : lib.flags ctx with
  | error n =>
    have : ∀ w : World, clientAcceptable lib ctx a .errored w =
        (.err (.mechanismError (.gss n)), .errored, w) := by
      intro w
      unfold clientAcceptable
      exact M.bind_err (liftGss_error hf ..)
    rw [this] at h
    cases h
  | ok fl =>
    refine ⟨fl, rfl, ?_⟩
    rcases clientAcceptable_exact hf ha CState.errored
        (w.addLog (.asked .gssSecurityLayer .empty :: es ++ [.answered .gssSecurityLayer a]))
      with ⟨h1, h2⟩ | ⟨h1, h2⟩
    · exact h1
    · rw [h2] at h
      cases h

/-- Full C59: the layer in force on the client side is one its context supports. Not true: see
`C59_false`. -/
def C59 : Prop :=
  ∀ (lib : Lib) (env : Env) (rng : Nat → Nat) (calls : List Call) (c : Call)
    (r : Reply State) (ses' : Session (CState lib)) (k : MessageSent),
    (Session.run (client lib) env { st := .initial, rng := rng } calls).2.step (client lib) env c =
      (r, ses') → r.res = .ok (.finished k) →
    ∃ l ctx fl, InForce lib (client lib) ses' l ∧ InitiatedBy lib calls ctx ∧
      lib.flags ctx = .ok fl ∧ Supports fl l

/-- C59 for callbacks that name the acceptable layers: if just one is named, it is the one in force
and the context supports it; if several are named, the context supports at least one of them. In
particular the context has integrity whenever "no layer" is not acceptable. Missing: callbacks that
name several layers, or none; the client does not look whether the layer it chooses is
supported. -/
theorem C59_partial {env : Env} {a : SecurityLayer} (ho : env.Gives .gssSecurityLayer a)
    (ha : a.bits.toNat < 8) (rng : Nat → Nat) (calls : List Call) (c : Call)
    {ses' : Session (CState lib)} {r : Reply State} {k : MessageSent}
    (hstep : (Session.run (client lib) env { st := .initial, rng := rng } calls).2.step
      (client lib) env c = (r, ses')) (hfin : r.res = .ok (.finished k)) :
    ∃ l ctx fl, InForce lib (client lib) ses' l ∧ InitiatedBy lib calls ctx ∧
      lib.flags ctx = .ok fl ∧ Allows a.bits l ∧
      (∃ l', Allows a.bits l' ∧ Supports fl l') ∧
      (a.bits = l.only → Supports fl l) ∧ (¬ Allows a.bits .none → fl.integ = true) := by
  obtain ⟨l, bits, acc, ctx, b, h1, h2, h3, h4, ⟨rfl, fl, h5, h5'⟩, h6, h7, -, h8⟩ :=
    client_finishes (answered_supported ho ha) rng calls c rfl hstep hfin
  have hne : a.bits ≠ 0 := by
    intro h0
    have := h6.2.1
    rw [h0] at this
    cases l <;> exact absurd this (by unfold Allows; decide)
  rcases h5' with h | ⟨l', hl', hs⟩
  · exact absurd h hne
  refine ⟨l, ctx, fl, h7, h2, h5, h6.2.1, ⟨l', hl', hs⟩, fun h => ?_, fun h => ?_⟩
  · rw [h] at hl'
    have : l' = l := by
      cases l <;> cases l' <;> first | rfl | exact absurd hl' (by unfold Allows; decide)
    exact this ▸ hs
  · cases l' with
    | none => exact absurd hl' h
    | integrity => exact hs
    | confidentiality => exact hs.2.2

/-- C59 whatever the callback says, if the server offers only what the context supports (a server
of this crate does, C40). Missing: servers that offer more. -/
theorem C59_offered_partial (env : Env) (rng : Nat → Nat) (calls : List Call) (c : Call)
    (hoff : ∀ ctx b bits, c.input = some b → InitiatedBy lib calls ctx →
      LayerToken lib ctx b bits →
      ∃ fl, lib.flags ctx = .ok fl ∧ ∀ l, Allows bits l → Supports fl l)
    {ses' : Session (CState lib)} {r : Reply State} {k : MessageSent}
    (hstep : (Session.run (client lib) env { st := .initial, rng := rng } calls).2.step
      (client lib) env c = (r, ses')) (hfin : r.res = .ok (.finished k)) :
    ∃ l ctx fl, InForce lib (client lib) ses' l ∧ InitiatedBy lib calls ctx ∧
      lib.flags ctx = .ok fl ∧ Supports fl l := by
  obtain ⟨l, bits, acc, ctx, b, h1, h2, -, h4, h5, h6, -⟩ :=
    C39_any_partial env rng calls c hstep hfin
  obtain ⟨fl, hf, hs⟩ := hoff ctx b bits h1 h2 h4
  exact ⟨l, ctx, fl, h6, h2, hf, hs l h5.1⟩

/-- A server that offers integrity, which the context has, to a user who was not asked. -/
example : (∀ ctx b bits, (some [3, 255, 255, 255] : Option Bytes) = some b →
      InitiatedBy (flagGss ⟨false, false, true⟩) [⟨none, []⟩] ctx →
      LayerToken (flagGss ⟨false, false, true⟩) ctx b bits →
      ∃ fl, (flagGss ⟨false, false, true⟩).flags ctx = .ok fl ∧
        ∀ l, Allows bits l → Supports fl l) ∧
    ∃ r ses', (Session.run (client (flagGss ⟨false, false, true⟩))
      (exampleEnv [⟨.gssService, c!"imap"⟩, ⟨.hostname, c!"h"⟩])
      { st := .initial, rng := fun _ => 0 } [⟨none, []⟩]).2.step
      (client (flagGss ⟨false, false, true⟩))
      (exampleEnv [⟨.gssService, c!"imap"⟩, ⟨.hostname, c!"h"⟩])
      ⟨some [3, 255, 255, 255], []⟩ = (r, ses') ∧ r = ⟨.ok (.finished .yes), [2, 255, 255, 255]⟩ := by
  refine ⟨?_, _, _, rfl, rfl⟩
  rintro ctx b bits h - ⟨-, x, y, z, ctx', h'⟩
  cases h
  cases h'
  refine ⟨_, rfl, fun l hl => ?_⟩
  cases l with
  | none => trivial
  | integrity => rfl
  | confidentiality => exact absurd hl (by unfold Allows; decide)

/-- A library whose messages can only be encrypted by contexts with the flag. -/
def plainGss : Lib :=
  { toyGss with
    flags := fun _ => .ok ⟨false, false, false⟩
    wrap := fun _ e b => (if e then .error 1 else .ok b, ()) }

/-- A user who accepts everything. -/
def anyLayerEnv : Env := exampleEnv [⟨.gssService, c!"imap"⟩, ⟨.hostname, c!"h"⟩]

/-- Full C59 does not hold: the context has no flags at all, the callback does not restrict the
layers, and the server says it has confidentiality. The session finishes with that layer in force,
and every `encode` fails. -/
theorem C59_false : ¬ C59 := by
  intro h
  have hst : (Session.run (client plainGss) anyLayerEnv { st := .initial, rng := fun _ => 0 }
      [⟨none, []⟩]).2.step (client plainGss) anyLayerEnv ⟨some [7, 255, 255, 255], []⟩ =
      (⟨.ok (.finished .yes), [4, 255, 255, 255]⟩,
        { st := .completed (some ((), true))
          rng := fun _ => 0
          log := [.asked .gssService .empty, .answered .gssService (c!"imap"),
            .asked .hostname .empty, .answered .hostname (c!"h"),
            .asked .gssSecurityLayer .empty] }) := rfl
  obtain ⟨l, ctx, fl, hin, -, hf, hs⟩ := h plainGss anyLayerEnv _ _ _ _ _ _ hst rfl
  cases hf
  obtain ⟨ctx, hin⟩ := hin
  cases l with
  | none => exact nomatch hin.1
  | integrity => exact nomatch hs
  | confidentiality => exact nomatch hs.1

/-- The user accepts integrity only, the context has it and the server offers it. -/
example : ∃ r ses', (Session.run (client (flagGss ⟨false, false, true⟩))
      (exampleEnv [⟨.gssService, c!"imap"⟩, ⟨.hostname, c!"h"⟩,
        ⟨.gssSecurityLayer, (⟨2⟩ : SecurityLayer)⟩])
      { st := .initial, rng := fun _ => 0 } [⟨none, []⟩]).2.step
      (client (flagGss ⟨false, false, true⟩))
      (exampleEnv [⟨.gssService, c!"imap"⟩, ⟨.hostname, c!"h"⟩,
        ⟨.gssSecurityLayer, (⟨2⟩ : SecurityLayer)⟩])
      ⟨some [7, 255, 255, 255], []⟩ = (r, ses') ∧ r.res = .ok (.finished .yes) :=
  ⟨_, _, rfl, by decide +kernel⟩

/-! ## C57: both sides together -/

/-- `l` is the strongest layer the user of the client accepts and the server offers. -/
def Negotiated (oC oS : Option SecurityLayer) (fl : Flags) (l : Layer) : Prop :=
  Allows (allowed oC) l ∧ Available oS fl l ∧
    ∀ l', Allows (allowed oC) l' → Available oS fl l' → l'.index ≤ l.index

theorem offerBytes_head (set : SecurityLayer) : ∃ x y z, offerBytes set = [set.bits, x, y, z] := by
  unfold offerBytes
  split <;> exact ⟨_, _, _, rfl⟩

theorem restrict_lt {a : SecurityLayer} (h : a.bits.toNat < 8) (fl : Flags) :
    (serverRestrict a fl).bits.toNat < 8 := by
  have key : ∀ (x y : UInt8), x.toNat < 8 → (x &&& y).toNat < 8 := by
    intro x y hx
    rw [UInt8.toNat_and]
    exact Nat.lt_of_le_of_lt Nat.and_le_left hx
  unfold serverRestrict
  dsimp only
  repeat' split
  all_goals first
    | exact h
    | exact key _ _ h
    | exact key _ _ (key _ _ h)

/-- The last step of the client. -/
theorem clientStep_last {ctx ctx₁ : lib.Ctx} {acc set : SecurityLayer} {token : Bytes}
    {x y z : UInt8} (hu : lib.unwrap ctx token = (.ok [set.bits, x, y, z], ctx₁))
    (hset : set.bits.toNat < 8) {l : Layer} (h1 : Allows set.bits l) (h2 : Allows acc.bits l)
    (hw : ∀ b, ∃ out c, lib.wrap ctx₁ false b = (.ok out, c)) :
    ∃ l choice x' y' z' ctx₂, Strongest set.bits acc.bits l ∧
      lib.wrap ctx₁ false [l.only, x', y', z'] = (.ok choice, ctx₂) ∧
      ∀ env rng slot log,
        clientStep lib env (some token) (.last ctx acc) ⟨⟨[], []⟩, rng, slot, log⟩ =
        (.ok (.finished .yes), .completed (l.protect ctx₂), ⟨⟨choice, []⟩, rng, slot, log⟩) := by
  cases hc : clientChoose set acc with
  | none => exact absurd ⟨h1, h2⟩ (clientChoose_none hc l)
  | some rw =>
    obtain ⟨resp, wr⟩ := rw
    obtain ⟨l, hl, hr1, hr2, rfl⟩ := clientChoose_spec hc
    obtain ⟨x', y', z', rfl⟩ : ∃ x' y' z', resp = [l.only, x', y', z'] := by
      match resp, hr1, hr2 with
      | [_, x, y, z], rfl, _ => exact ⟨x, y, z, rfl⟩
    obtain ⟨choice, ctx₂, hw⟩ := hw [l.only, x', y', z']
    refine ⟨l, choice, x', y', z', ctx₂, hl, hw, fun env rng slot log => ?_⟩
    unfold clientStep
    rw [M.bind_ok (M.get_apply ..), M.bind_ok (M.set_apply ..)]
    dsimp only
    rw [M.bind_ok (M.okOr_some ..)]
    show (liftGss (lib.unwrap ctx token).1 >>= fun unwrapped => do
      let supported ← M.lift (finalToken unwrapped)
      match clientChoose supported acc with
      | none => M.fail badContext
      | some (response, wrap) => do
        let wrapped ← liftGss (lib.wrap (lib.unwrap ctx token).2 false response).1
        M.writeAll wrapped
        M.set (.completed (wrap.map fun e => ((lib.wrap (lib.unwrap ctx token).2 false response).2, e)))
        pure (.finished .yes) : M (CState lib) State) .errored _ = _
    rw [hu]
    have hf : finalToken [set.bits, x, y, z] = .ok set := by
      simp only [finalToken, fromBits_lt hset]
    rw [M.bind_ok (liftGss_ok rfl ..), hf, M.bind_ok (show M.lift (S := CState lib) (.ok _) _ _ = _ from rfl),
      hc]
    dsimp only
    rw [hw]
    dsimp only
    rw [M.bind_ok (liftGss_ok rfl ..), M.bind_ok (writeAll_free ..), M.bind_ok (M.set_apply ..)]
    cases l <;> rfl

/-- What both sides need to be given: the callbacks' answers, and the contexts for the service. -/
structure Prepared (lib : Lib) (envC envS : Env) (oC oS : Option SecurityLayer) (c₀ d₀ : lib.Ctx) :
    Prop where
  client : AtContext lib envC { st := .initial, rng := fun _ => 0 } c₀
  server : lib.newServer = .ok d₀
  clientLayers : envC.Offers .gssSecurityLayer oC
  serverLayers : envS.Offers .gssSecurityLayer oS
  /-- `SecurityLayer` has three bits -/
  bits : (allowed oC).toNat < 8 ∧ (allowed oS).toNat < 8

/-- Complete contexts at both ends, and a layer both sides can agree on. -/
structure Agreeable (lib : Lib) (R : lib.Ctx → lib.Ctx → Prop) (oC oS : Option SecurityLayer)
    (c d : lib.Ctx) (fl : Flags) : Prop where
  connected : R c d
  complete : lib.isComplete c = true ∧ lib.isComplete d = true
  serverFlags : lib.flags d = .ok fl
  clientFlags : ∃ fl', lib.flags c = .ok fl' ∧ ∀ a, oC = some a →
    ∃ l, Allows a.bits l ∧ Supports fl' l
  shared : ∃ l, Allows (allowed oC) l ∧ Available oS fl l

/-- The end of the exchange, from complete contexts on. -/
theorem negotiation {R : lib.Ctx → lib.Ctx → Prop} (hR : Connects lib R)
    {oC oS : Option SecurityLayer} {c d : lib.Ctx} {fl : Flags}
    (ha : Agreeable lib R oC oS c d fl)
    (hbits : (allowed oC).toNat < 8 ∧ (allowed oS).toNat < 8) :
    ∃ l offer choice c' d' d₁, Negotiated oC oS fl l ∧ R c' d' ∧
      lib.wrap d false (offerBytes (serverRestrict ⟨allowed oS⟩ fl)) = (.ok offer, d₁) ∧
      (∀ envC rng slot log, clientStep lib envC (some offer) (.last c ⟨allowed oC⟩)
        ⟨⟨[], []⟩, rng, slot, log⟩ =
        (.ok (.finished .yes), .completed (l.protect c'), ⟨⟨choice, []⟩, rng, slot, log⟩)) ∧
      (∀ envS rng slot log, serverStep lib envS (some choice)
        (.final d₁ (serverRestrict ⟨allowed oS⟩ fl)) ⟨⟨[], []⟩, rng, slot, log⟩ =
        (.ok (.finished .no), .done (l.protect d'), ⟨⟨[], []⟩, rng, slot, log⟩)) := by
  have hset : ∀ l, Allows (serverRestrict ⟨allowed oS⟩ fl).bits l ↔ Available oS fl l :=
    fun l => restrict_spec ..
  have hlt := restrict_lt (a := ⟨allowed oS⟩) hbits.2 fl
  generalize hS : serverRestrict ⟨allowed oS⟩ fl = set at hset hlt
  obtain ⟨x, y, z, hob⟩ := offerBytes_head set
  obtain ⟨offer, d₁, c₁, hw, hu, hr⟩ :=
    hR.carries d c (hR.symm _ _ ha.connected) false (offerBytes set)
  obtain ⟨l₀, hl₀, hl₀'⟩ := ha.shared
  have hwc : ∀ b, ∃ out c, lib.wrap c₁ false b = (.ok out, c) := fun b => by
    obtain ⟨y, c', d', h, -⟩ := hR.carries c₁ d₁ (hR.symm _ _ hr) false b
    exact ⟨y, c', h⟩
  rw [hob] at hu
  obtain ⟨l, choice, x', y', z', c₂, hl, hwl, hstep⟩ := clientStep_last
    (acc := ⟨allowed oC⟩) hu hlt ((hset l₀).2 hl₀') hl₀ hwc
  obtain ⟨choice', c₂', d₂, hw', hu', hr'⟩ :=
    hR.carries c₁ d₁ (hR.symm _ _ hr) false [l.only, x', y', z']
  rw [hwl] at hw'
  cases hw'
  refine ⟨l, offer, choice, c₂, d₂, d₁, ⟨hl.2.1, (hset l).1 hl.1, fun l' h1 h2 => hl.2.2 l' ((hset l').2 h2) h1⟩,
    hr', hw, hstep, fun envS rng slot log => serverStep_chosen hu' hl.1 rng slot log⟩

/-- What C57 claims of an exchange: the client is given `ins` followed by the server's offer, the
server is given `ins'` followed by the client's choice. -/
def BothFinish (lib : Lib) (R : lib.Ctx → lib.Ctx → Prop) (envC envS : Env)
    (oC oS : Option SecurityLayer) (fl : Flags) (ins : List (Option Bytes)) (outs : List Bytes)
    (ins' : List Bytes) (outs' : List Bytes) : Prop :=
  ∀ rng rng', ∃ l offer choice c d ses ses', Negotiated oC oS fl l ∧ R c d ∧
    Session.run (client lib) envC { st := .initial, rng := rng }
      (ins.map (⟨·, []⟩) ++ [⟨some offer, []⟩]) =
      (outs.map (⟨.ok .running, ·⟩) ++ [⟨.ok (.finished .yes), choice⟩], ses) ∧
    Session.run (server lib) envS { st := .initial, rng := rng' }
      (ins'.map (⟨some ·, []⟩) ++ [⟨some choice, []⟩]) =
      ((outs' ++ [offer]).map (⟨.ok .running, ·⟩) ++ [⟨.ok (.finished .no), []⟩], ses') ∧
    InForceFrom lib (client lib) ses c l ∧ InForceFrom lib (server lib) ses' d l

/-- C57: a client and a server whose contexts get complete with one token each finish, both with the
strongest layer the client's user accepts and the server offers in force, and with connected
contexts (so C56 applies if there is a layer). -/
theorem C57 {R : lib.Ctx → lib.Ctx → Prop} (hR : Connects lib R) {envC envS : Env}
    {oC oS : Option SecurityLayer} {c₀ c₁ c d₀ d : lib.Ctx} {fl : Flags} {t₁ t₂ : Bytes}
    (hp : Prepared lib envC envS oC oS c₀ d₀)
    (h1 : lib.clientStep c₀ none = (.ok (some t₁), c₁)) (h1' : lib.isComplete c₁ = false)
    (h2 : lib.serverStep d₀ t₁ = (.ok (some t₂), d))
    (h3 : lib.clientStep c₁ (some t₂) = (.ok none, c)) (ha : Agreeable lib R oC oS c d fl) :
    BothFinish lib R envC envS oC oS fl [none, some t₂] [t₁, []] [t₁, []] [t₂] := by
  intro rng rng'
  obtain ⟨l, offer, choice, c', d', d₁, hn, hr, hw, hcl, hsv⟩ := negotiation hR ha hp.bits
  obtain ⟨fl', hf', hwork⟩ := ha.clientFlags
  obtain ⟨log₁, e1⟩ := clientStep_at (ses := { st := .initial, rng := rng })
    (by
      rcases hp.client with h | h
      · cases h
      · exact .inr ⟨rfl, h.2⟩) none ⟨[], []⟩
  rw [clientPending_free h1, h1', if_neg (by simp), M.bind_ok (M.set_apply ..)] at e1
  have e1 := step_of (m := client lib) (env := envC) (ses := { st := .initial, rng := rng })
    (c := ⟨none, []⟩) e1
  obtain ⟨log₂, e2⟩ := clientPending_complete hp.clientLayers h3 ha.complete.1 hf' hp.bits.1 rng none
    log₁
  have e2 : clientStep lib envC (some t₂) (.pending c₁) ⟨⟨[], []⟩, rng, none, log₁⟩ =
      (.ok .running, .last c ⟨allowed oC⟩, ⟨⟨[], []⟩, rng, none, log₂⟩) := by
    rcases e2 with ⟨-, e2⟩ | ⟨⟨h0, -, h'⟩, -⟩
    · exact e2
    · cases oC with
      | none => exact absurd rfl h0
      | some a => exact absurd (hwork a rfl) h'
  have e2 := step_of (m := client lib) (env := envC) (ses := ⟨.pending c₁, none, rng, log₁⟩)
    (c := ⟨some t₂, []⟩) e2
  have e3 := step_of (m := client lib) (env := envC) (ses := ⟨.last c ⟨allowed oC⟩, none, rng, log₂⟩)
    (c := ⟨some offer, []⟩) (hcl envC rng none log₂)
  have hne : (serverRestrict ⟨allowed oS⟩ fl).isEmpty = false :=
    isEmpty_of_allows ((restrict_spec ⟨allowed oS⟩ fl l).2 hn.2.1)
  obtain ⟨log₃, f1⟩ := serverPending_complete hp.serverLayers h2 ha.complete.2 ha.serverFlags hne hw
    rng' none []
  have f1 := step_of (m := server lib) (env := envS) (ses := { st := .initial, rng := rng' })
    (c := ⟨some t₁, []⟩) ((serverStep_initial hp.server _ _).trans f1)
  have f2 := step_of (m := server lib) (env := envS) (ses := ⟨.installed d _, none, rng', log₃⟩)
    (c := ⟨some [], []⟩) (serverStep_installed hw (some []) rng' none log₃)
  have f3 := step_of (m := server lib) (env := envS) (ses := ⟨.final d₁ _, none, rng', log₃⟩)
    (c := ⟨some choice, []⟩) (hsv envS rng' none log₃)
  refine ⟨l, offer, choice, c', d', _, _, hn, hr, ?_, ?_, client_inForce ⟨_, none, rng, log₂⟩ l c' rfl,
    server_inForce ⟨_, none, rng', log₃⟩ l d' rfl⟩
  · show Session.run (client lib) envC _ [⟨none, []⟩, ⟨some t₂, []⟩, ⟨some offer, []⟩] = _
    rw [run_cons, e1, run_cons, e2, run_cons, e3]
    rfl
  · show Session.run (server lib) envS _ [⟨some t₁, []⟩, ⟨some [], []⟩, ⟨some choice, []⟩] = _
    rw [run_cons, f1, run_cons, f2, run_cons, f3]
    rfl

/-- C57 for contexts that get complete with a single token, from the client. -/
theorem C57_single {R : lib.Ctx → lib.Ctx → Prop} (hR : Connects lib R) {envC envS : Env}
    {oC oS : Option SecurityLayer} {c₀ c d₀ d : lib.Ctx} {fl : Flags} {t₁ : Bytes}
    (hp : Prepared lib envC envS oC oS c₀ d₀)
    (h1 : lib.clientStep c₀ none = (.ok (some t₁), c))
    (h2 : lib.serverStep d₀ t₁ = (.ok none, d)) (ha : Agreeable lib R oC oS c d fl) :
    BothFinish lib R envC envS oC oS fl [none] [t₁] [t₁] [] := by
  intro rng rng'
  obtain ⟨l, offer, choice, c', d', d₁, hn, hr, hw, hcl, hsv⟩ := negotiation hR ha hp.bits
  obtain ⟨fl', hf', hwork⟩ := ha.clientFlags
  obtain ⟨log₁, e1⟩ := clientStep_at (ses := { st := .initial, rng := rng })
    (by
      rcases hp.client with h | h
      · cases h
      · exact .inr ⟨rfl, h.2⟩) none ⟨[], []⟩
  obtain ⟨log₂, e2⟩ := clientPending_complete hp.clientLayers h1 ha.complete.1 hf' hp.bits.1 rng none
    log₁
  have e1 : clientStep lib envC none .initial ⟨⟨[], []⟩, rng, none, []⟩ =
      (.ok .running, .last c ⟨allowed oC⟩, ⟨⟨t₁, []⟩, rng, none, log₂⟩) := by
    rcases e2 with ⟨-, e2⟩ | ⟨⟨h0, -, h'⟩, -⟩
    · exact e1.trans e2
    · cases oC with
      | none => exact absurd rfl h0
      | some a => exact absurd (hwork a rfl) h'
  have e1 := step_of (m := client lib) (env := envC) (ses := { st := .initial, rng := rng })
    (c := ⟨none, []⟩) e1
  have e3 := step_of (m := client lib) (env := envC) (ses := ⟨.last c ⟨allowed oC⟩, none, rng, log₂⟩)
    (c := ⟨some offer, []⟩) (hcl envC rng none log₂)
  have hne : (serverRestrict ⟨allowed oS⟩ fl).isEmpty = false :=
    isEmpty_of_allows ((restrict_spec ⟨allowed oS⟩ fl l).2 hn.2.1)
  obtain ⟨log₃, f1⟩ := serverPending_complete hp.serverLayers h2 ha.complete.2 ha.serverFlags hne hw
    rng' none []
  have f1 := step_of (m := server lib) (env := envS) (ses := { st := .initial, rng := rng' })
    (c := ⟨some t₁, []⟩) ((serverStep_initial hp.server _ _).trans f1)
  have f3 := step_of (m := server lib) (env := envS) (ses := ⟨.final d₁ _, none, rng', log₃⟩)
    (c := ⟨some choice, []⟩) (hsv envS rng' none log₃)
  refine ⟨l, offer, choice, c', d', _, _, hn, hr, ?_, ?_, client_inForce ⟨_, none, rng, log₂⟩ l c' rfl,
    server_inForce ⟨_, none, rng', log₃⟩ l d' rfl⟩
  · show Session.run (client lib) envC _ [⟨none, []⟩, ⟨some offer, []⟩] = _
    rw [run_cons, e1, run_cons, e3]
    rfl
  · show Session.run (server lib) envS _ [⟨some t₁, []⟩, ⟨some choice, []⟩] = _
    rw [run_cons, f1, run_cons, f3]
    rfl

/-- A library with one token in each direction. Wrapped messages carry a count, which has to be
right. -/
def countGss : Lib :=
  { Ctx := Nat × Nat
    newClient := fun _ => .ok (0, 0)
    newServer := .ok (0, 0)
    clientStep := fun c _ => if c.1 = 0 then (.ok (some [1]), (1, 0)) else (.ok none, (2, 0))
    serverStep := fun _ _ => (.ok (some [2]), (2, 0))
    isComplete := fun c => c.1 == 2
    flags := fun _ => .ok ⟨true, true, true⟩
    wrap := fun c e b => (.ok ((if e then 1 else 0) :: UInt8.ofNat c.2 :: b), (c.1, c.2 + 1))
    unwrap := fun c b =>
      match b with
      | _ :: n :: b => if n = UInt8.ofNat c.2 then (.ok b, (c.1, c.2 + 1)) else (.error 1, c)
      | _ => (.error 2, c) }

/-- Its contexts are connected if their counts agree. -/
def Counted (c d : Nat × Nat) : Prop := c = d

theorem counted : Connects countGss Counted :=
  ⟨fun _ _ h => h.symm, fun c d h e x => by
    cases h
    exact ⟨(if e then 1 else 0) :: UInt8.ofNat c.2 :: x, (c.1, c.2 + 1), (c.1, c.2 + 1), rfl, if_pos rfl, rfl⟩⟩

/-- The client's user accepts integrity or confidentiality, the server's allows integrity or
nothing: both end up with integrity. -/
example : BothFinish countGss Counted
    (exampleEnv [⟨.gssService, c!"imap"⟩, ⟨.hostname, c!"h"⟩,
      ⟨.gssSecurityLayer, (⟨6⟩ : SecurityLayer)⟩])
    (exampleEnv [⟨.gssSecurityLayer, (⟨3⟩ : SecurityLayer)⟩]) (some ⟨6⟩) (some ⟨3⟩)
    ⟨true, true, true⟩ [none, some [2]] [[1], []] [[1], []] [[2]] := by
  refine C57 counted (c₀ := ((0, 0) : Nat × Nat)) (c₁ := ((1, 0) : Nat × Nat))
    (c := ((2, 0) : Nat × Nat)) (d₀ := ((0, 0) : Nat × Nat)) (d := ((2, 0) : Nat × Nat))
    { client := ?_
      server := rfl
      clientLayers := ?_
      serverLayers := ?_
      bits := ⟨by decide, by decide⟩ } rfl rfl rfl rfl
    { connected := rfl
      complete := ⟨rfl, rfl⟩
      serverFlags := rfl
      clientFlags := ⟨_, rfl, ?_⟩
      shared := ⟨.integrity, by unfold Allows; decide, by unfold Allows; decide, nofun, fun _ => rfl⟩ }
  · exact .inr ⟨rfl, c!"imap", c!"h", fun _ _ => answers_answerAll _ [] _ rfl (by simp),
      fun _ _ => answers_answerAll _ [⟨.gssService, c!"imap"⟩] _ rfl (by simp), rfl⟩
  · exact fun _ _ => answers_answerAll _ [⟨.gssService, c!"imap"⟩, ⟨.hostname, c!"h"⟩] [] rfl (by simp)
  · exact fun _ _ => answers_answerAll _ [] [] rfl (by simp)
  · rintro a h
    cases h
    exact ⟨.integrity, by unfold Allows; decide, rfl⟩

/-- Messages through the layers of such sessions. -/
example : Arrived [(true, b!"a"), (false, b!"bc"), (true, [])]
    (converse (client countGss) (server countGss)
      { st := .completed (some ((2, 5), true)), rng := fun _ => 0 }
      { st := .done (some ((2, 5), false)), rng := fun _ => 0 }
      [(true, b!"a"), (false, b!"bc"), (true, [])]) :=
  C56 (l := .confidentiality) (l' := .integrity) counted nofun nofun _
    (client_inForce _ .confidentiality ((2, 5) : Nat × Nat) rfl)
    (server_inForce _ .integrity ((2, 5) : Nat × Nat) rfl)
    (show Counted (2, 5) (2, 5) from rfl)

/-! ## A server that has nothing to offer -/

/-- C40, the other way around: if the context supports none of the layers the callback allows, the
step in which it becomes complete fails with BadContext and nothing is written. -/
theorem C40_nothing {env : Env} {o : Option SecurityLayer} (ho : env.Offers .gssSecurityLayer o)
    (hbits : (allowed o).toNat < 8) {ctx ctx' : lib.Ctx} {i : Bytes} {tok : Option Bytes} {fl : Flags}
    (hn : lib.newServer = .ok ctx) (hs : lib.serverStep ctx i = (.ok tok, ctx'))
    (hc : lib.isComplete ctx' = true) (hfl : lib.flags ctx' = .ok fl)
    (hnone : ¬ ∃ l, Available o fl l) (rng : Nat → Nat) :
    (Session.step (server lib) env { st := .initial, rng := rng } ⟨some i, []⟩).1 =
      ⟨.err (.mechanismError .gssBadContext), []⟩ := by
  have hempty : (serverRestrict ⟨allowed o⟩ fl).isEmpty = true := by
    refine Decidable.byContradiction fun h => ?_
    obtain ⟨l, hl⟩ := some_layer (restrict_lt (a := ⟨allowed o⟩) hbits fl)
      (fun h0 => h (by simp [SecurityLayer.isEmpty, h0]))
    exact hnone ⟨l, (restrict_spec ..).1 hl⟩
  have hask : ∃ log', maybeNeedWith (S := SState lib) env .gssSecurityLayer .empty (fun a => pure a)
      .errored ⟨⟨[], []⟩, rng, none, []⟩ = (.ok o, .errored, ⟨⟨[], []⟩, rng, none, log'⟩) := by
    cases o with
    | none => exact ⟨_, maybeNeedWith_declines (ho [] .empty) _ _⟩
    | some a =>
      obtain ⟨es, hq, he⟩ := maybeNeedWith_answers (w := ⟨⟨[], []⟩, rng, none, []⟩) (ho [] .empty)
        (fun a => (pure a : M (SState lib) SecurityLayer)) SState.errored
      exact ⟨_, he⟩
  obtain ⟨log', hask⟩ := hask
  have : serverPending lib env ctx (some i) .errored ⟨⟨[], []⟩, rng, none, []⟩ =
      (.err badContext, .errored, ⟨⟨[], []⟩, rng, none, log'⟩) := by
    unfold serverPending
    rw [M.bind_ok (M.okOr_some ..), hs]
    dsimp only
    rw [M.bind_ok (liftGss_ok rfl _ _), hc, if_pos rfl, M.bind_ok hask]
    suffices H : ∀ a : SecurityLayer, a = ⟨allowed o⟩ →
        ((liftGss (lib.flags ctx') >>= fun flags =>
          if (serverRestrict a flags).isEmpty then M.fail badContext
          else do
            M.set (.installed ctx' (serverRestrict a flags))
            match tok with
            | some token => do
              M.writeAll token
              pure .running
            | none => do
              M.set .errored
              serverInstalled lib ctx' (serverRestrict a flags) : M (SState lib) State)
          .errored ⟨⟨[], []⟩, rng, none, log'⟩) = _ from H _ (by cases o <;> rfl)
    rintro a rfl
    rw [M.bind_ok (liftGss_ok hfl _ _), hempty, if_pos rfl]
    rfl
  rw [step_of (m := server lib) (env := env) (ses := { st := .initial, rng := rng })
    (c := ⟨some i, []⟩) ((serverStep_initial hn _ _).trans this)]
  rfl

example : ¬ ∃ l, Available (some ⟨6⟩) ⟨true, false, false⟩ l := by
  rintro ⟨l, h, h1, h2⟩
  cases l with
  | none => exact absurd h (by unfold Allows; decide)
  | integrity => exact nomatch h2 rfl
  | confidentiality => exact nomatch (h1 rfl).2

end Rsasl.Gssapi

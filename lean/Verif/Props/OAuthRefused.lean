/-
C108: exactly how a refusal by an OAuth server ends.
-/
import Verif.Spec.OAuthRefused
import Verif.Props.SimpleMeets

namespace Rsasl

open Spec

variable {S : Type}

/-- C108: exactly how an action ends, in one word. -/
theorem C108_action (env : Env) (p : Property) (v : p.Value) (s : S) (w : World) :
    action env p .empty v s w =
      (match handedOver p v (env.callback w.log env.sd .empty) with | none => .ok () | some e => .err e, s,
        w.addLog (handedLog p v (env.callback w.log env.sd .empty))) := by
  rw [C19_exact]
  unfold handedOver handedLog
  rcases reaction p (some v) (env.callback w.log env.sd .empty) with ⟨_ | _, e | ⟨⟨⟩⟩⟩
  · by_cases he : e = .callbackError .earlyReturn <;> simp [he]
  · simp
  · by_cases he : e = .callbackError .earlyReturn <;> simp [he]
  · simp

/-- C108, XOAUTH2: the second step of a client. -/
theorem C108_xoauth2_client (env : Env) (ses : Session OAuthCState) (hs : ses.st = .waitingServerResponse) (c : Call) :
    ses.step XOAuth2.client env c =
      clientTold .xoauth2Error fromUtf8 (.mechanismError .xoauth2ClientUtf8) env ses c.input := by
  obtain ⟨st, slot, rng, log⟩ := ses
  obtain ⟨input, sched⟩ := c
  cases hs
  rcases input with _ | (_ | ⟨b, bs⟩)
  · rfl
  · rfl
  · unfold clientTold
    simp only [reduceCtorEq, Option.some.injEq, or_self, if_false, Option.bind_some]
    rcases hu : fromUtf8 (b :: bs) with _ | t
    · refine (step_of (m := XOAuth2.client) (o := .err (.mechanismError .xoauth2ClientUtf8)) (s' := .done)
        (w' := ⟨⟨[], sched⟩, rng, slot, log⟩) ?_).trans rfl
      show XOAuth2.clientStep env (some (b :: bs)) OAuthCState.waitingServerResponse _ = _
      unfold XOAuth2.clientStep
      rw [M.bind_ok (M.get_apply ..)]
      simp only
      rw [M.bind_ok (M.set_apply ..)]
      simp only [External.orEmpty, List.isEmpty_cons, Bool.false_eq_true, if_false, hu]
      rfl
    · have ha := C108_action env .xoauth2Error t OAuthCState.done ⟨⟨[], sched⟩, rng, slot, log⟩
      have : XOAuth2.clientStep env (some (b :: bs)) OAuthCState.waitingServerResponse ⟨⟨[], sched⟩, rng, slot, log⟩ =
          ((action env .xoauth2Error .empty t >>= fun _ => pure (.finished .yes)) : M OAuthCState State)
            OAuthCState.done ⟨⟨[], sched⟩, rng, slot, log⟩ := by
        unfold XOAuth2.clientStep
        rw [M.bind_ok (M.get_apply ..)]
        simp only
        rw [M.bind_ok (M.set_apply ..)]
        simp only [External.orEmpty, List.isEmpty_cons, Bool.false_eq_true, if_false, hu]
        exact M.bind_ok (M.okOr_some ..)
      simp only at ha ⊢
      rcases hh : handedOver .xoauth2Error t (env.callback log env.sd .empty) with _ | e
      · rw [hh] at ha
        exact step_of (m := XOAuth2.client) (ses := ⟨OAuthCState.waitingServerResponse, slot, rng, log⟩)
          (c := ⟨some (b :: bs), sched⟩) (this.trans ((M.bind_ok ha).trans rfl))
      · rw [hh] at ha
        exact step_of (m := XOAuth2.client) (ses := ⟨OAuthCState.waitingServerResponse, slot, rng, log⟩)
          (c := ⟨some (b :: bs), sched⟩) (this.trans ((M.bind_err ha).trans rfl))

/-- C108, OAUTHBEARER: the second step of a client. -/
theorem C108_oauthbearer_client (json : OAuthBearer.Json) (env : Env) (ses : Session OAuthCState)
    (hs : ses.st = .waitingServerResponse) (c : Call) :
    ses.step (OAuthBearer.client json) env c =
      clientTold .oauthBearerErrored json.de (.mechanismError .oauthSerde) env ses c.input := by
  obtain ⟨st, slot, rng, log⟩ := ses
  obtain ⟨input, sched⟩ := c
  cases hs
  rcases input with _ | (_ | ⟨b, bs⟩)
  · rfl
  · rfl
  · unfold clientTold
    simp only [reduceCtorEq, Option.some.injEq, or_self, if_false, Option.bind_some]
    rcases hu : json.de (b :: bs) with _ | t
    · refine (step_of (m := OAuthBearer.client json) (o := .err (.mechanismError .oauthSerde)) (s' := .done)
        (w' := ⟨⟨[], sched⟩, rng, slot, log⟩) ?_).trans rfl
      show OAuthBearer.clientStep json env (some (b :: bs)) OAuthCState.waitingServerResponse _ = _
      unfold OAuthBearer.clientStep
      rw [M.bind_ok (M.get_apply ..)]
      simp only
      rw [M.bind_ok (M.set_apply ..)]
      simp only [External.orEmpty, List.isEmpty_cons, Bool.false_eq_true, if_false, hu]
      rfl
    · have ha := C108_action env .oauthBearerErrored t OAuthCState.done ⟨⟨[], sched⟩, rng, slot, log⟩
      have : OAuthBearer.clientStep json env (some (b :: bs)) OAuthCState.waitingServerResponse ⟨⟨[], sched⟩, rng, slot, log⟩ =
          ((action env .oauthBearerErrored .empty t >>= fun _ => pure (.finished .yes)) : M OAuthCState State)
            OAuthCState.done ⟨⟨[], sched⟩, rng, slot, log⟩ := by
        unfold OAuthBearer.clientStep
        rw [M.bind_ok (M.get_apply ..)]
        simp only
        rw [M.bind_ok (M.set_apply ..)]
        simp only [External.orEmpty, List.isEmpty_cons, Bool.false_eq_true, if_false, hu]
        exact M.bind_ok (M.okOr_some ..)
      simp only at ha ⊢
      rcases hh : handedOver .oauthBearerErrored t (env.callback log env.sd .empty) with _ | e
      · rw [hh] at ha
        exact step_of (m := OAuthBearer.client json) (ses := ⟨OAuthCState.waitingServerResponse, slot, rng, log⟩)
          (c := ⟨some (b :: bs), sched⟩) (this.trans ((M.bind_ok ha).trans rfl))
      · rw [hh] at ha
        exact step_of (m := OAuthBearer.client json) (ses := ⟨OAuthCState.waitingServerResponse, slot, rng, log⟩)
          (c := ⟨some (b :: bs), sched⟩) (this.trans ((M.bind_err ha).trans rfl))

/-- C108: both OAuth clients after their second step. -/
theorem C108_done (json : OAuthBearer.Json) (env : Env) (ses : Session OAuthCState) (hs : ses.st = .done) (c : Call) :
    ses.step XOAuth2.client env c = (⟨.err .mechanismDone, []⟩, ses) ∧
    ses.step (OAuthBearer.client json) env c = (⟨.err .mechanismDone, []⟩, ses) := by
  obtain ⟨st, slot, rng, log⟩ := ses
  cases hs
  exact ⟨rfl, rfl⟩

/-- When a client takes note of a refusal. -/
theorem clientTold_yes (p : Property) (read : Bytes → Option p.Value) (unreadable : SessionError) (env : Env)
    (s : Session OAuthCState) (text : Bytes) :
    (∃ s', clientTold p read unreadable env s (some text) = (⟨.ok (.finished .yes), []⟩, s')) ↔
      text ≠ [] ∧ ∃ v, read text = some v ∧ handedOver p v (env.callback s.log env.sd .empty) = none := by
  unfold clientTold
  by_cases ht : text = []
  · subst ht
    simp
  · simp only [reduceCtorEq, Option.some.injEq, ht, or_self, if_false, Option.bind_some, ne_eq, not_false_eq_true, true_and]
    rcases read text with _ | v
    · simp
    · simp only [Option.some.injEq, exists_eq_left', Prod.mk.injEq, Reply.mk.injEq, and_true]
      rcases handedOver p v (env.callback s.log env.sd .empty) with _ | e <;> simp

/-- When a server refuses. -/
theorem tokenChecked_running (p : Property) (refused : p.Value → Option Bytes) (env : Env) (s : Session OAuthSState)
    (ctx : Provider) (notice : Bytes) :
    (∃ s', s'.st = .errored ∧ tokenChecked p refused env s ctx = (⟨.ok .running, notice⟩, s')) ↔
      ∃ v, refused v = some notice ∧ TokenRefused p v env s ctx := by
  unfold tokenChecked TokenRefused Validates
  simp only
  rcases hn : settledNeed p fine (env.callback s.log env.sd ctx) with e | v
  · simp
  · have hf : firstAnswer p (env.callback s.log env.sd ctx) = some v := (settled_some (settledNeed_iff.1 hn)).1
    rw [hf]
    simp only [Option.bind_some, Except.ok.injEq, exists_eq_left', ruling]
    have hv : (∃ u, refused u = some notice ∧ v = u ∧ returned env.vtag s.slot.isNone (env.validate (s.log ++
        settledLog p fine ctx (env.callback s.log env.sd ctx)) env.sd ctx) = .ok ()) ↔
      refused v = some notice ∧ returned env.vtag s.slot.isNone (env.validate (s.log ++
        settledLog p fine ctx (env.callback s.log env.sd ctx)) env.sd ctx) = .ok () := by
      constructor
      · rintro ⟨u, h1, rfl, h2⟩
        exact ⟨h1, h2⟩
      · rintro ⟨h1, h2⟩
        exact ⟨v, h1, rfl, h2⟩
    rw [hv]
    obtain ⟨o, hr⟩ : ∃ o, refused v = o := ⟨_, rfl⟩
    simp only [hr]
    rcases o with _ | b
    · rcases returned env.vtag s.slot.isNone (env.validate (s.log ++
        settledLog p fine ctx (env.callback s.log env.sd ctx)) env.sd ctx) with e | ⟨⟨⟩⟩ <;> simp
    · rcases returned env.vtag s.slot.isNone (env.validate (s.log ++
        settledLog p fine ctx (env.callback s.log env.sd ctx)) env.sd ctx) with e | ⟨⟨⟩⟩
      · simp
      · simp only [Option.isSome_some, if_true, Option.getD_some, Prod.mk.injEq, Reply.mk.injEq, true_and,
          Option.some.injEq, and_true]
        constructor
        · rintro ⟨s', -, h, -⟩
          exact h
        · rintro rfl
          exact ⟨_, rfl, rfl, rfl⟩

/-- A server that says `Running` has refused. -/
theorem tokenChecked_state (p : Property) (refused : p.Value → Option Bytes) (env : Env) (s s' : Session OAuthSState)
    (ctx : Provider) (notice : Bytes) (h : tokenChecked p refused env s ctx = (⟨.ok .running, notice⟩, s')) :
    s'.st = .errored := by
  unfold tokenChecked at h
  simp only at h
  rcases hn : settledNeed p fine (env.callback s.log env.sd ctx) with e | v
  · rw [hn] at h
    cases h
  · rw [hn] at h
    have hf : firstAnswer p (env.callback s.log env.sd ctx) = some v := (settled_some (settledNeed_iff.1 hn)).1
    rw [hf] at h
    simp only [Option.bind_some, ruling] at h
    obtain ⟨o, hr⟩ : ∃ o, refused v = o := ⟨_, rfl⟩
    simp only [hr] at h
    rcases o with _ | b
    · split at h <;> cases h
    · split at h
      · cases h
        rfl
      · cases h

theorem xoauth2_server_refuses (senv : Env) (s : Session OAuthSState) (hs : s.st = .initial) (message notice : Bytes)
    (w : List WResp) (hw : Patient w) :
    (∃ s', s'.st = .errored ∧ s.step XOAuth2.server senv ⟨some message, w⟩ = (⟨.ok .running, notice⟩, s')) ↔
      ∃ user token reason, message = xoauth2Message user token ∧ '\x01' ∉ user ∧ notice = Str.bytes reason ∧
        TokenRefused .xoauth2Validate (.error reason) senv s (.chain [⟨.authId, user⟩, ⟨.oauthBearerToken, token⟩]) := by
  constructor
  · rintro ⟨s', hst, h⟩
    rcases hp : XOAuth2.parse message with e | ⟨user, token⟩
    · obtain ⟨m, rfl, hm⟩ := (XOAuth2.C87_xoauth2_parse message e).1 hp
      rw [(C87_xoauth2 senv s hs message w _).2 ⟨m, rfl, hm⟩] at h
      cases h
    · obtain ⟨rfl, hu⟩ := (XOAuth2.parse_eq_ok _ _ _).1 hp
      rw [C105_xoauth2 senv s hs user token hu w hw] at h
      obtain ⟨v, hv, ht⟩ := (tokenChecked_running _ _ _ _ _ _).1 ⟨s', hst, h⟩
      rcases v with reason | ⟨⟨⟩⟩
      · cases hv
        exact ⟨user, token, reason, rfl, hu, rfl, ht⟩
      · cases hv
  · rintro ⟨user, token, reason, rfl, hu, rfl, h⟩
    rw [C105_xoauth2 senv s hs user token hu w hw]
    exact (tokenChecked_running _ _ _ _ _ _).2 ⟨_, rfl, h⟩

theorem bearer_server_refuses (json : OAuthBearer.Json) (senv : Env) (s : Session OAuthSState) (hs : s.st = .initial)
    (message notice : Bytes) (w : List WResp) (hw : Patient w) :
    (∃ s', s'.st = .errored ∧ s.step (OAuthBearer.server json) senv ⟨some message, w⟩ = (⟨.ok .running, notice⟩, s')) ↔
      ∃ authzid token fields reason, OAuthWire message authzid token fields ∧ notice = (json.ser reason).flatten ∧
        TokenRefused .oauthBearerValidate (.error reason) senv s (bearerOffer authzid token fields) := by
  constructor
  · rintro ⟨s', hst, h⟩
    rcases hp : OAuthBearer.Msg.parse message with e | ⟨authzid, token, fields⟩
    · rw [(C87_oauthbearer json senv s hs message w _).2 ⟨e, rfl, (OAuthBearer.C87_oauthbearer_parse _ _).1 hp⟩] at h
      cases h
    · have hm := (OAuthBearer.C52_parse _ _ _ _).1 hp
      rw [C105_oauthbearer json senv s hs message _ _ _ hm w hw] at h
      obtain ⟨v, hv, ht⟩ := (tokenChecked_running _ _ _ _ _ _).1 ⟨s', hst, h⟩
      rcases v with reason | ⟨⟨⟩⟩
      · cases hv
        exact ⟨authzid, token, fields, reason, hm, rfl, ht⟩
      · cases hv
  · rintro ⟨authzid, token, fields, reason, hm, rfl, h⟩
    rw [C105_oauthbearer json senv s hs message _ _ _ hm w hw]
    exact (tokenChecked_running _ _ _ _ _ _).2 ⟨_, rfl, h⟩

/-- C108, XOAUTH2: exactly when a refusal goes all the way. -/
theorem C108_xoauth2 (cenv senv : Env) (c : Session OAuthCState) (s : Session OAuthSState) (hc : c.st = .initial)
    (hs : s.st = .initial) (w : Fin 4 → List WResp) (hw : Cooperative (w 0)) (hw' : Patient (w 1)) :
    Refused XOAuth2.client XOAuth2.server cenv senv c s w ↔ XOAuth2Refused cenv senv c s := by
  unfold Refused XOAuth2Refused
  have h1 := C103_xoauth2 cenv c ⟨none, w 0⟩ hw hc
  rw [h1]
  generalize compose (fun l => cenv.callback l cenv.sd .empty) c.log xoauth2Phrases = t
  rcases t with ⟨e | ⟨⟨⟩⟩, out, l⟩
  · simp [passed]
  simp only [passed_ok, Option.some.injEq, Prod.mk.injEq, true_and]
  constructor
  · rintro ⟨m, c', notice, s', c'', ⟨rfl, rfl⟩, h2, h3, h4⟩
    have hst : s'.st = .errored := by
      rcases hp : XOAuth2.parse out with e | ⟨user, token⟩
      · obtain ⟨m, rfl, hm⟩ := (XOAuth2.C87_xoauth2_parse out e).1 hp
        rw [(C87_xoauth2 senv s hs out (w 1) _).2 ⟨m, rfl, hm⟩] at h2
        cases h2
      · obtain ⟨rfl, hu⟩ := (XOAuth2.parse_eq_ok _ _ _).1 hp
        rw [C105_xoauth2 senv s hs user token hu _ hw'] at h2
        exact tokenChecked_state _ _ _ _ _ _ _ h2
    obtain ⟨user, token, reason, hm, hu, rfl, ht⟩ := (xoauth2_server_refuses senv s hs out notice _ hw').1 ⟨s', hst, h2⟩
    have h5 := (C108_xoauth2_client cenv ⟨.waitingServerResponse, c.slot, c.rng, c.log ++ l⟩ rfl ⟨_, w 2⟩).symm.trans h3
    obtain ⟨hne, v, hv, hh⟩ := (clientTold_yes ..).1 ⟨c'', h5⟩
    rw [fromUtf8_bytes] at hv
    cases hv
    exact ⟨user, token, reason, hm, hu, fun h => hne (by rw [h]; rfl), ht, hh⟩
  · rintro ⟨user, token, reason, hm, hu, hne, ht, hh⟩
    obtain ⟨s', hst, h2⟩ := (xoauth2_server_refuses senv s hs out (Str.bytes reason) _ hw').2 ⟨user, token, reason, hm, hu, rfl, ht⟩
    obtain ⟨c'', h3⟩ := (clientTold_yes .xoauth2Error fromUtf8 (.mechanismError .xoauth2ClientUtf8) cenv
      ⟨.waitingServerResponse, c.slot, c.rng, c.log ++ l⟩ (Str.bytes reason)).2
        ⟨fun h => hne (Str.bytes_injective (h.trans rfl)), reason, fromUtf8_bytes _, hh⟩
    refine ⟨out, _, Str.bytes reason, s', c'', ⟨rfl, rfl⟩, h2, ?_, ?_⟩
    · exact (C108_xoauth2_client cenv ⟨.waitingServerResponse, c.slot, c.rng, c.log ++ l⟩ rfl ⟨_, w 2⟩).trans h3
    · exact congrArg Prod.fst (C105_errored ⟨fun _ => [], fun _ => none⟩ senv s' hst ⟨some [], w 3⟩).1

/-- C108, OAUTHBEARER: exactly when a refusal goes all the way. -/
theorem C108_oauthbearer (json : OAuthBearer.Json) (cenv senv : Env) (c : Session OAuthCState) (s : Session OAuthSState)
    (hc : c.st = .initial) (hs : s.st = .initial) (w : Fin 4 → List WResp) (hw : Cooperative (w 0)) (hw' : Patient (w 1)) :
    Refused (OAuthBearer.client json) (OAuthBearer.server json) cenv senv c s w ↔ BearerRefused json cenv senv c s := by
  unfold Refused BearerRefused
  have h1 := C103_oauthbearer json cenv c ⟨none, w 0⟩ hw hc
  rw [h1]
  generalize compose (fun l => cenv.callback l cenv.sd .empty) c.log oauthbearerPhrases = t
  rcases t with ⟨e | ⟨⟨⟩⟩, out, l⟩
  · simp [passed]
  simp only [passed_ok, Option.some.injEq, Prod.mk.injEq, true_and]
  constructor
  · rintro ⟨m, c', notice, s', c'', ⟨rfl, rfl⟩, h2, h3, h4⟩
    have hst : s'.st = .errored := by
      rcases hp : OAuthBearer.Msg.parse out with e | ⟨authzid, token, fields⟩
      · rw [(C87_oauthbearer json senv s hs out (w 1) _).2 ⟨e, rfl, (OAuthBearer.C87_oauthbearer_parse _ _).1 hp⟩] at h2
        cases h2
      · rw [C105_oauthbearer json senv s hs out _ _ _ ((OAuthBearer.C52_parse _ _ _ _).1 hp) _ hw'] at h2
        exact tokenChecked_state _ _ _ _ _ _ _ h2
    obtain ⟨authzid, token, fields, reason, hm, rfl, ht⟩ := (bearer_server_refuses json senv s hs out notice _ hw').1 ⟨s', hst, h2⟩
    have h5 := (C108_oauthbearer_client json cenv ⟨.waitingServerResponse, c.slot, c.rng, c.log ++ l⟩ rfl ⟨_, w 2⟩).symm.trans h3
    obtain ⟨hne, v, hv, hh⟩ := (clientTold_yes ..).1 ⟨c'', h5⟩
    exact ⟨authzid, token, fields, reason, v, hm, hne, hv, ht, hh⟩
  · rintro ⟨authzid, token, fields, reason, heard, hm, hne, hv, ht, hh⟩
    obtain ⟨s', hst, h2⟩ := (bearer_server_refuses json senv s hs out (json.ser reason).flatten _ hw').2
      ⟨authzid, token, fields, reason, hm, rfl, ht⟩
    obtain ⟨c'', h3⟩ := (clientTold_yes .oauthBearerErrored json.de (.mechanismError .oauthSerde) cenv
      ⟨.waitingServerResponse, c.slot, c.rng, c.log ++ l⟩ (json.ser reason).flatten).2 ⟨hne, heard, hv, hh⟩
    refine ⟨out, _, (json.ser reason).flatten, s', c'', ⟨rfl, rfl⟩, h2, ?_, ?_⟩
    · exact (C108_oauthbearer_client json cenv ⟨.waitingServerResponse, c.slot, c.rng, c.log ++ l⟩ rfl ⟨_, w 2⟩).trans h3
    · exact congrArg Prod.fst (C105_errored json senv s' hst ⟨some [], w 3⟩).2

/-- C108: no server both takes and refuses a token. -/
theorem C108_apart (cm : Mech) (sm : Mech) (cenv senv : Env) (c : Session cm.S) (s : Session sm.S) (w : Fin 4 → List WResp)
    (h : Refused cm sm cenv senv c s w) : ¬ Accepted cm sm cenv senv c s (w 0) (w 1) := by
  obtain ⟨m, c', notice, s', c'', h1, h2, -, -⟩ := h
  rintro ⟨m', d', h1', h2'⟩
  rw [h1] at h1'
  cases h1'
  rw [h2] at h2'
  cases h2'

/-! ### Examples -/

section Examples

def refusingServer (reason : Str) : Env := exampleEnv [⟨.xoauth2Validate, .error reason⟩]

/-- Has a name and a token, and takes what it is told. -/
def listeningClient : Env :=
  { exampleEnv [] with
    callback := fun _ _ _ => (.satisfy .authId (c!"user") fun _ => .satisfy .oauthBearerToken (c!"t") fun _ =>
      .getAction .xoauth2Error fun _ => .ret (.ok ()) : CbProg) }

example : Refused XOAuth2.client XOAuth2.server listeningClient (refusingServer (c!"no")) ⟨.initial, none, fun _ => 0, []⟩
    ⟨.initial, none, fun _ => 0, []⟩ (fun _ => []) := by
  refine (C108_xoauth2 _ _ _ _ rfl rfl _ (by intro r hr; simp at hr) (by intro r hr; simp at hr)).2 ?_
  exact ⟨rfl, c!"user", c!"t", c!"no", rfl, by decide, by decide, ⟨rfl, rfl⟩, rfl⟩

/-- An empty reason doesn't get through. -/
example : ¬ Refused XOAuth2.client XOAuth2.server listeningClient (refusingServer []) ⟨.initial, none, fun _ => 0, []⟩
    ⟨.initial, none, fun _ => 0, []⟩ (fun _ => []) := by
  refine mt (C108_xoauth2 _ _ _ _ rfl rfl _ (by intro r hr; simp at hr) (by intro r hr; simp at hr)).1 ?_
  rintro ⟨-, user, token, reason, h, -, hne, ⟨h', -⟩, -⟩
  cases h'
  exact hne rfl

/-- A callback that doesn't take the reason. -/
example : handedOver .xoauth2Error (c!"no") (.ret (.ok ())) = some (.callbackError (.noCallback .xoauth2Error)) := rfl

end Examples

end Rsasl

/-
C64: the provider passed to `validate` always offers the same properties.
C65: mechanisms ask, tell and show what is documented, and nothing else.
-/
import Verif.Proofs.Contacts
import Verif.Props.ScramExchange
import Verif.Props.EndToEnd
import Verif.Spec.Examples

namespace Rsasl

open Spec

variable {S α β G : Type} {P : S → Prop} {t : Contacts} {env : Env}

/-- Membership in a table. -/
macro "listed" : tactic => `(tactic| repeat (first | exact List.Mem.head _ | apply List.Mem.tail))

theorem Contacts.mayAsk_empty {p : Property} (h : (p, []) ∈ t.asks) : t.MayAsk p .empty :=
  ⟨[], h, Provider.offering_empty⟩

theorem Contacts.mayAsk_chain {p : Property} {pvs : List PV}
    (h : (p, pvs.map (·.prop)) ∈ t.asks) : t.MayAsk p (.chain pvs) :=
  ⟨_, h, Provider.offering_chain pvs⟩

theorem Contacts.mayTell_empty {p : Property} (h : (p, []) ∈ t.tells) : t.MayTell p .empty :=
  ⟨[], h, Provider.offering_empty⟩

theorem Contacts.mayTell_chain {p : Property} {pvs : List PV}
    (h : (p, pvs.map (·.prop)) ∈ t.tells) : t.MayTell p (.chain pvs) :=
  ⟨_, h, Provider.offering_chain pvs⟩

theorem Contacts.mayShow_chain {pvs : List PV} (h : pvs.map (·.prop) ∈ t.shows) :
    t.MayShow (.chain pvs) := ⟨_, h, Provider.offering_chain pvs⟩

theorem Contacts.mayShow_this {pv : PV} (h : [pv.prop] ∈ t.shows) : t.MayShow (.this pv) :=
  ⟨_, h, Provider.offering_this pv⟩

theorem Contacts.mayAsk_cb {n : Str} {r : Provider} {ps : List Property}
    (h : (.channelBindings, .channelBindingName :: ps) ∈ t.asks) (hr : r.Offering ps) :
    t.MayAsk .channelBindings (Provider.and (.this ⟨.channelBindingName, n⟩) r) :=
  ⟨_, h, hr.and_this ⟨.channelBindingName, n⟩⟩

/-- Decompose a piece of mechanism code. -/
macro "within" : tactic => `(tactic|
  repeat (first
    | assumption
    | exact Within.pure _ | exact Within.fail _ | exact Within.panic | exact Within.get
    | exact Within.set trivial | exact Within.modify (fun _ h => h)
    | exact Within.draw _ | exact Within.writeAll _
    | exact Within.writeVectored _ | exact Within.writeJson _ | exact Within.okOr _ _
    | exact Within.lift _ | exact Within.liftOutcome _ | exact Within.liftGss _
    | exact Within.validate (Contacts.mayShow_chain (by listed))
    | exact Within.validate (Contacts.mayShow_this (by listed))
    | exact Within.action (Contacts.mayTell_empty (by listed))
    | exact Within.action (Contacts.mayTell_chain (by listed))
    | refine Within.needWith (Contacts.mayAsk_empty (by listed)) ?_
    | refine Within.ask (Contacts.mayAsk_empty (by listed)) ?_
    | refine Within.needWith (Contacts.mayAsk_chain (by listed)) ?_
    | refine Within.ask (Contacts.mayAsk_chain (by listed)) ?_
    | refine Within.needCbData
        (Contacts.mayAsk_cb (ps := []) (by listed) Provider.offering_empty) ?_
    | refine Within.maybeNeedCbData
        (Contacts.mayAsk_cb (ps := []) (by listed) Provider.offering_empty) ?_
    | apply Within.withLocal | apply Within.bind | intro _ | split | dsimp only))

/-! ## Clients -/

/-- Anything may be in the state. -/
abbrev Any {S : Type} : S → Prop := fun _ => True

theorem Plain.client_within (input : Option Bytes) :
    Within (clientContacts .plain) Any (Plain.clientStep env input) := by
  unfold Plain.clientStep Plain.clientAuthzid Plain.clientAuthid Plain.clientPassword
  within

theorem Login.client_within (input : Option Bytes) :
    Within (clientContacts .login) Any (Login.clientStep env input) := by
  unfold Login.clientStep
  within

theorem External.client_within (input : Option Bytes) :
    Within (clientContacts .external) Any (External.clientStep env input) := by
  unfold External.clientStep
  within

theorem Anonymous.client_within (input : Option Bytes) :
    Within (clientContacts .anonymous) Any (Anonymous.clientStep env input) := by
  unfold Anonymous.clientStep
  within

theorem XOAuth2.client_within (input : Option Bytes) :
    Within (clientContacts .xoauth2) Any (XOAuth2.clientStep env input) := by
  unfold XOAuth2.clientStep
  within

theorem OAuthBearer.writeKVs_within (kvs : List (Str × Str)) :
    Within t P (OAuthBearer.writeKVs kvs : M S Unit) := by
  induction kvs with
  | nil => exact Within.pure _
  | cons kv kvs ih => unfold OAuthBearer.writeKVs; within

theorem OAuthBearer.client_within (json : OAuthBearer.Json) (input : Option Bytes) :
    Within (clientContacts .oauthbearer) Any (OAuthBearer.clientStep json env input) := by
  have h := OAuthBearer.writeKVs_within (t := clientContacts .oauthbearer) (P := Any (S := OAuthCState))
  have h := Within.ask (env := env) (Contacts.mayAsk_empty (p := .oauthBearerKV) (by listed)) h
  unfold OAuthBearer.clientStep
  within

theorem Plain.server_within (prep : Str → Option Str) (input : Option Bytes) :
    Within (serverContacts .plain) Any (Plain.serverStep prep env input) := by
  unfold Plain.serverStep Plain.provider
  within

theorem Login.server_within (input : Option Bytes) :
    Within (serverContacts .login) Any (Login.serverStep env input) := by
  unfold Login.serverStep Login.provider
  within

theorem External.server_within (input : Option Bytes) :
    Within (serverContacts .external) Any (External.serverStep env input) := by
  unfold External.serverStep
  within

theorem Anonymous.server_within (input : Option Bytes) :
    Within (serverContacts .anonymous) Any (Anonymous.serverStep env input) := by
  unfold Anonymous.serverStep
  within

theorem XOAuth2.server_within (input : Option Bytes) :
    Within (serverContacts .xoauth2) Any (XOAuth2.serverStep env input) := by
  unfold XOAuth2.serverStep XOAuth2.provider XOAuth2.onResult
  within

theorem OAuthBearer.provider_offering (msg : OAuthBearer.Msg) :
    (OAuthBearer.provider msg).Offering
      (if msg.authzid.isSome then [.authzId, .oauthBearerToken, .oauthBearerKV]
        else [.oauthBearerToken, .oauthBearerKV]) := by
  have h := Provider.offering_chain ((msg.authzid.map (PV.mk .authzId)).toList ++
    [⟨.oauthBearerToken, msg.token⟩, ⟨.oauthBearerKV, msg.fields⟩])
  unfold OAuthBearer.provider
  cases hz : msg.authzid with
  | none => rw [hz] at h; exact h
  | some z => rw [hz] at h; exact h

theorem OAuthBearer.server_within (json : OAuthBearer.Json) (input : Option Bytes) :
    Within (serverContacts .oauthbearer) Any (OAuthBearer.serverStep json env input) := by
  have h1 : ∀ msg, (serverContacts .oauthbearer).MayAsk .oauthBearerValidate
      (OAuthBearer.provider msg) := by
    intro msg
    refine ⟨_, ?_, OAuthBearer.provider_offering msg⟩
    split <;> listed
  have h2 : ∀ msg, (serverContacts .oauthbearer).MayShow (OAuthBearer.provider msg) := by
    intro msg
    refine ⟨_, ?_, OAuthBearer.provider_offering msg⟩
    split <;> listed
  have h3 : ∀ r, Within (serverContacts .oauthbearer) Any (OAuthBearer.onResult json r) := by
    unfold OAuthBearer.onResult; within
  unfold OAuthBearer.serverStep
  refine Within.bind .get fun st => ?_
  split
  · refine Within.bind (.okOr _ _) fun input => ?_
    split
    · exact .fail _
    · exact Within.bind (Within.needWith (h1 _) h3) fun _ =>
        Within.bind (Within.validate (h2 _)) fun _ => .pure _
  · exact .pure _

namespace Gssapi

variable (lib : Lib)

theorem client_within (input : Option Bytes) :
    Within (clientContacts .gssapi) Any (clientStep lib env input) := by
  have h1 : ∀ ctx v, Within (clientContacts .gssapi) Any (clientAcceptable lib ctx v) := by
    unfold clientAcceptable; within
  have h1 := fun ctx => Within.ask (env := env)
    (Contacts.mayAsk_empty (t := clientContacts .gssapi) (p := .gssSecurityLayer) (by listed))
    (h1 ctx)
  have h : ∀ ctx input, Within (clientContacts .gssapi) Any (clientPending lib env ctx input) := by
    intro ctx input
    unfold clientPending
    dsimp only
    refine Within.bind (.liftGss _) fun _ => ?_
    have h2 : Within (clientContacts .gssapi) Any
        (if lib.isComplete (lib.clientStep ctx input).2 = true then (do
        let acceptable ← maybeNeedWith env .gssSecurityLayer .empty
          (clientAcceptable lib (lib.clientStep ctx input).2)
        M.set (.last (lib.clientStep ctx input).2 (match acceptable with
          | some a => a
          | none => .all))
        pure State.running)
      else do
        M.set (.pending (lib.clientStep ctx input).2)
        pure State.running) := by
      split
      · exact Within.bind (h1 _) fun _ => Within.bind (.set trivial) fun _ => .pure _
      · exact Within.bind (.set trivial) fun _ => .pure _
    split
    · split
      · exact h2
      · exact Within.bind (.writeAll _) fun _ => h2
    · exact h2
  unfold clientStep
  refine Within.bind .get fun st => Within.bind (.set trivial) fun _ => ?_
  split
  · refine Within.bind ?_ fun _ => Within.bind ?_ fun _ => Within.bind (.liftGss _) fun _ => h _ _
    · exact Within.needWith (Contacts.mayAsk_empty (by listed)) fun _ => .pure _
    · exact Within.needWith (Contacts.mayAsk_empty (by listed)) fun _ => .pure _
  · exact h _ _
  · within
  · within
  · within

theorem server_within (input : Option Bytes) :
    Within (serverContacts .gssapi) Any (serverStep lib env input) := by
  have h0 : ∀ ctx l, Within (serverContacts .gssapi) Any (serverInstalled lib ctx l) := by
    unfold serverInstalled; within
  have h : ∀ ctx input, Within (serverContacts .gssapi) Any (serverPending lib env ctx input) := by
    intro ctx input
    unfold serverPending
    refine Within.bind (.okOr _ _) fun _ => ?_
    dsimp only
    refine Within.bind (.liftGss _) fun _ => ?_
    split
    · refine Within.bind ?_ fun _ => Within.bind (.liftGss _) fun _ => ?_
      · exact Within.ask (Contacts.mayAsk_empty (by listed)) fun _ => .pure _
      · have := h0
        split <;> split
        all_goals first
          | exact Within.fail _
          | refine Within.bind (.set trivial) fun _ => ?_
        all_goals
          split
          · within
          · exact Within.bind (.set trivial) fun _ => h0 _ _
    · within
  unfold serverStep
  refine Within.bind .get fun st => Within.bind (.set trivial) fun _ => ?_
  split
  · exact Within.bind (.liftGss _) fun _ => h _ _
  · exact h _ _
  · exact h0 _ _
  · within
  · within
  · within

theorem layers_within (input : Bytes) :
    Within t Any (clientEncode lib input) ∧ Within t Any (clientDecode lib input) ∧
    Within t Any (serverEncode lib input) ∧ Within t Any (serverDecode lib input) := by
  unfold clientEncode clientDecode serverEncode serverDecode layerEncode layerDecode
  refine ⟨?_, ?_, ?_, ?_⟩ <;> within

end Gssapi

namespace Scram

open _root_.Rsasl.Spec

theorem escapeM_within (x : Str) : Within t P (escapeM x : M S Str) := by
  unfold escapeM; within

theorem generateNonce_within (n : Nat) : Within t P (generateNonce n : M S Bytes) := by
  unfold generateNonce; within

/-- A client that is to begin with channel bindings. -/
def WantsCb (st : CS) : Prop := st = some (.initial .supported)

/-- The code of the first message. -/
theorem sendClientFirst_within {P : CS → Prop} {t : Contacts} (n : Nat) (plus : CbSupport)
    (hz : (.authzId, []) ∈ t.asks) (ha : (.authId, []) ∈ t.asks)
    (hcb : plus = .supported → (.overrideCBType, []) ∈ t.asks ∧
      (.channelBindings, [.channelBindingName]) ∈ t.asks) :
    Within t (fun x => P x.1) (sendClientFirst n env plus) := by
  have hp : ∀ b, Within t (fun x : CS × Gs2 => P x.1) (pushHeader b) :=
    fun b => Within.modify fun _ h => h
  have hs : ∀ b, Within t (fun x : CS × Gs2 => P x.1) (setCbdata b) :=
    fun b => Within.modify fun _ h => h
  have hcb : Within t (fun x : CS × Gs2 => P x.1) (clientCb env plus) := by
    cases plus with
    | serverNoSupport => exact hp _
    | clientNoSupport => exact hp _
    | supported =>
      obtain ⟨h1, h2⟩ := hcb rfl
      have hb : ∀ (name : Str), t.MayAsk .channelBindings
          (Provider.and (.this ⟨.channelBindingName, name⟩) .empty) :=
        fun name => Contacts.mayAsk_cb h2 Provider.offering_empty
      unfold clientCb
      refine Within.bind (hp _) fun _ => Within.bind
        (Within.ask (Contacts.mayAsk_empty h1) fun _ => Within.bind (hp _) fun _ => .pure _)
        fun o => ?_
      split
      · exact Within.needCbData (hb _) hs
      · refine Within.bind (Within.maybeNeedCbData (hb _)
          fun _ => Within.bind (hp _) fun _ => hs _) fun o => ?_
        split
        · exact .pure _
        · exact Within.needCbData (hb _) fun _ => Within.bind (hp _) fun _ => hs _
  have hesc := fun x => escapeM_within (S := CS × Gs2) (P := fun x => P x.1) (t := t) x
  have hzc : ∀ z, Within t (fun x : CS × Gs2 => P x.1) (clientAuthzid z) := by
    intro z
    unfold clientAuthzid
    exact Within.bind (hp _) fun _ => Within.bind (hesc _) fun _ => hp _
  unfold sendClientFirst
  refine Within.bind hcb fun _ => Within.bind (hp _) fun _ =>
    Within.bind (Within.ask (Contacts.mayAsk_empty hz) hzc) fun _ => Within.bind (hp _) fun _ =>
    Within.bind (Within.needWith (Contacts.mayAsk_empty ha) hesc) fun _ =>
    Within.bind (generateNonce_within _) fun _ => Within.bind .get fun _ =>
    Within.bind (.writeVectored _) fun _ => ?_
  split <;> exact .pure _

/-- The properties offered with requests for secrets. -/
def secretOffer : List Property := [.salt, .iterations]

theorem client_within {P : CS → Prop} {t : Contacts} (d : Digest) (n : Nat) (input : Option Bytes)
    (hz : (.authzId, []) ∈ t.asks) (ha : (.authId, []) ∈ t.asks)
    (hs : ∀ p ∈ [Property.scramCachedPassword, .saltedPassword, .password],
      (p, secretOffer) ∈ t.asks)
    (ht : (.scramCachedPassword, secretOffer) ∈ t.tells)
    (hcb : ∀ st, P st → WantsCb st → (.overrideCBType, []) ∈ t.asks ∧
      (.channelBindings, [.channelBindingName]) ∈ t.asks)
    (hP : ∀ st, ¬ WantsCb st → P st) :
    Within t P (clientStep d n env input) := by
  have hp : ∀ p ∈ [Property.scramCachedPassword, .saltedPassword, .password], ∀ salt it,
      t.MayAsk p (clientProvider salt it) := by
    intro p hp salt it
    exact Contacts.mayAsk_chain (pvs := [⟨.salt, salt⟩, ⟨.iterations, it⟩]) (hs p hp)
  have hk : ∀ salt it, Within t P (clientKeys d env (clientProvider salt it) it salt) := by
    intro salt it
    unfold clientKeys
    refine Within.bind (Within.ask (hp _ (by listed) _ _) fun _ => ?_) fun o => ?_
    · unfold useCached; within
    split
    · exact .pure _
    · refine Within.bind (Within.ask (hp _ (by listed) _ _) fun _ => ?_) fun o => ?_
      · unfold useSalted; within
      split
      · exact .pure _
      · refine Within.needWith (hp _ (by listed) _ _) fun _ => ?_
        unfold usePassword; within
  have hnone : P none := hP _ nofun
  unfold clientStep
  refine Within.getBind fun st hst => Within.bind (.set hnone) fun _ => ?_
  split
  · next plus =>
    refine Within.bindYields (R := fun c => ∀ pl, c ≠ .initial pl)
      (Within.withLocal (sendClientFirst_within n plus hz ha ?_)) ?_ fun c hc =>
      Within.bind (.set (hP _ ?_)) fun _ => .pure _
    · rintro rfl
      exact hcb _ hst rfl
    · refine Yields.withLocal ?_
      unfold sendClientFirst
      refine Yields.bind fun _ => Yields.bind fun _ => Yields.bind fun _ => Yields.bind fun _ =>
        Yields.bind fun _ => Yields.bind fun _ => Yields.bind fun _ => Yields.bind fun _ => ?_
      split <;> exact Yields.pure nofun
    · intro h
      exact hc _ (Option.some.inj h)
  · refine Within.bind (.okOr _ _) fun i => ?_
    refine Within.bindYields (R := fun c => ∀ pl, c ≠ .initial pl) ?_ ?_ fun c hc =>
      Within.bind (.set (hP _ ?_)) fun _ => .pure _
    · unfold handleServerFirst
      refine Within.bind (.liftOutcome _) fun x => Within.bind (hk _ _) fun _ =>
        Within.bind (.writeVectored _) fun _ => .pure _
    · unfold handleServerFirst
      exact Yields.bind fun x => Yields.bind fun _ => Yields.bind fun _ => Yields.pure nofun
    · intro h
      exact hc _ (Option.some.inj h)
  · next verifier ck sk salt it =>
    refine Within.bind (.okOr _ _) fun i => Within.bind ?_ fun _ => .pure _
    unfold handleServerFinal
    refine Within.bind (.liftOutcome _) fun m => ?_
    split
    · split
      · exact .fail _
      · split
        · exact Within.bind (Within.attempt (Within.action
            (Contacts.mayTell_chain (pvs := [⟨.salt, salt⟩, ⟨.iterations, it⟩]) ht)))
            fun _ => .pure _
        · exact .fail _
    · exact .fail _
  · exact .panic

theorem serverProvider_offering (authid : Str) (authzid : Option Str) :
    (serverProvider authid authzid).Offering
      (if authzid.isSome then [.authId, .authzId] else [.authId]) := by
  have h := Provider.offering_chain (⟨.authId, authid⟩ :: (authzid.map (PV.mk .authzId)).toList)
  unfold serverProvider
  cases authzid with
  | none => exact h
  | some z => exact h

theorem server_within {t : Contacts} (d : Digest) (n : Nat) (input : Option Bytes)
    (ha : ∀ b : Bool, (.scramStoredPassword, if b then [.authId, .authzId] else [.authId]) ∈ t.asks)
    (hcb : ∀ b : Bool, (.channelBindings,
      .channelBindingName :: if b then [.authId, .authzId] else [.authId]) ∈ t.asks)
    (hs : ∀ b : Bool, (if b then [.authId, .authzId] else [.authId]) ∈ t.shows) :
    Within t Any (serverStep d n env input) := by
  unfold serverStep
  refine Within.bind .get fun st => Within.bind (.set trivial) fun _ => ?_
  split
  · refine Within.bind (.okOr _ _) fun i => Within.bind (.liftOutcome _) fun msg =>
      Within.bind (Within.withLocal ?_) fun _ => Within.bind (.set trivial) fun _ => .pure _
    have hp := serverProvider_offering msg.username msg.authzid
    unfold handleClientFirst
    refine Within.bind ?_ fun _ => Within.bind (Within.ask ⟨_, ha _, hp⟩ fun p => ?_) fun params =>
      Within.bind (generateNonce_within _) fun _ => ?_
    · unfold serverCb
      split
      · split
        · exact .fail _
        · exact .pure _
      · exact .pure _
      · exact Within.needCbData (Contacts.mayAsk_cb (hcb _) hp) fun _ => .modify fun _ h => h
    · unfold useStored; within
    · within
  · refine Within.bind (.okOr _ _) fun i => Within.bind ?_ fun _ => .bind (.set trivial) fun _ => .pure _
    unfold handleClientFinal
    refine Within.bind (.liftOutcome _) fun m => Within.bind (.lift _) fun r => ?_
    split
    · next f sig =>
      exact Within.bind (.writeVectored _) fun _ =>
        Within.validate ⟨_, hs _, serverProvider_offering f.username f.authzid⟩
    · exact .writeVectored _
  · within
  · within

end Scram

/-! ## Sessions -/

theorem Within.exec {m : M S α} (h : Within t P m) (ses : Session S) (hs : P ses.st)
    (hl : ∀ e ∈ ses.log, t.Allows e) (sched : List WResp) :
    P (ses.exec m sched).2.st ∧ ∀ e ∈ (ses.exec m sched).2.log, t.Allows e := by
  obtain ⟨h1, es, h2, h3⟩ :=
    h.logs ses.st { wr := ⟨[], sched⟩, rng := ses.rng, slot := ses.slot, log := ses.log } hs
  refine ⟨h1, fun e he => ?_⟩
  have he : e ∈ ses.log ++ es := h2 ▸ he
  rcases List.mem_append.1 he with he | he
  · exact hl e he
  · exact h3 e he

theorem Within.sticks {st : Started} {P : st.mech.S → Prop}
    (hstep : ∀ env input, Within t P (st.mech.step env input))
    (henc : ∀ input, Within t P (st.mech.encode input))
    (hdec : ∀ input, Within t P (st.mech.decode input)) (h0 : P st.init) : Sticks st t := by
  intro env rng ops
  suffices h : ∀ (ses : Session st.mech.S), P ses.st → (∀ e ∈ ses.log, t.Allows e) →
      ∀ e ∈ (ses.afterAll st.mech env ops).log, t.Allows e from h _ h0 nofun
  induction ops with
  | nil => exact fun _ _ h => h
  | cons op ops ih =>
    intro ses hP hl
    have key : P (ses.perform st.mech env op).2.st ∧
        ∀ e ∈ (ses.perform st.mech env op).2.log, t.Allows e := by
      cases op with
      | step c => exact (hstep env c.input).exec ses hP hl c.sched
      | step64 c =>
        show P (ses.step64 st.mech env c).2.st ∧ ∀ e ∈ (ses.step64 st.mech env c).2.log, t.Allows e
        unfold Session.step64
        split
        · split
          · exact ⟨hP, hl⟩
          · exact (hstep env _).exec ses hP hl c.sched
        · exact (hstep env _).exec ses hP hl c.sched
      | encode i sched => exact (henc i).exec ses hP hl sched
      | decode i sched => exact (hdec i).exec ses hP hl sched
      | validation => exact ⟨hP, hl⟩
    exact ih _ key.1 key.2

/-- C65, clients. -/
theorem C65_client (deps : Deps) (a : Auth) (st : Started) (h : a.startClient deps = some st) :
    Sticks st (clientContacts a) := by
  have hf : ∀ {S α : Type} {t : Contacts} {P : S → Prop}, Within t P (M.fail .noSecurityLayer : M S α) :=
    Within.fail _
  cases a <;> cases h
  · exact Within.sticks (fun _ => Plain.client_within) (fun _ => hf) (fun _ => hf) trivial
  · exact Within.sticks (fun _ => Login.client_within) (fun _ => hf) (fun _ => hf) trivial
  · exact Within.sticks (fun _ => External.client_within) (fun _ => hf) (fun _ => hf) trivial
  · exact Within.sticks (fun _ => Anonymous.client_within) (fun _ => hf) (fun _ => hf) trivial
  · exact Within.sticks (fun _ => XOAuth2.client_within) (fun _ => hf) (fun _ => hf) trivial
  · exact Within.sticks (fun _ => OAuthBearer.client_within _) (fun _ => hf) (fun _ => hf) trivial
  · exact Within.sticks (fun _ => Gssapi.client_within _)
      (fun i => (Gssapi.layers_within _ i).1) (fun i => (Gssapi.layers_within _ i).2.1) trivial
  · next h b =>
    refine Within.sticks (P := fun st => ¬ Scram.WantsCb st) (fun _ _ => Scram.client_within _ _ _
      (by listed) (by listed) ?_ (by listed) (fun _ h1 h2 => absurd h2 h1) (fun _ h => h))
      (fun _ => hf) (fun _ => hf) ?_
    · intro p hp
      simp only [List.mem_cons, List.not_mem_nil, or_false] at hp
      rcases hp with rfl | rfl | rfl <;> listed
    · show ¬ Scram.WantsCb (Scram.clientNew b)
      unfold Scram.WantsCb Scram.clientNew
      cases b <;> nofun
  · refine Within.sticks (P := Any) (fun _ _ => Scram.client_within _ _ _
      (by listed) (by listed) ?_ (by listed) (fun _ _ _ => ⟨by listed, by listed⟩)
      (fun _ _ => trivial)) (fun _ => hf) (fun _ => hf) trivial
    intro p hp
    simp only [List.mem_cons, List.not_mem_nil, or_false] at hp
    rcases hp with rfl | rfl | rfl <;> listed

/-- C65, servers. -/
theorem C65_server (deps : Deps) (a : Auth) (st : Started) (h : a.startServer deps = some st) :
    Sticks st (serverContacts a) := by
  have hf : ∀ {S α : Type} {t : Contacts} {P : S → Prop}, Within t P (M.fail .noSecurityLayer : M S α) :=
    Within.fail _
  cases a <;> cases h
  · exact Within.sticks (fun _ => Plain.server_within _) (fun _ => hf) (fun _ => hf) trivial
  · exact Within.sticks (fun _ => Login.server_within) (fun _ => hf) (fun _ => hf) trivial
  · exact Within.sticks (fun _ => External.server_within) (fun _ => hf) (fun _ => hf) trivial
  · exact Within.sticks (fun _ => Anonymous.server_within) (fun _ => hf) (fun _ => hf) trivial
  · exact Within.sticks (fun _ => XOAuth2.server_within) (fun _ => hf) (fun _ => hf) trivial
  · exact Within.sticks (fun _ => OAuthBearer.server_within _) (fun _ => hf) (fun _ => hf) trivial
  · exact Within.sticks (fun _ => Gssapi.server_within _)
      (fun i => (Gssapi.layers_within _ i).2.2.1) (fun i => (Gssapi.layers_within _ i).2.2.2) trivial
  all_goals
    refine Within.sticks (fun _ _ => Scram.server_within _ _ _ ?_ ?_ ?_)
      (fun _ => hf) (fun _ => hf) trivial <;> rintro (_ | _) <;> listed

/-! ## The same set of properties -/

/-- C64, as the contract of `Authentication::step` has it. -/
def C64 : Prop := ∀ (deps : Deps) (a : Auth) (st : Started), a.startServer deps = some st →
  SameSet st

/-- Mechanisms in which the client may send an authorization identity or none. -/
def Spec.mayOmitAuthzId : Auth → Bool
  | .oauthbearer | .scramServer .. | .scramServerPlus .. => true
  | _ => false

/-- C64 for all but SCRAM and OAUTHBEARER. -/
theorem C64_partial (deps : Deps) (a : Auth) (st : Started) (h : a.startServer deps = some st)
    (ha : mayOmitAuthzId a = false) : SameSet st := by
  have hs := C65_server deps a st h
  have one : ∀ ps, (serverContacts a).shows = [ps] → SameSet st := by
    intro ps hps
    refine ⟨ps, fun env rng ops ctx hc => ?_⟩
    obtain ⟨ps', h1, h2⟩ := hs env rng ops _ hc
    rw [hps, List.mem_singleton] at h1
    exact h1 ▸ h2
  cases a <;> simp only [mayOmitAuthzId, reduceCtorEq] at ha <;>
    first
    | exact one _ rfl
    | (refine ⟨[], fun env rng ops ctx hc => ?_⟩
       obtain ⟨ps', h1, h2⟩ := hs env rng ops _ hc
       cases h1)

/-- What all servers keep to: apart from an `AuthzId` the client did not send, the set is always the
same. -/
theorem C64_but_authzid_partial (deps : Deps) (a : Auth) (st : Started)
    (h : a.startServer deps = some st) :
    ∃ ps : List Property, ∀ (env : Env) (rng : Nat → Nat) (ops : List Op) (ctx : Provider),
      Event.validated ctx ∈ ((st.session rng).afterAll st.mech env ops).log →
      ∀ p, p ≠ .authzId → ((ctx.getRef p).isSome ↔ p ∈ ps) := by
  have hs := C65_server deps a st h
  by_cases ha : mayOmitAuthzId a = true
  · have two : ∀ ps qs, (serverContacts a).shows = [ps, qs] →
        (∀ p, p ≠ .authzId → (p ∈ ps ↔ p ∈ qs)) → ∀ env rng ops ctx,
        Event.validated ctx ∈ ((st.session rng).afterAll st.mech env ops).log →
        ∀ p, p ≠ .authzId → ((ctx.getRef p).isSome ↔ p ∈ qs) := by
      intro ps qs hps heq env rng ops ctx hc p hp
      obtain ⟨ps', h1, h2⟩ := hs env rng ops _ hc
      rw [hps] at h1
      simp only [List.mem_cons, List.not_mem_nil, or_false] at h1
      rcases h1 with rfl | rfl
      · rw [h2 p, heq p hp]
      · exact h2 p
    cases a <;> simp only [mayOmitAuthzId, reduceCtorEq] at ha
    all_goals exact ⟨_, two _ _ rfl (by intro p hp; simp [hp])⟩
  · obtain ⟨ps, h⟩ := C64_partial deps a st h (by simpa using ha)
    exact ⟨ps, fun env rng ops ctx hc p _ => h env rng ops ctx hc p⟩

/-- Two validations of which only one offers an authorization identity. -/
theorem not_sameSet {st : Started} {env₁ env₂ : Env} {rng₁ rng₂ : Nat → Nat} {ops₁ ops₂ : List Op}
    {ctx₁ ctx₂ : Provider} {z : Str}
    (h1 : Event.validated ctx₁ ∈ ((st.session rng₁).afterAll st.mech env₁ ops₁).log)
    (h2 : Event.validated ctx₂ ∈ ((st.session rng₂).afterAll st.mech env₂ ops₂).log)
    (e1 : ctx₁.getRef .authzId = none) (e2 : ctx₂.getRef .authzId = some z) : ¬ SameSet st := by
  rintro ⟨ps, h⟩
  have a := h _ _ _ _ h1 .authzId
  have b := h _ _ _ _ h2 .authzId
  rw [e1] at a
  rw [e2] at b
  exact absurd (a.2 (b.1 rfl)) nofun

/-- Users of a SCRAM server, with and without an authorization identity. -/
def scramUser (d : Scram.Digest) (authzid : Option Str) : Env × Env :=
  (exampleEnv ((authzid.map (PV.mk .authzId)).toList ++
      [⟨.authId, c!"u"⟩, ⟨.password, b!"pw"⟩]),
   exampleEnv [⟨.scramStoredPassword, ⟨4096, b!"salt",
    d.hash (clientKey d (d.pbkdf2 (b!"pw") (b!"salt") 4096)),
    serverKey d (d.pbkdf2 (b!"pw") (b!"salt") 4096)⟩⟩])

/-- With any hash, a SCRAM server can come to validate users with and without. -/
theorem scram_validates (d : Scram.Digest) (canCb : Bool) (authzid : Option Str)
    (hz : WrittenAsOpt authzid authzid) :
    ∃ ops ctx, Event.validated ctx ∈ (Session.afterAll (Scram.server d) (scramUser d authzid).2
      { st := Scram.serverNew canCb, rng := fun _ => 0 } ops).log ∧
      ctx.getRef .authzId = authzid := by
  generalize hc0 : ({ st := Scram.clientNew true, rng := fun _ => 0 } : Session Scram.CS) = c0
  generalize hs0 : ({ st := Scram.serverNew canCb, rng := fun _ => 0 } : Session Scram.SS) = s0
  rcases h0 : Session.step (Scram.client d) (scramUser d authzid).1 c0 ⟨none, []⟩ with ⟨r0, c1⟩
  rcases h1 : Session.step (Scram.server d) (scramUser d authzid).2 s0 ⟨some r0.out, []⟩ with ⟨r1, s1⟩
  rcases h2 : Session.step (Scram.client d) (scramUser d authzid).1 c1 ⟨some r1.out, []⟩ with ⟨r2, c2⟩
  rcases h3 : Session.step (Scram.server d) (scramUser d authzid).2 s1 ⟨some r2.out, []⟩ with ⟨r3, s2⟩
  rcases h4 : Session.step (Scram.client d) (scramUser d authzid).1 c2 ⟨some r3.out, []⟩ with ⟨r4, c3⟩
  have hgives : ∀ p v, (⟨p, v⟩ : PV) ∈ [(⟨.authId, c!"u"⟩ : PV), ⟨.password, b!"pw"⟩] →
      (scramUser d authzid).1.Gives p v := by
    intro p v hp log ctx
    simp only [List.mem_cons, List.not_mem_nil, or_false] at hp
    rcases hp with hp | hp <;> cases hp
    · exact answers_answerAll _ ((authzid.map (PV.mk .authzId)).toList) _ rfl
        (by cases authzid <;> simp)
    · refine answers_answerAll _ ((authzid.map (PV.mk .authzId)).toList ++ [⟨.authId, c!"u"⟩]) []
        (by simp) (by cases authzid <;> simp)
  have hlacks : ∀ p : Property, p ≠ .authzId → p ≠ .authId → p ≠ .password →
      (scramUser d authzid).1.Lacks p := by
    intro p n1 n2 n3 log ctx
    refine declines_answerAll _ fun pv hpv => ?_
    simp only [List.mem_append, List.mem_cons, List.not_mem_nil, or_false] at hpv
    rcases hpv with hpv | rfl | rfl
    · cases authzid <;> simp at hpv
      subst hpv
      exact n1.symm
    · exact n2.symm
    · exact n3.symm
  have hauthz : (scramUser d authzid).1.Offers .authzId authzid := by
    cases authzid with
    | none => exact fun _ _ => declines_answerAll _ (by simp)
    | some z => exact fun _ _ => answers_answerAll _ [] _ rfl nofun
  have hu : WrittenAs (c!"u") (c!"u") :=
    ⟨by decide, .other _ (by decide) (by decide) (by decide) .nil⟩
  have hco : Cooperative [] := by unfold Cooperative; simp
  obtain ⟨-, -, -, ⟨ctx, out, hx, he⟩, -, -, -, -⟩ :=
    C27 d (scramUser d authzid).1 (scramUser d authzid).2 .clientNoSupport canCb .notSupported []
      (c!"u") (c!"u") authzid authzid _ _ _ (hgives _ _ (by listed)) hu hauthz hz ⟨rfl, rfl⟩ rfl
      (.inr ⟨Env.Lacks.at (hlacks .scramCachedPassword nofun nofun nofun) _,
        .inr ⟨Env.Lacks.at (hlacks .saltedPassword nofun nofun nofun) _, _,
          Env.Gives.at (hgives .password (b!"pw") (by listed)) _, rfl, rfl⟩⟩)
      (by decide : (4096 : UInt32) ≠ 0)
      ⟨rfl, rfl⟩ (fun _ _ _ => answers_answerAll _ [] _ rfl nofun) _ _ _ _ _ _ _
      (by rw [← hc0]; rfl) (by rw [← hs0]; rfl) none [] [] [] [] [] ⟨hco, hco, hco, hco, hco⟩
      r0 r1 r2 r3 r4 h0 h1 h2 h3 h4
  obtain ⟨es, -, hlog⟩ := he.log
  refine ⟨[.step ⟨some r0.out, []⟩, .step ⟨some r2.out, []⟩], ctx, ?_, hx .authzId⟩
  have : Session.afterAll (Scram.server d) (scramUser d authzid).2 s0
      [.step ⟨some r0.out, []⟩, .step ⟨some r2.out, []⟩] = s2 := by
    show (Session.step (Scram.server d) (scramUser d authzid).2
      (Session.step (Scram.server d) (scramUser d authzid).2 s0 ⟨some r0.out, []⟩).2
      ⟨some r2.out, []⟩).2 = s2
    rw [h1, h3]
  rw [this, hlog]
  simp

/-- C64 fails for SCRAM, with any hash. -/
theorem C64_false_scram (deps : Deps) (h : Hash) (canCb : Bool) (st : Started)
    (hst : Auth.startServer deps (.scramServer h canCb) = some st ∨
      Auth.startServer deps (.scramServerPlus h) = some st) : ¬ SameSet st := by
  have hz : WrittenAsOpt (some (c!"z")) (some (c!"z")) :=
    ⟨by decide, .other _ (by decide) (by decide) (by decide) .nil⟩
  rcases hst with hst | hst <;> cases hst
  · obtain ⟨ops₁, ctx₁, h1, e1⟩ := scram_validates (deps.digest h) canCb none trivial
    obtain ⟨ops₂, ctx₂, h2, e2⟩ := scram_validates (deps.digest h) canCb (some (c!"z")) hz
    exact not_sameSet (rng₁ := fun _ => 0) (rng₂ := fun _ => 0) h1 h2 e1 e2
  · obtain ⟨ops₁, ctx₁, h1, e1⟩ := scram_validates (deps.digest h) true none trivial
    obtain ⟨ops₂, ctx₂, h2, e2⟩ := scram_validates (deps.digest h) true (some (c!"z")) hz
    exact not_sameSet (rng₁ := fun _ => 0) (rng₂ := fun _ => 0) h1 h2 e1 e2

/-- The callback accepts every token. -/
def tokenEnv : Env := exampleEnv [⟨.oauthBearerValidate, .ok ()⟩]

/-- C64 fails for OAUTHBEARER. -/
theorem C64_false_oauthbearer (deps : Deps) (st : Started)
    (hst : Auth.startServer deps .oauthbearer = some st) : ¬ SameSet st := by
  cases hst
  have run : ∀ (msg : OAuthBearer.Msg) (input : Bytes), OAuthBearer.Msg.parse input = .ok msg →
      Event.validated (OAuthBearer.provider msg) ∈ (Session.afterAll (OAuthBearer.server deps.json)
        tokenEnv { st := .initial, rng := fun _ => 0 } [.step ⟨some input, []⟩]).log := by
    intro msg input hp
    show Event.validated (OAuthBearer.provider msg) ∈
      (OAuthBearer.serverStep deps.json tokenEnv (some input) OAuthSState.initial
        ⟨⟨[], []⟩, fun _ => 0, none, []⟩).2.2.log
    have e : OAuthBearer.serverStep deps.json tokenEnv (some input) OAuthSState.initial
        ⟨⟨[], []⟩, fun _ => 0, none, []⟩ = (do
          let state ← needWith tokenEnv .oauthBearerValidate (OAuthBearer.provider msg)
            (OAuthBearer.onResult deps.json)
          validate tokenEnv (OAuthBearer.provider msg)
          pure state : M OAuthSState State) OAuthSState.initial ⟨⟨[], []⟩, fun _ => 0, none, []⟩ := by
      show (match OAuthBearer.Msg.parse input with
        | .error e => M.fail (.mechanismError (.oauthParse e))
        | .ok msg => _ : M OAuthSState State) _ _ = _
      rw [hp]
    rw [e]
    exact List.Mem.tail _ (List.Mem.tail _ (List.Mem.head _))
  exact not_sameSet (rng₁ := fun _ => 0) (rng₂ := fun _ => 0)
    (run ⟨none, c!"t", []⟩ (b!"n,,\x01auth=t\x01\x01") (by decide +kernel))
    (run ⟨some (c!"z"), c!"t", []⟩ (b!"n,a=z,\x01auth=t\x01\x01") (by decide +kernel))
    rfl (z := c!"z") rfl

theorem C64_false : ¬ C64 := fun h =>
  C64_false_oauthbearer toyDeps _ rfl (h toyDeps .oauthbearer _ rfl)

/-- A server that validates: the contacts of C65 and the set of C64 are about something. -/
example : ((Started.session ⟨Plain.server some, ()⟩ fun _ => 0).afterAll (Plain.server some)
    (exampleEnv []) [.step ⟨some (b!"\x00user\x00pw"), []⟩]).log.length = 1 := by
  decide +kernel

/-- A client that asks: PLAIN has its three questions, and its callback two answers. -/
example : ((Started.session ⟨Plain.client, ()⟩ fun _ => 0).afterAll Plain.client
    (exampleEnv [⟨.authId, c!"u"⟩, ⟨.password, b!"p"⟩]) [.step ⟨none, []⟩]).log.length = 5 := by
  decide +kernel

end Rsasl

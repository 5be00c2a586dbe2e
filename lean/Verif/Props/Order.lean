/-
C85: a mechanism turns to the callback in a fixed order, about each property once.
-/
import Verif.Proofs.Order
import Verif.Props.Ended
import Verif.Props.ScramPolicy

namespace Rsasl

open Spec

variable {S α β G : Type} {env : Env}

/-- Code that only writes, parses and fails. -/
macro "uncalling" : tactic => `(tactic|
  repeat (first
    | assumption
    | exact Uncalling.pure _ | exact Uncalling.fail _ | exact Uncalling.panic
    | exact Uncalling.get | exact Uncalling.set trivial | exact Uncalling.modify (fun _ h => h)
    | exact Uncalling.draw _ | exact Uncalling.writeAll _ | exact Uncalling.writeVectored _
    | exact Uncalling.writeJson _ | exact Uncalling.okOr _ _ | exact Uncalling.lift _
    | exact Uncalling.liftOutcome _ | exact Uncalling.liftGss _
    | apply Uncalling.bind | intro _ | split | dsimp only))

/-- A contact is among those left. -/
macro "left" : tactic => `(tactic| first
  | decide
  | (change Membership.mem (γ := List Contact) (_ :: _) _; simp))

/-- Go through the code of a step. -/
macro "spending" : tactic => `(tactic|
  repeat (first
    | assumption
    | with_reducible exact Spends.fail _
    | with_reducible exact Spends.panic
    | with_reducible exact Spends.finished _
    | ((with_reducible refine Spends.running ?_); first | exact List.nil_sublist _ | exact List.Sublist.refl _ | decide)
    | with_reducible refine Spends.getBind ?_
    | with_reducible refine Spends.setBind ?_
    | ((with_reducible refine Spends.bind (Spends.ask ?_ ?_) fun _ _ => ?_)
       · left
       · uncalling)
    | ((with_reducible refine Spends.bind (Spends.needWith ?_ ?_) fun _ _ => ?_)
       · left
       · uncalling)
    | ((with_reducible refine Spends.bind (Spends.action ?_) fun _ _ => ?_); · left)
    | ((with_reducible refine Spends.bind (Spends.validate ?_) fun _ _ => ?_); · left)
    | ((with_reducible refine Spends.bindStay ?_ fun _ => ?_); · uncalling)
    | ((with_reducible refine Spends.bindQuiet ?_ fun _ _ => ?_); · uncalling)
    | dsimp only | split))

theorem Plain.client_spends (input : Option Bytes) (s : Unit) :
    Spends (clientOrder .plain) s (Plain.clientStep env input) (leaving fun _ => clientOrder .plain) := by
  unfold Plain.clientStep Plain.clientAuthzid Plain.clientAuthid Plain.clientPassword
  spending

theorem Plain.server_spends (prep : Str → Option Str) (input : Option Bytes) (s : Unit) :
    Spends (serverOrder .plain) s (Plain.serverStep prep env input)
      (leaving fun _ => serverOrder .plain) := by
  unfold Plain.serverStep
  spending

/-- What is left in the states of LOGIN's client. -/
def Login.clientLeft : Login.CState → List Contact
  | .authid => clientOrder .login
  | .password => [.asks .password]
  | .done => []

theorem Login.client_spends (input : Option Bytes) (s : Login.CState) :
    Spends (Login.clientLeft s) s (Login.clientStep env input) (leaving Login.clientLeft) := by
  unfold Login.clientStep
  cases s <;> spending

/-- What is left in the states of LOGIN's server. -/
def Login.serverLeft : Login.SState → List Contact
  | .done => []
  | _ => [.shows]

theorem Login.server_spends (input : Option Bytes) (s : Login.SState) :
    Spends (Login.serverLeft s) s (Login.serverStep env input) (leaving Login.serverLeft) := by
  unfold Login.serverStep
  cases s <;> spending

theorem External.client_spends (input : Option Bytes) (s : Unit) :
    Spends (clientOrder .external) s (External.clientStep env input)
      (leaving fun _ => clientOrder .external) := by
  unfold External.clientStep
  spending

theorem External.server_spends (input : Option Bytes) (s : Unit) :
    Spends (serverOrder .external) s (External.serverStep env input)
      (leaving fun _ => serverOrder .external) := by
  unfold External.serverStep
  spending

theorem Anonymous.client_spends (input : Option Bytes) (s : Unit) :
    Spends (clientOrder .anonymous) s (Anonymous.clientStep env input)
      (leaving fun _ => clientOrder .anonymous) := by
  unfold Anonymous.clientStep
  spending

theorem Anonymous.server_spends (input : Option Bytes) (s : Unit) :
    Spends (serverOrder .anonymous) s (Anonymous.serverStep env input)
      (leaving fun _ => serverOrder .anonymous) := by
  unfold Anonymous.serverStep
  spending

/-- What is left in the states of XOAUTH2's client. -/
def XOAuth2.clientLeft : OAuthCState → List Contact
  | .initial => clientOrder .xoauth2
  | .waitingServerResponse => [.tells .xoauth2Error]
  | .done => []

theorem XOAuth2.client_spends (input : Option Bytes) (s : OAuthCState) :
    Spends (XOAuth2.clientLeft s) s (XOAuth2.clientStep env input) (leaving XOAuth2.clientLeft) := by
  unfold XOAuth2.clientStep
  cases s <;> spending

/-- What is left in the states of XOAUTH2's server. -/
def XOAuth2.serverLeft : OAuthSState → List Contact
  | .initial => serverOrder .xoauth2
  | .errored => []

/-- What is left in the states of OAUTHBEARER's client. -/
def OAuthBearer.clientLeft : OAuthCState → List Contact
  | .initial => clientOrder .oauthbearer
  | .waitingServerResponse => [.tells .oauthBearerErrored]
  | .done => []

theorem OAuthBearer.writeKVs_uncalling (kvs : List (Str × Str)) :
    Uncalling (fun _ => True) (OAuthBearer.writeKVs kvs : M S Unit) := by
  induction kvs with
  | nil => exact Uncalling.pure _
  | cons kv kvs ih => unfold OAuthBearer.writeKVs; uncalling

theorem OAuthBearer.client_spends (json : OAuthBearer.Json) (input : Option Bytes) (s : OAuthCState) :
    Spends (OAuthBearer.clientLeft s) s (OAuthBearer.clientStep json env input)
      (leaving OAuthBearer.clientLeft) := by
  have h := OAuthBearer.writeKVs_uncalling (S := OAuthCState)
  unfold OAuthBearer.clientStep
  cases s <;> spending

/-- What is left in the states of OAUTHBEARER's server. -/
def OAuthBearer.serverLeft : OAuthSState → List Contact
  | .initial => serverOrder .oauthbearer
  | .errored => []

/-- What is left in the states of GSSAPI's client. -/
def Gssapi.clientLeft {lib : Gssapi.Lib} : Gssapi.CState lib → List Contact
  | .initial => clientOrder .gssapi
  | .pending _ => [.asks .gssSecurityLayer]
  | _ => []

theorem Gssapi.client_spends (lib : Gssapi.Lib) (input : Option Bytes) (s : Gssapi.CState lib) :
    Spends (Gssapi.clientLeft s) s (Gssapi.clientStep lib env input) (leaving Gssapi.clientLeft) := by
  unfold Gssapi.clientStep Gssapi.clientPending Gssapi.clientAcceptable
  cases s <;> spending

/-- What is left in the states of GSSAPI's server. -/
def Gssapi.serverLeft {lib : Gssapi.Lib} : Gssapi.SState lib → List Contact
  | .initial | .pending _ => serverOrder .gssapi
  | _ => []

theorem Gssapi.server_spends (lib : Gssapi.Lib) (input : Option Bytes) (s : Gssapi.SState lib) :
    Spends (Gssapi.serverLeft s) s (Gssapi.serverStep lib env input) (leaving Gssapi.serverLeft) := by
  unfold Gssapi.serverStep Gssapi.serverPending Gssapi.serverInstalled
  cases s <;> spending

/-- The OAuth servers: the verdict, then `validate`. -/
theorem oauthServer_spends {p : Property} {ctx : Provider} {f : p.Value → M OAuthSState State}
    {left : OAuthSState → List Contact} (hl : left .errored = [])
    (hi : left .initial = [.asks p, .shows]) (hf : ∀ v, Uncalling (fun _ => True) (f v))
    (hr : ∀ v, Leads (· = .initial) (f v) fun o s => ∀ st, o = .ok st → st = .running → s = .errored) :
    Spends (left .initial) .initial
      (do let state ← needWith env p ctx f; validate env ctx; pure state) (leaving left) := by
  have hrest : restAfter (.asks p) (left .initial) = [.shows] := by rw [hi]; simp [restAfter]
  refine Spends.bindKnow (Q := fun st s => st = .running → s = .errored)
    (Spends.needWith (by rw [hi]; simp) hf) (Leads.request hr) fun st s hq => ?_
  rw [hrest]
  refine Spends.bindKnow (Q := fun _ s' => s' = s) (Spends.validate (by simp))
    ((Stays.validate (P := (· = s))).mono (fun _ h => h) fun _ _ h _ _ => h) fun _ s' hs => ?_
  cases hs
  cases st with
  | finished m => exact Spends.finished m
  | running => cases hq rfl; exact Spends.running (by rw [hl]; exact List.nil_sublist _)

theorem XOAuth2.server_spends (input : Option Bytes) (s : OAuthSState) :
    Spends (XOAuth2.serverLeft s) s (XOAuth2.serverStep env input) (leaving XOAuth2.serverLeft) := by
  unfold XOAuth2.serverStep
  cases s
  · refine Spends.getBind (Spends.bindStay (.okOr _ _) fun i => Spends.bindStay (.lift _) fun r => ?_)
    refine oauthServer_spends rfl rfl (fun v => ?_) fun v => ?_
    · unfold XOAuth2.onResult; uncalling
    · cases v with
      | ok u => exact Leads.pure fun s hs st h hr => by cases h; cases hr
      | error e =>
        exact Leads.bind (Stays.writeAll _) (fun _ => Leads.setBind (Leads.pure fun s hs _ _ _ => hs))
          nofun nofun
  · spending

theorem OAuthBearer.server_spends (json : OAuthBearer.Json) (input : Option Bytes) (s : OAuthSState) :
    Spends (OAuthBearer.serverLeft s) s (OAuthBearer.serverStep json env input)
      (leaving OAuthBearer.serverLeft) := by
  unfold OAuthBearer.serverStep
  cases s
  · refine Spends.getBind (Spends.bindStay (.okOr _ _) fun i => ?_)
    split
    · exact Spends.fail _
    refine oauthServer_spends rfl rfl (fun v => ?_) fun v => ?_
    · unfold OAuthBearer.onResult; uncalling
    · cases v with
      | ok u => exact Leads.pure fun s hs st h hr => by cases h; cases hr
      | error e =>
        exact Leads.bind (Stays.writeJson _) (fun _ => Leads.setBind (Leads.pure fun s hs _ _ _ => hs))
          nofun nofun
  · spending

namespace Scram

/-- What is left once the client's first message is out. -/
def clientKeysLeft : List Contact :=
  [.asks .scramCachedPassword, .asks .saltedPassword, .asks .password, .tells .scramCachedPassword]

/-- What is left in the states of SCRAM's client. -/
def clientLeft : CS → List Contact
  | some (.initial .supported) =>
    [.asks .overrideCBType, .asks .channelBindings, .asks .channelBindings, .asks .authzId,
     .asks .authId] ++ clientKeysLeft
  | some (.initial _) => [.asks .authzId, .asks .authId] ++ clientKeysLeft
  | some (.clientFirst ..) => clientKeysLeft
  | some (.serverFirst ..) => [.tells .scramCachedPassword]
  | none => []

theorem clientCb_spends (plus : CbSupport) (s : CS × Gs2) :
    Spends (clientLeft (some (.initial plus))) s (clientCb env plus)
      (fun _ _ => [.asks .authzId, .asks .authId] ++ clientKeysLeft) := by
  unfold clientCb pushHeader setCbdata
  cases plus
  · exact Spends.quiet (.modify fun _ h => h)
  · exact Spends.quiet (.modify fun _ h => h)
  · refine Spends.bindQuiet (.modify fun _ h => h) fun _ _ => ?_
    refine Spends.bind (Spends.ask (by left) (by uncalling)) fun r _ => ?_
    change Spends ([.asks .channelBindings, .asks .channelBindings, .asks .authzId, .asks .authId] ++
      clientKeysLeft) _ _ _
    cases r with
    | some n =>
      have h : Spends ([.asks .channelBindings, .asks .authzId, .asks .authId] ++ clientKeysLeft)
          ‹CS × Gs2› (needCbData env n .empty setCbdata)
          (fun _ _ => [.asks .authzId, .asks .authId] ++ clientKeysLeft) :=
        Spends.needCbData (by simp) fun v => .modify fun _ h => h
      exact h.weaken (List.sublist_cons_self _ _)
    | none =>
      refine Spends.bind (Spends.maybeNeedCbData (by left) (by uncalling)) fun r _ => ?_
      cases r with
      | some u => exact Spends.pure (by decide)
      | none => exact Spends.needCbData (by left) (by uncalling)

theorem sendClientFirst_spends (n : Nat) (plus : CbSupport) (s : CS × Gs2) :
    Spends (clientLeft (some (.initial plus))) s (sendClientFirst n env plus)
      (fun _ new => clientLeft (some new)) := by
  unfold sendClientFirst pushHeader
  refine Spends.bind (clientCb_spends plus s) fun _ _ => ?_
  refine Spends.bindQuiet (.modify fun _ h => h) fun _ _ => ?_
  refine Spends.bind (Spends.ask (by left) ?_) fun _ _ => ?_
  · unfold clientAuthzid pushHeader escapeM; uncalling
  refine Spends.bindQuiet (.modify fun _ h => h) fun _ _ => ?_
  refine Spends.bind (Spends.needWith (by left) ?_) fun _ _ => ?_
  · unfold escapeM; uncalling
  refine Spends.bindQuiet ?_ fun _ _ => ?_
  · unfold generateNonce; uncalling
  refine Spends.bindQuiet .get fun _ _ => Spends.bindQuiet (.writeVectored _) fun _ _ => ?_
  exact Spends.pure (List.Sublist.refl _)

theorem clientKeys_spends (d : Digest) (prov : Provider) (i : UInt32) (salt : Bytes) (s : CS) :
    Spends clientKeysLeft s (clientKeys d env prov i salt)
      (fun _ _ => [.tells .scramCachedPassword]) := by
  unfold clientKeys
  refine Spends.bind (Spends.ask (by left) ?_) fun r _ => ?_
  · unfold useCached; uncalling
  cases r with
  | some k => exact Spends.pure (by decide)
  | none =>
    refine Spends.bind (Spends.ask (by left) ?_) fun r _ => ?_
    · unfold useSalted; uncalling
    cases r with
    | some k => exact Spends.pure (by decide)
    | none =>
      refine Spends.needWith (by left) ?_
      unfold usePassword; uncalling

theorem client_spends (d : Digest) (n : Nat) (input : Option Bytes) (s : CS) :
    Spends (clientLeft s) s (clientStep d n env input) (leaving clientLeft) := by
  unfold clientStep
  refine Spends.getBind (Spends.setBind ?_)
  rcases s with _ | (plus | _ | _)
  · exact Spends.panic
  · exact Spends.bind (Spends.withLocal (sendClientFirst_spends n plus _)) fun new _ =>
      Spends.setBind (Spends.running (List.Sublist.refl _))
  · unfold handleServerFirst
    refine Spends.bindStay (.okOr _ _) fun i => ?_
    refine Spends.bind (K' := fun _ new => clientLeft (some new)) ?_ fun new _ =>
      Spends.setBind (Spends.running (List.Sublist.refl _))
    refine Spends.bindStay (.liftOutcome _) fun ⟨sf, sn, it, salt⟩ => ?_
    refine Spends.bind (clientKeys_spends d _ it salt _) fun ⟨ck, sk⟩ _ => ?_
    exact Spends.bindQuiet (.writeVectored _) fun _ _ => Spends.pure (List.Sublist.refl _)
  · unfold handleServerFinal
    refine Spends.bindStay (.okOr _ _) fun i => ?_
    refine Spends.bind (K' := fun _ _ => []) ?_ fun _ _ => Spends.finished _
    refine Spends.bindStay (.liftOutcome _) fun r => ?_
    split
    · split
      · exact Spends.fail _
      · split
        · exact Spends.bind (Spends.attempt (Spends.action (by left))) fun _ _ =>
            Spends.pure (List.Sublist.refl _)
        · exact Spends.fail _
    · exact Spends.fail _

/-- What is left in the states of SCRAM's server. -/
def serverLeft : SS → List Contact
  | some (.waitingClientFirst _) => [.asks .channelBindings, .asks .scramStoredPassword, .shows]
  | some (.waitingClientFinal _) => [.shows]
  | _ => []

theorem handleClientFirst_spends (d : Digest) (n : Nat) (canCb : Bool) (msg : ClientFirst) (s : Hdr) :
    Spends [.asks .channelBindings, .asks .scramStoredPassword, .shows] s
      (handleClientFirst d n env canCb msg) (fun _ new => serverLeft (some new)) := by
  unfold handleClientFirst
  refine Spends.bind (K' := fun _ _ => [.asks .scramStoredPassword, .shows]) ?_ fun _ _ => ?_
  · unfold serverCb
    split
    · split
      · exact Spends.fail _
      · exact Spends.pure (by decide)
    · exact Spends.pure (by decide)
    · exact Spends.needCbData (by left) (by uncalling)
  refine Spends.bind (Spends.ask (by left) ?_) fun r _ => ?_
  · unfold useStored; uncalling
  refine Spends.bindQuiet ?_ fun _ _ => ?_
  · unfold generateNonce; uncalling
  split
  · exact Spends.bindQuiet (.writeVectored _) fun _ _ => Spends.bindQuiet .get fun _ _ =>
      Spends.pure (List.Sublist.refl _)
  · exact Spends.bindQuiet (.draw _) fun _ _ => Spends.bindQuiet (.writeVectored _) fun _ _ =>
      Spends.pure (List.Sublist.refl _)

theorem server_spends (d : Digest) (n : Nat) (input : Option Bytes) (s : SS) :
    Spends (serverLeft s) s (serverStep d n env input) (leaving serverLeft) := by
  unfold serverStep
  refine Spends.getBind (Spends.setBind ?_)
  rcases s with _ | (canCb | data | _)
  · exact Spends.panic
  · refine Spends.bindStay (.okOr _ _) fun i => Spends.bindStay (.liftOutcome _) fun msg => ?_
    exact Spends.bind (Spends.withLocal (handleClientFirst_spends d n canCb msg _)) fun new _ =>
      Spends.setBind (Spends.running (List.Sublist.refl _))
  · refine Spends.bindStay (.okOr _ _) fun i => ?_
    refine Spends.bind (K' := fun _ _ => []) ?_ fun _ _ => Spends.setBind (Spends.finished _)
    unfold handleClientFinal
    refine Spends.bindStay (.liftOutcome _) fun r => Spends.bindStay (.lift _) fun v => ?_
    split
    · exact Spends.bindQuiet (.writeVectored _) fun _ _ => Spends.validate (by left)
    · exact ⟨fun w => let ⟨es, h1, h2, _⟩ := (Spends.quiet (l := []) (.writeVectored _)).run w
        ⟨es, h1, h2.trans (List.nil_sublist _), fun _ _ => by simpa using h2.trans (List.nil_sublist _)⟩⟩
  · exact Spends.fail _

end Scram

/-! ## The property -/

/-- C85: clients. -/
theorem C85_client (deps : Deps) (a : Auth) (st : Started) (h : a.startClient deps = some st) :
    InOrder st (clientOrder a) := by
  cases a <;> first | (cases h; done) | skip
  all_goals cases h
  · exact Spends.inOrder _ (fun _ i s => Plain.client_spends i s) (List.Sublist.refl _)
  · exact Spends.inOrder _ (fun _ i s => Login.client_spends i s) (List.Sublist.refl _)
  · exact Spends.inOrder _ (fun _ i s => External.client_spends i s) (List.Sublist.refl _)
  · exact Spends.inOrder _ (fun _ i s => Anonymous.client_spends i s) (List.Sublist.refl _)
  · exact Spends.inOrder _ (fun _ i s => XOAuth2.client_spends i s) (List.Sublist.refl _)
  · exact Spends.inOrder _ (fun _ i s => OAuthBearer.client_spends _ i s) (List.Sublist.refl _)
  · exact Spends.inOrder _ (fun _ i s => Gssapi.client_spends _ i s) (List.Sublist.refl _)
  · next b => exact Spends.inOrder _ (fun _ i s => Scram.client_spends _ _ i s) (by cases b <;> exact List.Sublist.refl _)
  · exact Spends.inOrder _ (fun _ i s => Scram.client_spends _ _ i s) (List.Sublist.refl _)

/-- C85: servers. -/
theorem C85_server (deps : Deps) (a : Auth) (st : Started) (h : a.startServer deps = some st) :
    InOrder st (serverOrder a) := by
  cases a <;> first | (cases h; done) | skip
  all_goals cases h
  · exact Spends.inOrder _ (fun _ i s => Plain.server_spends _ i s) (List.Sublist.refl _)
  · exact Spends.inOrder _ (fun _ i s => Login.server_spends i s) (List.Sublist.refl _)
  · exact Spends.inOrder _ (fun _ i s => External.server_spends i s) (List.Sublist.refl _)
  · exact Spends.inOrder _ (fun _ i s => Anonymous.server_spends i s) (List.Sublist.refl _)
  · exact Spends.inOrder _ (fun _ i s => XOAuth2.server_spends i s) (List.Sublist.refl _)
  · exact Spends.inOrder _ (fun _ i s => OAuthBearer.server_spends _ i s) (List.Sublist.refl _)
  · exact Spends.inOrder _ (fun _ i s => Gssapi.server_spends _ i s) (List.Sublist.refl _)
  · exact Spends.inOrder _ (fun _ i s => Scram.server_spends _ _ i s) (List.Sublist.refl _)
  · exact Spends.inOrder _ (fun _ i s => Scram.server_spends _ _ i s) (List.Sublist.refl _)

/-- No property is asked for or told twice, except for the two types of channel bindings a client tries,
and `validate` is called once at the most. -/
theorem C85_once (deps : Deps) (a : Auth) (st : Started)
    (h : a.startClient deps = some st ∨ a.startServer deps = some st)
    (env : Env) (rng : Nat → Nat) (calls : List Call)
    (hu : UnderWay ((st.session rng).run st.mech env calls).1) (c : Contact) :
    (contactsOf ((st.session rng).run st.mech env calls).2.log).count c ≤
      if c = .asks .channelBindings then 2 else 1 := by
  have key : ∀ order : List Contact, InOrder st order →
      order.count c ≤ (if c = .asks .channelBindings then 2 else 1) →
      (contactsOf ((st.session rng).run st.mech env calls).2.log).count c ≤
        if c = .asks .channelBindings then 2 else 1 :=
    fun order ho hc => Nat.le_trans ((ho env rng calls hu).count_le c) hc
  have nodup : ∀ l : List Contact, l.Nodup → l.count c ≤ if c = .asks .channelBindings then 2 else 1 := by
    intro l hl
    have := List.nodup_iff_count.1 hl c
    split <;> omega
  rcases h with h | h
  · refine key _ (C85_client deps a st h) ?_
    cases a with
    | scramClientPlus =>
      by_cases hc : c = .asks .channelBindings
      · subst hc; simp [clientOrder]
      · rw [if_neg hc, clientOrder, List.count_cons, List.count_cons_of_ne (Ne.symm hc),
          ← List.count_cons]
        exact List.nodup_iff_count.1 (by decide) c
    | _ => exact nodup _ (by simp [clientOrder])
  · refine key _ (C85_server deps a st h) (nodup _ ?_)
    cases a <;> simp [serverOrder]

/-- A client never has anything validated, a server never tells its callback anything. -/
theorem C85_sides (deps : Deps) (a : Auth) (st : Started) (env : Env) (rng : Nat → Nat)
    (calls : List Call) (hu : UnderWay ((st.session rng).run st.mech env calls).1) :
    (a.startClient deps = some st →
      .shows ∉ contactsOf ((st.session rng).run st.mech env calls).2.log) ∧
    (a.startServer deps = some st →
      ∀ p, .tells p ∉ contactsOf ((st.session rng).run st.mech env calls).2.log) := by
  refine ⟨fun h hm => ?_, fun h p hm => ?_⟩
  · have := (C85_client deps a st h env rng calls hu).subset hm
    revert this
    cases a <;> simp [clientOrder]
  · have := (C85_server deps a st h env rng calls hu).subset hm
    revert this
    cases a <;> simp [serverOrder]

/-- A server has nobody validated before it asked what it has to ask. -/
theorem C85_shows_last (deps : Deps) (a : Auth) (st : Started) (h : a.startServer deps = some st)
    (env : Env) (rng : Nat → Nat) (calls : List Call)
    (hu : UnderWay ((st.session rng).run st.mech env calls).1) (pre post : List Contact)
    (hc : contactsOf ((st.session rng).run st.mech env calls).2.log = pre ++ .shows :: post) :
    post = [] := by
  have hs := C85_server deps a st h env rng calls hu
  rw [hc] at hs
  have key : ∀ l : List Contact, .shows ∉ l → (pre ++ .shows :: post).Sublist (l ++ [.shows]) →
      post = [] := by
    intro l hl hs
    have hr := hs.reverse
    simp only [List.reverse_append, List.reverse_cons, List.reverse_nil, List.nil_append,
      List.append_assoc, List.singleton_append] at hr
    rcases hp : post.reverse with _ | ⟨x, r⟩
    · simpa using hp
    · rw [hp, List.cons_append] at hr
      have hin : ∀ {t : List Contact}, (t ++ .shows :: pre.reverse).Sublist l.reverse → False :=
        fun ht => hl (List.mem_reverse.1 (ht.subset (by simp)))
      rcases List.sublist_cons_iff.1 hr with h | ⟨t, e, h⟩
      · exact (hin (t := x :: r) h).elim
      · cases e
        exact (hin h).elim
  cases a <;> first | (cases h; done) | skip
  · exact key [] nofun hs
  · exact key [] nofun hs
  · exact key [] nofun hs
  · exact key [] nofun hs
  · exact key [.asks .xoauth2Validate] (by decide) hs
  · exact key [.asks .oauthBearerValidate] (by decide) hs
  · exact absurd (hs.subset (by simp : Contact.shows ∈ _)) (by decide)
  · exact key [.asks .channelBindings, .asks .scramStoredPassword] (by decide) hs
  · exact key [.asks .channelBindings, .asks .scramStoredPassword] (by decide) hs

theorem run_append_log {m : Mech} {env : Env} (before after : List Call) : ∀ ses : Session m.S,
    (ses.run m env (before ++ after)).2.log =
      ((ses.run m env before).2.run m env after).2.log := by
  induction before with
  | nil => exact fun _ => rfl
  | cons c cs ih =>
    intro ses
    rw [List.cons_append, run_cons, run_cons]
    exact ih _

/-- Calls up to the end of the exchange, and the calls after it. -/
theorem run_split (m : Mech) (env : Env) : ∀ (ses : Session m.S) (calls : List Call),
    ∃ before after, calls = before ++ after ∧ UnderWay (ses.run m env before).1 ∧
      (after = [] ∨ ∃ r ∈ (ses.run m env before).1, IsEnd r.res) := by
  intro ses calls
  induction calls generalizing ses with
  | nil => exact ⟨[], [], rfl, nofun, .inl rfl⟩
  | cons c cs ih =>
    by_cases he : IsEnd (ses.step m env c).1.res
    · refine ⟨[c], cs, rfl, nofun, .inr ⟨_, ?_, he⟩⟩
      rw [run_cons]
      exact .head _
    · have hr : (ses.step m env c).1.res = .ok .running := by
        revert he
        rcases (ses.step m env c).1.res with ⟨⟨⟩⟩ | _ | _ <;> simp [IsEnd]
      obtain ⟨before, after, rfl, hu, ho⟩ := ih (ses.step m env c).2
      refine ⟨c :: before, after, rfl, ?_, ?_⟩
      · rw [run_cons]
        intro r h
        dsimp only at h
        rcases hb : ((ses.step m env c).2.run m env before).1 with _ | ⟨x, xs⟩
        · rw [hb] at h; cases h
        · rw [hb, List.dropLast_cons_cons] at h
          rcases List.mem_cons.1 h with rfl | h
          · exact hr
          · exact hu r (by rw [hb]; exact h)
      · rw [run_cons]
        exact ho.imp id fun ⟨r, h1, h2⟩ => ⟨r, .tail _ h1, h2⟩

/-- The sessions that do nothing after their end keep the order for good. -/
theorem C85_life {st : Started} {order : List Contact} (h : InOrder st order) (hd : DeadAfter IsEnd st)
    (env : Env) (rng : Nat → Nat) (calls : List Call) :
    (contactsOf ((st.session rng).run st.mech env calls).2.log).Sublist order := by
  obtain ⟨before, after, rfl, hu, ho⟩ := run_split st.mech env (st.session rng) calls
  rcases ho with rfl | ho
  · rw [List.append_nil]
    exact h env rng before hu
  · rw [run_append_log, (hd env rng before after ho).2.1]
    exact h env rng before hu

/-- Both sides of SCRAM and GSSAPI's client: in order whatever the calls. -/
theorem C85_always (deps : Deps) (a : Auth) (st : Started) (env : Env) (rng : Nat → Nat)
    (calls : List Call) :
    (a.startClient deps = some st → (a.isScram = true ∨ a = .gssapi) →
      (contactsOf ((st.session rng).run st.mech env calls).2.log).Sublist (clientOrder a)) ∧
    (a.startServer deps = some st → a.isScram = true →
      (contactsOf ((st.session rng).run st.mech env calls).2.log).Sublist (serverOrder a)) :=
  ⟨fun h ha => C85_life (C85_client deps a st h) (C82_partial deps a st (.inl ⟨h, ha⟩)) env rng calls,
    fun h ha => C85_life (C85_server deps a st h) (C82_partial deps a st (.inr ⟨h, ha⟩)) env rng calls⟩

/-- PLAIN's client begins again when it is called after its end. -/
theorem C85_again : ∃ (env : Env) (calls : List Call),
    contactsOf ((Started.session ⟨Plain.client, ()⟩ fun _ => 0).run Plain.client env calls).2.log =
      clientOrder .plain ++ clientOrder .plain :=
  ⟨exampleEnv [⟨.authId, c!"me"⟩, ⟨.password, b!"pw"⟩], [⟨none, []⟩, ⟨none, []⟩], by decide +kernel⟩

/-! ## Exchanges in which nothing is left out -/

/-- Dependencies and a callback for them: the channel bindings are of the second type tried. -/
def fullDeps : Deps :=
  { toyDeps with json := ⟨fun _ => [b!"{}"], fun _ => some ⟨c!"invalid_token", none, none⟩⟩ }

def fullEnv : Env :=
  { exampleEnv [] with
    callback := fun _ _ ctx => (
      if ctx.getRef Property.channelBindingName == some Scram.tlsExporter then .ret (.ok ()) else
      answerAll [⟨.authId, c!"me"⟩, ⟨.password, b!"pw"⟩, ⟨.authzId, c!"z"⟩, ⟨.anonymousToken, c!"t"⟩,
        ⟨.oauthBearerToken, c!"t"⟩, ⟨.gssService, c!"t"⟩, ⟨.hostname, c!"t"⟩,
        ⟨.channelBindings, b!"cb"⟩, ⟨.scramStoredPassword, oneUser⟩, ⟨.xoauth2Validate, .ok ()⟩,
        ⟨.oauthBearerValidate, .ok ()⟩]) }

/-- What the client of `a` gets to read. -/
def fullClientInput : Auth → List (Option Bytes)
  | .login | .gssapi => [none, none]
  | .xoauth2 | .oauthbearer => [none, some (b!"{}")]
  | .scramClient _ b => [none, some (b!"r=!!!!!!!!!!!!!!!!!!!!!!!!x,s=AAAA,i=1"),
      some (b!"v=" ++ Base64.encode [if b then 216 else 169])]
  | .scramClientPlus _ => [none, some (b!"r=!!!!!!!!!!!!!!!!!!!!!!!!x,s=AAAA,i=1"),
      some (b!"v=" ++ Base64.encode [54])]
  | _ => [none]

/-- What the server of `a` gets to read. -/
def fullServerInput : Auth → List (Option Bytes)
  | .plain => [some (b!"\x00a\x00a")]
  | .login => [none, some (b!"a"), some (b!"a")]
  | .xoauth2 => [some (b!"user=a\x01auth=Bearer t\x01\x01")]
  | .oauthbearer => [some (b!"n,,\x01auth=Bearer t\x01\x01")]
  | .scramServer .. | .scramServerPlus _ => [some (b!"p=tls-unique,,n=user,r=abc"),
      some (b!"c=cD10bHMtdW5pcXVlLCxjYg==,r=abc!!!!!!!!!!!!!!!!!!!!!!!!,p=" ++ Base64.encode [87])]
  | _ => [some (b!"a")]

/-- Some exchange goes through the whole order. -/
def GoesThrough (st : Started) (order : List Contact) : Prop :=
  ∃ (env : Env) (rng : Nat → Nat) (calls : List Call),
    UnderWay ((st.session rng).run st.mech env calls).1 ∧
    contactsOf ((st.session rng).run st.mech env calls).2.log = order

theorem goesThrough_of {st : Started} {order : List Contact} (inputs : List (Option Bytes))
    (h : (let r := (st.session fun _ => 0).run st.mech fullEnv (inputs.map (⟨·, []⟩))
      r.1.dropLast.all (fun r => decide (r.res = .ok .running)) && decide (contactsOf r.2.log = order)) =
      true) : GoesThrough st order := by
  dsimp only at h
  rw [Bool.and_eq_true, List.all_eq_true, decide_eq_true_eq] at h
  exact ⟨fullEnv, fun _ => 0, _, fun r hr => of_decide_eq_true (h.1 r hr), h.2⟩

/-- The orders are as short as they can be: there are exchanges that need all of them. -/
theorem C85_tight (a : Auth) :
    (∀ st, a.startClient fullDeps = some st → GoesThrough st (clientOrder a)) ∧
    (∀ st, a.startServer fullDeps = some st → GoesThrough st (serverOrder a)) := by
  refine ⟨fun st h => goesThrough_of (fullClientInput a) ?_,
    fun st h => goesThrough_of (fullServerInput a) ?_⟩
  · cases a <;> first | (cases h; done) | skip
    all_goals cases h
    all_goals first
      | (decide +kernel)
      | (next h b => cases h <;> cases b <;> decide +kernel)
      | (next h => cases h <;> decide +kernel)
  · cases a <;> first | (cases h; done) | skip
    all_goals cases h
    all_goals first
      | (decide +kernel)
      | (next h b => cases h <;> cases b <;> decide +kernel)
      | (next h => cases h <;> decide +kernel)

end Rsasl

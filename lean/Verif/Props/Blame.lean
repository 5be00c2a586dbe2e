/-
C110: an error about the callback is about what was last said to it.
-/
import Verif.Proofs.Blame
import Verif.Props.StepErrors
import Verif.Props.ErrorsOccur

namespace Rsasl

open Spec

variable {S α β : Type} {env : Env}

/-- Decompose code that leaves the callback alone. -/
macro "hush" : tactic => `(tactic|
  repeat (first
    | with_reducible assumption
    | intro _
    | with_reducible exact Hushed.pure _ | with_reducible exact Hushed.panic
    | with_reducible exact Hushed.get | with_reducible exact Hushed.set _
    | with_reducible exact Hushed.modify _ | with_reducible exact Hushed.draw _
    | with_reducible refine Hushed.bind ?_ ?_
    | (focus (with_reducible refine Hushed.fail ?_); exact ⟨nofun, nofun, nofun⟩)
    | with_reducible exact Hushed.writeAll _ | with_reducible exact Hushed.writeVectored _
    | with_reducible exact Hushed.writeJson _
    | (focus (with_reducible refine Hushed.okOr ?_ _); exact ⟨nofun, nofun, nofun⟩)
    | with_reducible exact Hushed.liftGss _
    | split | dsimp only))

set_option hygiene false in
/-- Decompose a piece of mechanism code. -/
macro "accounts" : tactic => `(tactic|
  repeat (first
    | with_reducible assumption
    | intro _
    | with_reducible refine Accounts.bind ?_ ?_
    | with_reducible exact Accounts.validate
    | with_reducible exact Accounts.action henv
    | (focus (with_reducible refine Accounts.needWith henv ?_); hush; done)
    | (focus (with_reducible refine Accounts.ask henv ?_); hush; done)
    | (focus refine Accounts.hushed ?_; hush; done)
    | with_reducible apply Accounts.withLocal | split | dsimp only))

/-! ## Mechanisms -/

theorem Plain.client_accounts {input : Option Bytes} (henv : env.ErrsIn Blameless) :
    Accounts (Plain.clientStep env input) := by
  unfold Plain.clientStep Plain.clientAuthzid Plain.clientAuthid Plain.clientPassword
  accounts

theorem Login.client_accounts {input : Option Bytes} (henv : env.ErrsIn Blameless) :
    Accounts (Login.clientStep env input) := by
  unfold Login.clientStep
  accounts

theorem External.client_accounts {input : Option Bytes} (henv : env.ErrsIn Blameless) :
    Accounts (External.clientStep env input) := by
  unfold External.clientStep
  accounts

theorem Anonymous.client_accounts {input : Option Bytes} (henv : env.ErrsIn Blameless) :
    Accounts (Anonymous.clientStep env input) := by
  unfold Anonymous.clientStep
  accounts

theorem XOAuth2.client_accounts {input : Option Bytes} (henv : env.ErrsIn Blameless) :
    Accounts (XOAuth2.clientStep env input) := by
  unfold XOAuth2.clientStep
  accounts

theorem OAuthBearer.writeKVs_hushed (kvs : List (Str × Str)) :
    Hushed (OAuthBearer.writeKVs kvs : M S Unit) := by
  induction kvs with
  | nil => exact Hushed.pure _
  | cons kv kvs ih => exact Hushed.bind (.writeVectored _) fun _ => ih

theorem OAuthBearer.client_accounts (json : OAuthBearer.Json) {input : Option Bytes}
    (henv : env.ErrsIn Blameless) : Accounts (OAuthBearer.clientStep json env input) := by
  have h := Accounts.ask (p := .oauthBearerKV) (ctx := .empty) henv
    (OAuthBearer.writeKVs_hushed (S := OAuthCState))
  unfold OAuthBearer.clientStep
  accounts

theorem Plain.server_accounts (prep : Str → Option Str) {input : Option Bytes} :
    Accounts (Plain.serverStep prep env input) := by
  have henv : True := trivial
  unfold Plain.serverStep
  accounts

theorem Login.server_accounts {input : Option Bytes} : Accounts (Login.serverStep env input) := by
  have henv : True := trivial
  unfold Login.serverStep
  accounts

theorem External.server_accounts {input : Option Bytes} :
    Accounts (External.serverStep env input) := by
  have henv : True := trivial
  unfold External.serverStep
  accounts

theorem Anonymous.server_accounts {input : Option Bytes} :
    Accounts (Anonymous.serverStep env input) := by
  have henv : True := trivial
  unfold Anonymous.serverStep
  accounts

theorem XOAuth2.server_accounts {input : Option Bytes} (henv : env.ErrsIn Blameless) :
    Accounts (XOAuth2.serverStep env input) := by
  have hp : ∀ i, Hushed (M.lift (XOAuth2.parse i) : M OAuthSState _) := by
    intro i
    refine Hushed.lift fun e he => ?_
    unfold XOAuth2.parse at he
    dsimp only at he
    repeat' (first | (cases he <;> exact Hushed.mech _) | split at he)
  unfold XOAuth2.serverStep XOAuth2.onResult
  refine Accounts.bind (.hushed .get) fun st => ?_
  split
  · refine Accounts.bind (by accounts) fun i => Accounts.bind (.hushed (hp i)) fun _ => ?_
    accounts
  · accounts

theorem OAuthBearer.server_accounts (json : OAuthBearer.Json) {input : Option Bytes}
    (henv : env.ErrsIn Blameless) : Accounts (OAuthBearer.serverStep json env input) := by
  unfold OAuthBearer.serverStep OAuthBearer.onResult
  accounts

namespace Gssapi

variable (lib : Lib)

theorem finalToken_hushed (i : Bytes) : Hushed (M.lift (finalToken i) : M S _) :=
  Hushed.lift fun e he => by rw [finalToken_err he]; exact Hushed.mech _

theorem client_accounts {input : Option Bytes} (henv : env.ErrsIn Blameless) :
    Accounts (clientStep lib env input) := by
  have hf : ∀ i, Hushed (M.lift (finalToken i) : M (CState lib) _) := finalToken_hushed
  have h1 : ∀ ctx v, Hushed (clientAcceptable lib ctx v) := by
    unfold clientAcceptable; hush
  have h : ∀ ctx input, Accounts (clientPending lib env ctx input) := by
    intro ctx input'
    unfold clientPending
    dsimp only
    refine Accounts.bind (by accounts) fun _ => ?_
    have h2 : Accounts
        (if lib.isComplete (lib.clientStep ctx input').2 = true then (do
        let acceptable ← maybeNeedWith env .gssSecurityLayer .empty
          (clientAcceptable lib (lib.clientStep ctx input').2)
        M.set (.last (lib.clientStep ctx input').2 (match acceptable with
          | some a => a
          | none => .all))
        pure State.running)
      else do
        M.set (.pending (lib.clientStep ctx input').2)
        pure State.running) := by
      split
      · exact Accounts.bind (Accounts.ask henv (h1 _)) fun _ => .hushed (.bind (.set _) fun _ => .pure _)
      · exact .hushed (.bind (.set _) fun _ => .pure _)
    split
    · split
      · exact h2
      · exact Accounts.bind (by accounts) fun _ => h2
    · exact h2
  unfold clientStep
  refine Accounts.bind (.hushed .get) fun st => Accounts.bind (.hushed (.set _)) fun _ => ?_
  split
  · refine Accounts.bind ?_ fun _ => Accounts.bind ?_ fun _ => Accounts.bind (by accounts) fun _ => h _ _
    · exact Accounts.needWith henv (fun _ => .pure _)
    · exact Accounts.needWith henv (fun _ => .pure _)
  · exact h _ _
  · refine .hushed ?_
    hush
    exact hf _
    hush
  · accounts
  · accounts

theorem server_accounts {input : Option Bytes} (henv : env.ErrsIn Blameless) :
    Accounts (serverStep lib env input) := by
  have h0 : ∀ ctx l, Accounts (serverInstalled lib ctx l) := by
    unfold serverInstalled; accounts
  have h : ∀ ctx, Accounts (serverPending lib env ctx input) := by
    intro ctx
    unfold serverPending
    refine Accounts.bind (by accounts) fun _ => ?_
    dsimp only
    refine Accounts.bind (by accounts) fun _ => ?_
    split
    · refine Accounts.bind ?_ fun _ => Accounts.bind (by accounts) fun _ => ?_
      · exact Accounts.ask henv fun _ => .pure _
      · split <;> split
        all_goals first
          | exact .hushed (.fail ⟨nofun, nofun, nofun⟩)
          | refine Accounts.bind (.hushed (.set _)) fun _ => ?_
        all_goals
          split
          · accounts
          · exact Accounts.bind (.hushed (.set _)) fun _ => h0 _ _
    · accounts
  unfold serverStep
  refine Accounts.bind (.hushed .get) fun st => Accounts.bind (.hushed (.set _)) fun _ => ?_
  split
  · exact Accounts.bind (by accounts) fun _ => h _
  · exact h _
  · exact h0 _ _
  · refine Accounts.bind (by accounts) fun _ => Accounts.bind (by accounts) fun _ =>
      Accounts.bind (.hushed (finalToken_hushed _)) fun _ => ?_
    accounts
  · accounts
  · accounts

end Gssapi

namespace Scram

theorem escapeM_hushed (x : Str) : Hushed (escapeM x : M S Str) := by
  unfold escapeM
  split
  · exact .pure _
  · exact .fail (Hushed.mech _)

theorem generateNonce_hushed (n : Nat) : Hushed (generateNonce n : M S Bytes) := by
  unfold generateNonce
  exact .bind (.draw _) fun _ => .pure _

theorem read_hushed {o : Outcome α} (h : ParseRaises Blameless o) :
    Hushed (M.liftOutcome o : M S α) := .liftOutcome h.errs

theorem client_accounts (d : Digest) (n : Nat) {input : Option Bytes}
    (henv : env.ErrsIn Blameless) : Accounts (clientStep d n env input) := by
  have hp : ∀ b, Hushed (pushHeader b) := fun b => .modify _
  have hs : ∀ b, Hushed (setCbdata b) := fun b => .modify _
  unfold clientStep
  refine Accounts.bind (.hushed .get) fun st => Accounts.bind (.hushed (.set _)) fun _ => ?_
  split
  · next plus =>
    refine Accounts.bind (Accounts.withLocal ?_) fun _ =>
      .hushed (.bind (.set _) fun _ => .pure _)
    unfold sendClientFirst
    have hc : Accounts (clientCb env plus) := by
      cases plus with
      | serverNoSupport => exact .hushed (hp _)
      | clientNoSupport => exact .hushed (hp _)
      | supported =>
        unfold clientCb
        refine Accounts.bind (.hushed (hp _)) fun _ => Accounts.bind (Accounts.ask henv fun _ =>
          .bind (.modify _) fun _ => .pure _) fun o => ?_
        split
        · exact Accounts.needCbData henv hs
        · refine Accounts.bind (Accounts.maybeNeedCbData henv fun _ => .bind (hp _) fun _ => hs _)
            fun o => ?_
          split
          · exact .hushed (.pure _)
          · exact Accounts.needCbData henv fun _ => .bind (hp _) fun _ => hs _
    refine Accounts.bind hc fun _ => Accounts.bind (.hushed (hp _)) fun _ =>
      Accounts.bind (Accounts.ask henv fun z => ?_) fun _ => Accounts.bind (.hushed (hp _)) fun _ =>
      Accounts.bind (Accounts.needWith henv fun _ => escapeM_hushed _) fun _ =>
      Accounts.bind (.hushed (generateNonce_hushed _)) fun _ => Accounts.bind (.hushed .get) fun _ =>
      Accounts.bind (.hushed (.writeVectored _)) fun _ => ?_
    · unfold clientAuthzid
      exact .bind (.modify _) fun _ => .bind (escapeM_hushed _) fun _ => .modify _
    · split <;> exact .hushed (.pure _)
  · refine Accounts.bind (by accounts) fun _ => Accounts.bind ?_ fun _ =>
      .hushed (.bind (.set _) fun _ => .pure _)
    unfold handleServerFirst
    refine Accounts.bind (.hushed (read_hushed (ParseRaises.checkServerFirst
      (fun _ _ => Hushed.mech _) (fun _ => Hushed.mech _) _ _))) fun _ =>
      Accounts.bind ?_ fun _ => .hushed (.bind (.writeVectored _) fun _ => .pure _)
    unfold clientKeys
    refine Accounts.bind (Accounts.ask henv fun c => ?_) fun o => ?_
    · unfold useCached
      hush
    · split
      · exact .hushed (.pure _)
      · refine Accounts.bind (Accounts.ask henv fun c => ?_) fun o => ?_
        · unfold useSalted
          hush
        · split
          · exact .hushed (.pure _)
          · exact Accounts.needWith henv fun _ => .pure _
  · refine Accounts.bind (by accounts) fun _ => Accounts.bind ?_ fun _ => .hushed (.pure _)
    unfold handleServerFinal
    refine Accounts.bind (.hushed (read_hushed (ParseRaises.serverFinal
      (fun _ _ => Hushed.mech _) _))) fun m => ?_
    split
    · split
      · exact .hushed (.fail (Hushed.mech _))
      · split
        · exact Accounts.bind (.attempt (.action henv)) fun _ => .hushed (.pure _)
        · exact .hushed (.fail ⟨nofun, nofun, nofun⟩)
    · exact .hushed (.fail (Hushed.mech _))
  · exact .hushed .panic

theorem server_accounts (d : Digest) (n : Nat) {input : Option Bytes}
    (henv : env.ErrsIn Blameless) : Accounts (serverStep d n env input) := by
  unfold serverStep
  refine Accounts.bind (.hushed .get) fun st => Accounts.bind (.hushed (.set _)) fun _ => ?_
  split
  · refine Accounts.bind (by accounts) fun i => Accounts.bind (.hushed (read_hushed
      (ParseRaises.clientFirst (fun _ _ => Hushed.mech _) i))) fun msg =>
      Accounts.bind (Accounts.withLocal ?_) fun _ => .hushed (.bind (.set _) fun _ => .pure _)
    unfold handleClientFirst
    refine Accounts.bind ?_ fun _ => Accounts.bind (Accounts.ask henv fun p => ?_) fun params =>
      Accounts.bind (.hushed (generateNonce_hushed _)) fun _ => ?_
    · unfold serverCb
      split
      · split
        · exact .hushed (.fail (Hushed.mech _))
        · exact .hushed (.pure _)
      · exact .hushed (.pure _)
      · exact Accounts.needCbData henv fun _ => .modify _
    · unfold useStored
      hush
    · accounts
  · refine Accounts.bind (by accounts) fun i => Accounts.bind ?_ fun _ =>
      .hushed (.bind (.set _) fun _ => .pure _)
    unfold handleClientFinal
    refine Accounts.bind (.hushed (read_hushed (ParseRaises.clientFinal
      (fun _ _ => Hushed.mech _) _))) fun m =>
      Accounts.bind (.hushed (.lift fun e he => ?_)) fun r => ?_
    · unfold judge at he
      dsimp only at he
      repeat' (first | (cases he <;> exact Hushed.mech _) | split at he)
    · accounts
  · accounts
  · accounts

end Scram

/-! ## Sessions -/

theorem Accounts.step {m : Mech} {c : Call} (h : Accounts (m.step env c.input))
    (ses : Session m.S) : ∃ es, (ses.step m env c).2.log = ses.log ++ es ∧
      ∀ e, (ses.step m env c).1.res = .err e → Blames e (contactsOf es) :=
  h.run _ _

/-- C110: if a step says that the callback did not answer, had no channel binding data or did not
validate, then that is what the callback was last called for, in this very step. The callback itself
does not come up with such errors. -/
theorem C110_blame (deps : Deps) (a : Auth) (st : Started) (h : Shipped deps a st) (env : Env)
    (henv : env.ErrsIn Blameless) (ses : Session st.mech.S) (c : Call) :
    ∃ es, (ses.step st.mech env c).2.log = ses.log ++ es ∧
      ∀ e, (ses.step st.mech env c).1.res = .err e → Blames e (contactsOf es) := by
  rcases h with h | h
  · cases a <;> cases h <;> refine Accounts.step ?_ ses
    · exact Plain.client_accounts (input := c.input) henv
    · exact Login.client_accounts (input := c.input) henv
    · exact External.client_accounts (input := c.input) henv
    · exact Anonymous.client_accounts (input := c.input) henv
    · exact XOAuth2.client_accounts (input := c.input) henv
    · exact OAuthBearer.client_accounts (input := c.input) _ henv
    · exact Gssapi.client_accounts (input := c.input) _ henv
    · exact Scram.client_accounts (input := c.input) _ _ henv
    · exact Scram.client_accounts (input := c.input) _ _ henv
  · cases a <;> cases h <;> refine Accounts.step ?_ ses
    · exact Plain.server_accounts (input := c.input) _
    · exact Login.server_accounts (input := c.input)
    · exact External.server_accounts (input := c.input)
    · exact Anonymous.server_accounts (input := c.input)
    · exact XOAuth2.server_accounts (input := c.input) henv
    · exact OAuthBearer.server_accounts (input := c.input) _ henv
    · exact Gssapi.server_accounts (input := c.input) _ henv
    · exact Scram.server_accounts (input := c.input) _ _ henv
    · exact Scram.server_accounts (input := c.input) _ _ henv

/-- What `is_missing_prop` means: the callback was asked for the property or told of it, in this call
of `step`, and was not called again. -/
theorem C110_missing (deps : Deps) (a : Auth) (st : Started) (h : Shipped deps a st) (env : Env)
    (henv : env.ErrsIn Blameless) (ses : Session st.mech.S) (c : Call) (e : SessionError)
    (he : (ses.step st.mech env c).1.res = .err e) (hm : e.isMissingProp = true) :
    ∃ p es pre, e = .callbackError (.noCallback p) ∧
      (ses.step st.mech env c).2.log = ses.log ++ es ∧
      (contactsOf es = pre ++ [.asks p] ∨ contactsOf es = pre ++ [.tells p]) := by
  obtain ⟨es, e1, k⟩ := C110_blame deps a st h env henv ses c
  unfold SessionError.isMissingProp at hm
  split at hm
  · next p =>
    rcases k _ he with k | k
    · obtain ⟨pre, hp⟩ := List.getLast?_eq_some_iff.1 k
      exact ⟨p, es, pre, rfl, e1, .inl hp⟩
    · obtain ⟨pre, hp⟩ := List.getLast?_eq_some_iff.1 k
      exact ⟨p, es, pre, rfl, e1, .inr hp⟩
  · cases hm

/-- The same for `step64`. -/
theorem C110_step64 (deps : Deps) (a : Auth) (st : Started) (h : Shipped deps a st) (env : Env)
    (henv : env.ErrsIn Blameless) (ses : Session st.mech.S) (c : Call) :
    ∃ es, (ses.step64 st.mech env c).2.log = ses.log ++ es ∧
      ∀ e, (ses.step64 st.mech env c).1.res = .err e → Blames e (contactsOf es) := by
  unfold Session.step64
  split
  · split
    · exact ⟨[], (List.append_nil _).symm, fun e he => by cases he; trivial⟩
    · exact C110_blame deps a st h env henv ses _
  · exact C110_blame deps a st h env henv ses _

/-! ## Examples -/

/-- A PLAIN client whose callback knows no password says so, and has asked for it last. -/
example :
    let r := (Started.session ⟨Plain.client, ()⟩ fun _ => 0).step Plain.client
      (exampleEnv [⟨.authId, c!"user"⟩]) ⟨none, []⟩
    r.1.res = .err (.callbackError (.noCallback .password)) ∧
      contactsOf r.2.log = [.asks .authzId, .asks .authId, .asks .password] := by decide +kernel

/-- A SCRAM client that is to bind the channel and gets no data. -/
example :
    let r := (Started.session ⟨Scram.client toyDigest, some (.initial .supported)⟩ fun _ => 0).step
      (Scram.client toyDigest) (exampleEnv [⟨.overrideCBType, c!"tls-unique"⟩]) ⟨none, []⟩
    r.1.res = .err (.missingChannelBindingData (c!"tls-unique")) ∧
      contactsOf r.2.log = [.asks .overrideCBType, .asks .channelBindings] := by decide +kernel

/-- The callbacks of the examples come up with no such errors. -/
example (pvs : List PV) : (exampleEnv pvs).ErrsIn Blameless := fun _ _ => answerAll_errs pvs

/-- A callback that returns such an error of its own is believed: the error is about a property that
nobody asked for. -/
example :
    let env : Env := { exampleEnv [] with
      callback := fun _ _ _ => .ret (.error (.callbackError (.noCallback .realm))) }
    let r := (Started.session ⟨External.client, ()⟩ fun _ => 0).step External.client env ⟨none, []⟩
    r.1.res = .err (.callbackError (.noCallback .realm)) ∧
      contactsOf r.2.log = [.asks .authzId] := by decide +kernel

end Rsasl

/-
C67: which errors a call ends with.
-/
import Verif.Proofs.StepErrors
import Verif.Proofs.ScramErrs
import Verif.Props.Contacts
import Verif.Props.ScramServer
import Verif.Props.ScramWrong

namespace Rsasl

open Spec

variable {S α β : Type} {E : SessionError → Prop} {env : Env}

/-- An entry of a table. -/
macro "entry" : tactic => `(tactic|
  first
  | exact True.intro | exact rfl | exact ⟨rfl, by assumption⟩ | exact ⟨rfl, rfl⟩ | exact ⟨_, rfl⟩
  | exact ⟨_, rfl, nofun⟩ | (listed; done)
  | exact (show (_ : IoErr) ≠ IoErr.interrupted from by assumption))

/-- Look up an error in a table. -/
syntax "lookup" : tactic

macro_rules
  | `(tactic| lookup) => `(tactic|
      first
      | entry | exact Or.inl (by lookup) | exact Or.inr (by lookup)
      | exact And.intro rfl (by lookup))

set_option hygiene false in
/-- An error of the table, for code run by the mechanism itself or within `satisfy`. -/
macro "known" : tactic => `(tactic|
  (intros
   first
   | (refine hE _ ?_; lookup)
   | (refine Or.inl (hE _ ?_); lookup)
   | exact Or.inr rfl))

set_option hygiene false in
/-- Decompose a piece of mechanism code. -/
macro "raises" : tactic => `(tactic|
  repeat (first
    | with_reducible assumption
    | intro _
    | with_reducible exact Raises.pure _ | with_reducible exact Raises.panic
    | with_reducible exact Raises.get | with_reducible exact Raises.set _
    | with_reducible exact Raises.modify _ | with_reducible exact Raises.draw _
    | with_reducible refine Raises.bind ?_ ?_
    | ((with_reducible refine Raises.fail ?_); known)
    | ((with_reducible refine Raises.writeAll ?_); known)
    | ((with_reducible refine Raises.writeVectored ?_); known)
    | ((with_reducible refine Raises.writeJson ?_); known)
    | with_reducible exact hf _
    | ((with_reducible refine Raises.okOr ?_); known)
    | ((with_reducible refine Raises.liftGss ?_); known)
    | ((with_reducible refine Raises.validate ?_); known)
    | ((with_reducible refine Raises.action henv ?_ ?_) <;> known)
    | ((with_reducible refine Raises.needWith henv ?_ ?_); rotate_left; known)
    | with_reducible refine Raises.ask henv ?_
    | with_reducible apply Raises.withLocal | split | dsimp only))

/-! ## Mechanisms -/

theorem Plain.client_raises {input : Option Bytes} (hE : ∀ e, clientErrors input .plain e → E e)
    (henv : env.ErrsIn E) : Raises E (Plain.clientStep env input) := by
  unfold Plain.clientStep Plain.clientAuthzid Plain.clientAuthid Plain.clientPassword
  raises

theorem Login.client_raises {input : Option Bytes} (hE : ∀ e, clientErrors input .login e → E e)
    (henv : env.ErrsIn E) : Raises E (Login.clientStep env input) := by
  unfold Login.clientStep
  raises

theorem External.client_raises {input : Option Bytes}
    (hE : ∀ e, clientErrors input .external e → E e) (henv : env.ErrsIn E) :
    Raises E (External.clientStep env input) := by
  unfold External.clientStep
  raises

theorem Anonymous.client_raises {input : Option Bytes}
    (hE : ∀ e, clientErrors input .anonymous e → E e) (henv : env.ErrsIn E) :
    Raises E (Anonymous.clientStep env input) := by
  unfold Anonymous.clientStep
  raises

theorem XOAuth2.client_raises {input : Option Bytes}
    (hE : ∀ e, clientErrors input .xoauth2 e → E e) (henv : env.ErrsIn E) :
    Raises E (XOAuth2.clientStep env input) := by
  unfold XOAuth2.clientStep
  raises

theorem OAuthBearer.writeKVs_raises (h : ∀ e, E (.io e)) (kvs : List (Str × Str)) :
    Raises E (OAuthBearer.writeKVs kvs : M S Unit) := by
  induction kvs with
  | nil => exact Raises.pure _
  | cons kv kvs ih => exact Raises.bind (Raises.writeVectored h) fun _ => ih

theorem OAuthBearer.client_raises (json : OAuthBearer.Json) {input : Option Bytes}
    (hE : ∀ e, clientErrors input .oauthbearer e → E e) (henv : env.ErrsIn E) :
    Raises E (OAuthBearer.clientStep json env input) := by
  have h := Raises.ask (p := .oauthBearerKV) (ctx := .empty) henv
    (OAuthBearer.writeKVs_raises (S := OAuthCState) (by known))
  unfold OAuthBearer.clientStep
  raises

theorem Plain.server_raises (prep : Str → Option Str) {input : Option Bytes}
    (hE : ∀ e, serverErrors input .plain e → E e) :
    Raises E (Plain.serverStep prep env input) := by
  unfold Plain.serverStep
  raises

theorem Login.server_raises {input : Option Bytes} (hE : ∀ e, serverErrors input .login e → E e) :
    Raises E (Login.serverStep env input) := by
  unfold Login.serverStep
  raises

theorem External.server_raises {input : Option Bytes}
    (hE : ∀ e, serverErrors input .external e → E e) :
    Raises E (External.serverStep env input) := by
  unfold External.serverStep
  raises

theorem Anonymous.server_raises {input : Option Bytes}
    (hE : ∀ e, serverErrors input .anonymous e → E e) :
    Raises E (Anonymous.serverStep env input) := by
  unfold Anonymous.serverStep
  raises

theorem XOAuth2.server_raises {input : Option Bytes}
    (hE : ∀ e, serverErrors input .xoauth2 e → E e) (henv : env.ErrsIn E) :
    Raises E (XOAuth2.serverStep env input) := by
  have hp : ∀ i, Raises E (M.lift (XOAuth2.parse i) : M OAuthSState _) := by
    intro i
    refine Raises.lift fun e he => ?_
    unfold XOAuth2.parse at he
    dsimp only at he
    repeat' (first | (cases he <;> known) | split at he)
  unfold XOAuth2.serverStep XOAuth2.onResult
  refine Raises.bind .get fun st => ?_
  split
  · refine Raises.bind (by raises) fun i => Raises.bind (hp i) fun _ => ?_
    raises
  · raises

theorem OAuthBearer.server_raises (json : OAuthBearer.Json) {input : Option Bytes}
    (hE : ∀ e, serverErrors input .oauthbearer e → E e) (henv : env.ErrsIn E) :
    Raises E (OAuthBearer.serverStep json env input) := by
  have hp : ∀ i e, OAuthBearer.Msg.parse i = .error e → e ≠ .missingPart := by
    intro i e he h
    subst h
    unfold OAuthBearer.Msg.parse at he
    split at he
    · cases he
    split at he
    · next h => exact splitOn_ne_nil _ _ h
    split at he
    · cases he
    split at he
    · cases he
    split at he
    · cases he
    have hkv : ∀ (kvs : List Bytes) t fs, OAuthBearer.parseKVs t fs kvs ≠ .error .missingPart := by
      intro kvs
      induction kvs with
      | nil => exact nofun
      | cons kv kvs ih =>
        intro t fs h
        unfold OAuthBearer.parseKVs at h
        split at h
        · next hk =>
          cases h
          unfold OAuthBearer.parseKV at hk
          repeat' (first | cases hk | split at hk)
        · exact ih _ _ h
    split at he
    · next h =>
      cases he
      unfold OAuthBearer.parseAuthzid at h
      repeat' (first | cases h | split at h)
    · split at he
      · next h => cases he; exact hkv _ _ _ h
      · cases he
      · cases he
  unfold OAuthBearer.serverStep OAuthBearer.onResult
  refine Raises.bind .get fun st => ?_
  split
  · refine Raises.bind (by raises) fun i => ?_
    split
    · next e he =>
      refine Raises.fail (hE _ ?_)
      exact .inr (.inr (.inr (.inr ⟨_, rfl, hp _ _ he⟩)))
    · raises
  · raises

namespace Gssapi

variable (lib : Lib)

theorem finalToken_err {i : Bytes} {e : SessionError} (h : finalToken i = .error e) :
    e = badFinalToken := by
  unfold finalToken at h
  repeat' (first | (cases h <;> rfl) | split at h)

theorem client_raises {input : Option Bytes} (hE : ∀ e, clientErrors input .gssapi e → E e)
    (henv : env.ErrsIn E) : Raises E (clientStep lib env input) := by
  have hf : ∀ i, Raises E (M.lift (finalToken i) : M (CState lib) _) := fun i =>
    Raises.lift fun e he => by rw [finalToken_err he]; known
  have h1 : ∀ ctx v, Raises (fun e => E e ∨ e = .callbackError .noValue)
      (clientAcceptable lib ctx v) := by
    unfold clientAcceptable; raises
  have h : ∀ ctx input, Raises E (clientPending lib env ctx input) := by
    intro ctx input'
    unfold clientPending
    dsimp only
    refine Raises.bind (by raises) fun _ => ?_
    have h2 : Raises E
        (if lib.isComplete (lib.clientStep ctx input').2 = true then (do
        let acceptable ← maybeNeedWith env .gssSecurityLayer .empty
          (clientAcceptable lib (lib.clientStep ctx input').2)
        M.set (.last (lib.clientStep ctx input').2 (match acceptable with
          | some a => a
          | none => .all))
        pure State.running)
      else do
        M.set (.pending (lib.clientStep ctx input').2)
        pure State.running) := by
      split
      · exact Raises.bind (Raises.ask henv (h1 _)) fun _ => Raises.bind (.set _) fun _ => .pure _
      · exact Raises.bind (.set _) fun _ => .pure _
    split
    · split
      · exact h2
      · exact Raises.bind (by raises) fun _ => h2
    · exact h2
  unfold clientStep
  refine Raises.bind .get fun st => Raises.bind (.set _) fun _ => ?_
  split
  · refine Raises.bind ?_ fun _ => Raises.bind ?_ fun _ => Raises.bind (by raises) fun _ => h _ _
    · exact Raises.needWith henv (fun _ => .pure _) (by known)
    · exact Raises.needWith henv (fun _ => .pure _) (by known)
  · exact h _ _
  · raises
  · raises
  · raises

theorem server_raises {input : Option Bytes} (hE : ∀ e, serverErrors input .gssapi e → E e)
    (henv : env.ErrsIn E) : Raises E (serverStep lib env input) := by
  have hf : ∀ i, Raises E (M.lift (finalToken i) : M (SState lib) _) := fun i =>
    Raises.lift fun e he => by rw [finalToken_err he]; known
  have h0 : ∀ ctx l, Raises E (serverInstalled lib ctx l) := by
    unfold serverInstalled; raises
  have h : ∀ ctx, Raises E (serverPending lib env ctx input) := by
    intro ctx
    unfold serverPending
    refine Raises.bind (by raises) fun _ => ?_
    dsimp only
    refine Raises.bind (by raises) fun _ => ?_
    split
    · refine Raises.bind ?_ fun _ => Raises.bind (by raises) fun _ => ?_
      · exact Raises.ask henv fun _ => .pure _
      · split <;> split
        all_goals first
          | exact Raises.fail (by known)
          | refine Raises.bind (.set _) fun _ => ?_
        all_goals
          split
          · raises
          · exact Raises.bind (.set _) fun _ => h0 _ _
    · raises
  unfold serverStep
  refine Raises.bind .get fun st => Raises.bind (.set _) fun _ => ?_
  split
  · exact Raises.bind (by raises) fun _ => h _
  · exact h _
  · exact h0 _ _
  · raises
  · raises
  · raises

theorem layers_raises (hE : ∀ e, layerErrors .gssapi e → E e) (input : Bytes) :
    Raises E (clientEncode lib input) ∧ Raises E (clientDecode lib input) ∧
    Raises E (serverEncode lib input) ∧ Raises E (serverDecode lib input) := by
  unfold clientEncode clientDecode serverEncode serverDecode layerEncode layerDecode
  refine ⟨?_, ?_, ?_, ?_⟩ <;> raises

end Gssapi

namespace Scram

open _root_.Rsasl.Spec

/-- Every error of a parser is in `E`. -/
structure ParseRaises (E : SessionError → Prop) (o : Outcome α) : Prop where
  errs : ∀ e, o = .err e → E e

namespace ParseRaises

theorem ok (a : α) : ParseRaises E (.ok a) := ⟨nofun⟩
theorem panic : ParseRaises E (.panic : Outcome α) := ⟨nofun⟩
theorem err {e : SessionError} (h : E e) : ParseRaises E (.err e : Outcome α) := ⟨fun _ he => by cases he; exact h⟩

theorem bind {o : Outcome α} {f : α → Outcome β} (h1 : ParseRaises E o) (h2 : ∀ a, ParseRaises E (f a)) :
    ParseRaises E (o >>= f) := by
  constructor
  intro e he
  rcases Outcome.bind_eq_err.1 he with h | ⟨a, _, h⟩
  · exact h1.errs e h
  · exact (h2 a).errs e h

theorem attr (x : Bytes) : ParseRaises E (Scram.attr x) := ⟨fun _ h => absurd h attr_eq_err⟩
theorem firstByte (x : Bytes) : ParseRaises E (Scram.firstByte x) := ⟨by cases x <;> nofun⟩

theorem utf8 (h : E (perr .badUtf8)) (x : Bytes) : ParseRaises E (Scram.utf8 x) := by
  unfold Scram.utf8
  cases fromUtf8 x
  · exact err h
  · exact ok _

/-- A field of a message has no comma. -/
theorem _root_.Rsasl.Spec.OtherField.ne_comma {keys : List Bytes} {x : UInt8} {p input : Bytes}
    {ps : List Bytes} (h : OtherField keys x p) (hf : Fields input ps) (hp : p ∈ ps) : x ≠ 44 := by
  rintro rfl
  obtain ⟨y, v, rfl, -⟩ := h
  exact (splitOn_eq_iff.1 (fields_iff.1 hf)).2.1 _ hp (by simp)

theorem clientFirst (h : ∀ e, scramServerSort true (.scramParse e) → E (perr e)) (x : Bytes) :
    ParseRaises E (ClientFirst.parse x) := by
  constructor
  intro e he
  obtain ⟨ps, f, hf, hw, rfl⟩ := (C77_client_first x e).1 he
  have hc : ∀ p ∈ ps, 44 ∉ p := (splitOn_eq_iff.1 (fields_iff.1 hf)).2.1
  refine h f ?_
  cases hw with
  | cbName h1 h2 => exact ⟨h2, fun h => hc _ (List.mem_cons_self ..) (by simp [h])⟩
  | notName _ _ ho => exact ho.ne_comma hf (by simp)
  | notNonce _ _ ho => exact ho.ne_comma hf (by simp)
  | _ => trivial

theorem serverFirst (h : ∀ e, scramClientSort (.scramParse e) → E (perr e)) (x : Bytes) :
    ParseRaises E (ServerFirst.parse x) := by
  constructor
  intro e he
  obtain ⟨ps, f, hf, hw, rfl⟩ := (C77_server_first x e).1 he
  refine h f ?_
  cases hw with
  | short => exact .inl rfl
  | noSalt => exact .inl rfl
  | noCount => exact .inl rfl
  | mandatory => exact .inr (.inl rfl)
  | notNonce => exact .inr (.inr (.inr ⟨_, rfl⟩))
  | notSalt => exact .inr (.inr (.inr ⟨_, rfl⟩))
  | notCount => exact .inr (.inr (.inr ⟨_, rfl⟩))
  | more => exact .inr (.inr (.inr ⟨_, rfl⟩))

theorem clientFinal (h : ∀ e, scramServerSort true (.scramParse e) → E (perr e)) (x : Bytes) :
    ParseRaises E (ClientFinal.parse x) := by
  constructor
  intro e he
  obtain ⟨ps, f, hf, hw, rfl⟩ := (C77_client_final x e).1 he
  have hc : ∀ p ∈ ps, 44 ∉ p := (splitOn_eq_iff.1 (fields_iff.1 hf)).2.1
  refine h f ?_
  cases hw with
  | notBinding ho => exact ho.ne_comma hf (by simp)
  | notNonce ho => exact ho.ne_comma hf (by simp)
  | more _ => exact fun h => hc _ (by simp; exact .inr (.inr (.inr (.inr (.inl rfl))))) (by simp [h])
  | _ => trivial

theorem serverFinal (h : ∀ e, scramClientSort (.scramParse e) → E (perr e)) (x : Bytes) :
    ParseRaises E (ServerFinal.parse x) := by
  constructor
  intro e he
  obtain ⟨b, _, rfl⟩ := (C77_server_final x e).1 he
  exact h _ (.inr (.inr (.inr ⟨_, rfl⟩)))

theorem checkServerFirst (h : ∀ e, scramClientSort (.scramParse e) → E (perr e))
    (hp : ∀ e, E (protoErr e)) (n x : Bytes) : ParseRaises E (Scram.checkServerFirst n x) := by
  unfold Scram.checkServerFirst
  refine bind (serverFirst h _) fun _ => ?_
  split
  · exact err (hp _)
  · split
    · exact err (hp _)
    · refine bind (utf8 (h _ (.inr (.inr (.inl rfl)))) _) fun _ => ?_
      split
      · exact err (hp _)
      · split
        · exact err (hp _)
        · split
          · exact err (hp _)
          · exact ok _

/-- Read a message, and go on with it. -/
theorem andThen {o : Outcome α} {f : α → M S β} (h : ParseRaises E o)
    (hf : ∀ a, o = .ok a → Raises E (f a)) : Raises E (M.liftOutcome o >>= f) := by
  cases o with
  | ok a => exact ⟨fun s w e he => (hf a rfl).errs s w e he⟩
  | err e => exact ⟨fun s w e' he => by cases he; exact h.errs _ rfl⟩
  | panic => exact ⟨nofun⟩

theorem lift {o : Outcome α} (h : ParseRaises E o) : Raises E (M.liftOutcome o : M S α) :=
  Raises.liftOutcome h.errs

end ParseRaises

theorem escapeM_raises (h : ∀ x, scramClientSort (.saslName x) → E (.mechanismError (.saslName x)))
    (x : Str) : Raises E (escapeM x : M S Str) := by
  unfold escapeM
  split
  · exact .pure _
  · next e he =>
    refine .fail (h _ ?_)
    unfold escape at he
    repeat' (first | (cases he <;> first | exact .inl rfl | exact .inr rfl) | split at he)

theorem generateNonce_raises (n : Nat) : Raises E (generateNonce n : M S Bytes) := by
  unfold generateNonce
  exact Raises.bind (.draw _) fun _ => .pure _

/-- The errors of a step of the client, from a given state: channel binding data can only be
missing if the client is to begin with channel bindings. -/
theorem client_raises {a : Auth} (d : Digest) (n : Nat) {input : Option Bytes} (st : CS)
    (ha : (∃ h b, a = .scramClient h b) ∨ ∃ h, a = .scramClientPlus h)
    (hcb : WantsCb st → ∃ h, a = .scramClientPlus h)
    (hE : ∀ e, clientErrors input a e → E e) (henv : env.ErrsIn E) (w : World) (e : SessionError)
    (he : (clientStep d n env input st w).1 = .err e) : E e := by
  have hS : ∀ e, scramClientErrors input e → E e := by
    intro e h
    refine hE _ ?_
    rcases ha with ⟨_, _, rfl⟩ | ⟨_, rfl⟩
    · exact h
    · exact .inl h
  have hsasl : ∀ x, scramClientSort (.saslName x) → E (.mechanismError (.saslName x)) :=
    fun x h => hS _ (.inr (.inr (.inr (.inl h))))
  have hio : ∀ x, E (.io x) := fun x => hS _ (.inl trivial)
  have hmiss : ∀ p ∈ [Property.authId, .password], E (.callbackError (.noCallback p)) :=
    fun p hp => hS _ (.inr (.inl hp))
  have hidr : input = none → E .inputDataRequired := fun hi => hS _ (.inr (.inr (.inl ⟨rfl, hi⟩)))
  have hparse : ∀ x, scramClientSort (.scramParse x) → E (perr x) :=
    fun x h => hS _ (.inr (.inr (.inr (.inl h))))
  have hproto : ∀ x, E (protoErr x) := fun x => hS _ (.inr (.inr (.inr (.inl trivial))))
  have hserv : ∀ x, E (.mechanismError (.scramServer x)) :=
    fun x => hS _ (.inr (.inr (.inr (.inl trivial))))
  have hmut : E .mutualAuthenticationFailed := hS _ (.inr (.inr (.inr (.inr rfl))))
  have hm : ∀ plus, st = some (.initial plus) → plus = .supported →
      ∀ name, E (.missingChannelBindingData name) := by
    rintro plus rfl rfl name
    obtain ⟨h, rfl⟩ := hcb rfl
    refine hE _ ?_; lookup
  have hp : ∀ b, Raises E (pushHeader b) := fun b => Raises.modify _
  have hs : ∀ b, Raises E (setCbdata b) := fun b => Raises.modify _
  have key : Raises E (do
      M.set none
      match st with
      | some (.initial plus) => do
        let new ← M.withLocal {} (sendClientFirst n env plus)
        M.set (some new)
        pure .running
      | some (.clientFirst cb nonce username) => do
        let serverFirst ← M.okOr .inputDataRequired input
        let new ← handleServerFirst d env cb nonce username serverFirst
        M.set (some new)
        pure .running
      | some (.serverFirst verifier ck sk salt iterations) => do
        let serverFinal ← M.okOr .inputDataRequired input
        handleServerFinal env verifier ck sk salt iterations serverFinal
        pure (.finished .no)
      | none => M.panic : M CS State) := by
    refine Raises.bind (.set _) fun _ => ?_
    split
    · next plus =>
      refine Raises.bind (Raises.withLocal ?_) fun _ => Raises.bind (.set _) fun _ => .pure _
      unfold sendClientFirst
      have hc : Raises E (clientCb env plus) := by
        cases plus with
        | serverNoSupport => exact hp _
        | clientNoSupport => exact hp _
        | supported =>
          have hm := hm _ rfl rfl
          unfold clientCb
          refine Raises.bind (hp _) fun _ => Raises.bind (Raises.ask henv fun _ =>
            Raises.bind (Raises.modify _) fun _ => .pure _) fun o => ?_
          split
          · exact Raises.needCbData henv hs (hm _)
          · refine Raises.bind (Raises.maybeNeedCbData henv fun _ => Raises.bind (hp _) fun _ => hs _)
              fun o => ?_
            split
            · exact .pure _
            · exact Raises.needCbData henv (fun _ => Raises.bind (hp _) fun _ => hs _) (hm _)
      refine Raises.bind hc fun _ => Raises.bind (hp _) fun _ =>
        Raises.bind (Raises.ask henv fun z => ?_) fun _ => Raises.bind (hp _) fun _ =>
        Raises.bind (Raises.needWith henv
          (fun _ => escapeM_raises (fun _ h => .inl (hsasl _ h)) _) (hmiss _ (by listed))) fun _ =>
        Raises.bind (generateNonce_raises _) fun _ => Raises.bind .get fun _ =>
        Raises.bind (.writeVectored hio) fun _ => ?_
      · unfold clientAuthzid
        exact Raises.bind (Raises.modify _) fun _ => Raises.bind
          (escapeM_raises (fun _ h => .inl (hsasl _ h)) _) fun _ => Raises.modify _
      · split <;> exact .pure _
    · refine Raises.bind (Raises.okOr hidr) fun _ => Raises.bind ?_ fun _ =>
        Raises.bind (.set _) fun _ => .pure _
      unfold handleServerFirst
      refine Raises.bind (ParseRaises.lift (ParseRaises.checkServerFirst hparse hproto _ _)) fun _ =>
        Raises.bind ?_ fun _ => Raises.bind (.writeVectored hio) fun _ => .pure _
      unfold clientKeys
      refine Raises.bind (Raises.ask henv fun c => ?_) fun o => ?_
      · unfold useCached
        split
        · exact .pure _
        · exact .panic
      · split
        · exact .pure _
        · refine Raises.bind (Raises.ask henv fun c => ?_) fun o => ?_
          · unfold useSalted
            split
            · exact .fail (.inr rfl)
            · exact .pure _
          · split
            · exact .pure _
            · exact Raises.needWith henv (fun _ => .pure _) (hmiss _ (by listed))
    · refine Raises.bind (Raises.okOr hidr) fun _ => Raises.bind ?_ fun _ => .pure _
      unfold handleServerFinal
      refine Raises.bind (ParseRaises.lift (ParseRaises.serverFinal hparse _)) fun m => ?_
      split
      · split
        · exact .fail (hproto _)
        · split
          · exact Raises.bind .attempt fun _ => .pure _
          · exact .fail hmut
      · exact .fail (hserv _)
    · exact .panic
  have hk : clientStep d n env input st w = _ := M.bind_ok (M.get_apply st w)
  rw [hk] at he
  exact key.errs st w e he

theorem asciiStr_binding {name : Bytes} (h : CbFlag.Valid (.used name)) :
    BindingName (asciiStr name) := by
  have key : ∀ k : Fin 256, cbNameByte (UInt8.ofNat k.val) = true →
      let c := Char.ofNat (UInt8.ofNat k.val).toNat
      ('a' ≤ c ∧ c ≤ 'z') ∨ ('A' ≤ c ∧ c ≤ 'Z') ∨ ('0' ≤ c ∧ c ≤ '9') ∨ c = '.' ∨ c = '-' := by
    decide +kernel
  refine ⟨fun h' => h.1 (List.map_eq_nil_iff.1 h'), fun c hc => ?_⟩
  obtain ⟨x, hx, rfl⟩ := List.mem_map.1 hc
  have hk := key ⟨x.toNat, u8_lt x⟩
  simp only [UInt8.ofNat_toNat] at hk
  exact hk (h.2 x hx)

/-- The errors of a step of the server, from a given state: it complains about a client that does
without channel bindings only if it begins with them. -/
theorem server_raises (d : Digest) (n : Nat) {input : Option Bytes} {canCb : Bool} (st : SS)
    (hst : ∀ c, st = some (.waitingClientFirst c) → c = canCb)
    (hE : ∀ e, scramServerErrors input canCb e → E e) (henv : env.ErrsIn E) (w : World)
    (e : SessionError) (he : (serverStep d n env input st w).1 = .err e) : E e := by
  have hio : ∀ x, E (.io x) := fun x => hE _ (.inl trivial)
  have hidr : input = none → E .inputDataRequired := fun hi => hE _ (.inr (.inl ⟨rfl, hi⟩))
  have href : ∀ x, E (.validationError x) := fun x => hE _ (.inr (.inr (.inl trivial)))
  have hmech : ∀ x, scramServerSort canCb x → E (.mechanismError x) :=
    fun x h => hE _ (.inr (.inr (.inr (.inl h))))
  have hparse : ∀ x, scramServerSort true (.scramParse x) → E (perr x) :=
    fun x h => hmech _ (by cases x <;> exact h)
  have hcb : ∀ name, BindingName name → E (.missingChannelBindingData name) :=
    fun name h => hE _ (.inr (.inr (.inr (.inr (.inl ⟨_, rfl, h⟩)))))
  have hdone : E .mechanismDone := hE _ (.inr (.inr (.inr (.inr (.inr rfl)))))
  have key : Raises E (do
      M.set none
      match st with
      | some (.waitingClientFirst canCb) => do
        let input ← M.okOr .inputDataRequired input
        let msg ← M.liftOutcome (ClientFirst.parse input)
        let new ← M.withLocal msg.gs2Header (handleClientFirst d n env canCb msg)
        M.set (some new)
        pure .running
      | some (.waitingClientFinal data) => do
        let input ← M.okOr .inputDataRequired input
        handleClientFinal d env data input
        M.set (some .finished)
        pure (.finished .yes)
      | some .finished => M.fail .mechanismDone
      | none => M.panic : M SS State) := by
    refine Raises.bind (.set _) fun _ => ?_
    split
    · next c =>
      have hc : c = canCb := hst c rfl
      subst hc
      refine Raises.bind (Raises.okOr hidr) fun i => ?_
      refine ParseRaises.andThen (ParseRaises.clientFirst hparse i) fun msg hmsg =>
        Raises.bind (Raises.withLocal ?_) fun _ => Raises.bind (.set _) fun _ => .pure _
      unfold handleClientFirst
      refine Raises.bind ?_ fun _ => Raises.bind (Raises.ask henv fun p => ?_) fun params =>
        Raises.bind (generateNonce_raises _) fun _ => ?_
      · unfold serverCb
        split
        · split
          · next h => exact .fail (hmech _ h)
          · exact .pure _
        · exact .pure _
        · next name hname =>
          refine Raises.needCbData henv (fun _ => Raises.modify _) (hcb _ (asciiStr_binding ?_))
          have := (ClientFirst.parse_eq_ok.1 hmsg).1
          rw [hname] at this
          exact this
      · unfold useStored
        split
        · exact .fail (.inl (hmech _ trivial))
        · exact .pure _
      · split
        · exact Raises.bind (.writeVectored hio) fun _ => Raises.bind .get fun _ => .pure _
        · exact Raises.bind (.draw _) fun _ => Raises.bind (.writeVectored hio) fun _ => .pure _
    · refine Raises.bind (Raises.okOr hidr) fun i => Raises.bind ?_ fun _ => .bind (.set _) fun _ => .pure _
      unfold handleClientFinal
      refine ParseRaises.andThen (ParseRaises.clientFinal hparse _) fun m _ =>
        Raises.bind (Raises.lift fun e he => ?_) fun r => ?_
      · unfold judge at he
        dsimp only at he
        repeat' (first | (cases he <;> exact hmech _ rfl) | split at he)
      · split
        · exact Raises.bind (.writeVectored hio) fun _ => .validate href
        · exact .writeVectored hio
    · exact .fail hdone
    · exact .panic
  have hk : serverStep d n env input st w = _ := M.bind_ok (M.get_apply st w)
  rw [hk] at he
  exact key.errs st w e he

end Scram

/-! ## Sessions -/

namespace Scram

/-- A SCRAM server waits for the first message only to begin with. -/
theorem server_later (d : Digest) (env : Env) (input : Option Bytes) (s : SS)
    (w : World) (b : Bool) : (serverStep d nonceLen env input s w).2.1 ≠ some (.waitingClientFirst b) := by
  suffices h : Post (serverStep d nonceLen env input) s (validations w.log)
      (fun _ s' _ => s' ≠ some (.waitingClientFirst b)) from h w rfl
  unfold serverStep
  refine Post.bind (Post.get (Seq.ok (Post.bind (Post.set (Seq.ok ?_)))))
  rcases s with _ | s
  · exact Post.panic nofun
  · cases s with
    | waitingClientFirst c =>
      refine Post.bind (Post.okOr (fun a _ => ?_) (fun hn => nofun))
      refine Seq.ok (Post.bind (Post.liftOutcome ?_))
      generalize ClientFirst.parse a = r
      cases r with
      | err e => exact nofun
      | panic => exact nofun
      | ok msg =>
        refine Seq.ok (Post.bind ((Calm.withLocal (P := fun s : SS => s = none)
          (handleClientFirst_calm std_true env.errs_true d nonceLen c msg) none _ rfl).mono ?_))
        rintro o s' vs' ⟨rfl, rfl, h2, h3⟩
        cases o with
        | ok a =>
          obtain ⟨_, rfl⟩ := h2 a rfl
          exact Seq.ok (Post.bind (Post.set (Seq.ok (Post.pure nofun))))
        | err e => exact nofun
        | panic => exact nofun
    | waitingClientFinal data =>
      refine Post.bind (Post.okOr (fun a _ => ?_) (fun hn => nofun))
      refine Seq.ok (Post.bind ((handleClientFinal_post std_true d data a none _).mono ?_))
      rintro o s' vs' ⟨rfl, h2, h3⟩
      cases o with
      | ok a => exact Seq.ok (Post.bind (Post.set (Seq.ok (Post.pure nofun))))
      | err e => exact nofun
      | panic => exact nofun
    | finished => exact Post.fail nofun

theorem server_begins (d : Digest) (env : Env) (b : Bool) (ops : List Op) (ses : Session SS)
    (hs : ∀ c, ses.st = some (.waitingClientFirst c) → c = b) (c : Bool)
    (h : (ses.afterAll (server d) env ops).st = some (.waitingClientFirst c)) : c = b := by
  induction ops generalizing ses with
  | nil => exact hs c h
  | cons op ops ih =>
    refine ih (ses.perform (server d) env op).2 ?_ h
    intro c' hc'
    cases op with
    | step x => exact absurd hc' (server_later d env _ _ _ _)
    | step64 x =>
      replace hc' : (ses.step64 (server d) env x).2.st = _ := hc'
      unfold Session.step64 at hc'
      split at hc'
      · split at hc'
        · exact hs _ hc'
        · exact absurd hc' (server_later d env _ _ _ _)
      · exact absurd hc' (server_later d env _ _ _ _)
    | encode i sched => exact hs _ hc'
    | decode i sched => exact hs _ hc'
    | validation => exact hs _ hc'

end Scram

/-- What a mechanism's code keeps true of its state holds after any calls. -/
theorem Within.keeps {t : Contacts} {st : Started} {P : st.mech.S → Prop}
    (hstep : ∀ env input, Within t P (st.mech.step env input))
    (henc : ∀ input, Within t P (st.mech.encode input))
    (hdec : ∀ input, Within t P (st.mech.decode input)) (env : Env) (ops : List Op) :
    ∀ (ses : Session st.mech.S), P ses.st → P (ses.afterAll st.mech env ops).st := by
  have hex : ∀ {α : Type} {m : M st.mech.S α}, Within t P m → ∀ (ses : Session st.mech.S), P ses.st →
      ∀ sched, P (ses.exec m sched).2.st := fun h ses hP sched =>
    (h.logs ses.st { wr := ⟨[], sched⟩, rng := ses.rng, slot := ses.slot, log := ses.log } hP).1
  induction ops with
  | nil => exact fun _ h => h
  | cons op ops ih =>
    intro ses hP
    refine ih (ses.perform st.mech env op).2 ?_
    cases op with
    | step c => exact hex (hstep env c.input) ses hP c.sched
    | step64 c =>
      show P (ses.step64 st.mech env c).2.st
      unfold Session.step64
      split
      · split
        · exact hP
        · exact hex (hstep env _) ses hP c.sched
      · exact hex (hstep env _) ses hP c.sched
    | encode i sched => exact hex (henc i) ses hP sched
    | decode i sched => exact hex (hdec i) ses hP sched
    | validation => exact hP

theorem Session.step_res (m : Mech) (env : Env) (ses : Session m.S) (c : Call) :
    (ses.step m env c).1.res = (m.step env c.input ses.st
      { wr := ⟨[], c.sched⟩, rng := ses.rng, slot := ses.slot, log := ses.log }).1 := rfl

theorem Raises.step {m : Mech} {c : Call} (h : Raises E (m.step env c.input))
    (ses : Session m.S) (e : SessionError) (he : (ses.step m env c).1.res = .err e) : E e :=
  h.errs _ _ e he

/-- C67, clients: after any calls, a step ends with an error from the table, or with one that the
callback came up with. -/
theorem C67_client (deps : Deps) (a : Auth) (st : Started) (h : a.startClient deps = some st)
    (env : Env) (rng : Nat → Nat) (ops : List Op) (c : Call) (E : SessionError → Prop)
    (hE : ∀ e, clientErrors c.input a e → E e) (henv : env.ErrsIn E) (e : SessionError)
    (he : (((st.session rng).afterAll st.mech env ops).step st.mech env c).1.res = .err e) : E e := by
  have hf : ∀ {S α : Type} {t : Contacts} {P : S → Prop}, Within t P (M.fail .noSecurityLayer : M S α) :=
    Within.fail _
  cases a <;> cases h
  · exact (Plain.client_raises hE henv).step _ e he
  · exact (Login.client_raises hE henv).step _ e he
  · exact (External.client_raises hE henv).step _ e he
  · exact (Anonymous.client_raises hE henv).step _ e he
  · exact (XOAuth2.client_raises hE henv).step _ e he
  · exact (OAuthBearer.client_raises _ hE henv).step _ e he
  · exact (Gssapi.client_raises _ hE henv).step _ e he
  · next h b =>
    have hP : ¬ Scram.WantsCb ((Started.session ⟨Scram.client (deps.digest h), Scram.clientNew b⟩ rng).afterAll
        (Scram.client (deps.digest h)) env ops).st := by
      refine Within.keeps (st := ⟨Scram.client (deps.digest h), Scram.clientNew b⟩)
        (t := clientContacts (.scramClient h b))
        (P := fun st => ¬ Scram.WantsCb st) (fun _ _ => Scram.client_within _ _ _
        (by listed) (by listed) ?_ (by listed) (fun _ h1 h2 => absurd h2 h1) (fun _ h => h))
        (fun _ => hf) (fun _ => hf) env ops _ ?_
      · intro p hp
        simp only [List.mem_cons, List.not_mem_nil, or_false] at hp
        rcases hp with rfl | rfl | rfl <;> listed
      · show ¬ Scram.WantsCb (Scram.clientNew b)
        unfold Scram.WantsCb Scram.clientNew
        cases b <;> nofun
    rw [Session.step_res] at he
    exact Scram.client_raises _ _ _ (.inl ⟨h, b, rfl⟩) (fun hw => absurd hw hP) hE henv _ e he
  · next h =>
    rw [Session.step_res] at he
    exact Scram.client_raises _ _ _ (.inr ⟨h, rfl⟩) (fun _ => ⟨h, rfl⟩) hE henv _ e he

/-- C67, servers. -/
theorem C67_server (deps : Deps) (a : Auth) (st : Started) (h : a.startServer deps = some st)
    (env : Env) (rng : Nat → Nat) (ops : List Op) (c : Call) (E : SessionError → Prop)
    (hE : ∀ e, serverErrors c.input a e → E e) (henv : env.ErrsIn E) (e : SessionError)
    (he : (((st.session rng).afterAll st.mech env ops).step st.mech env c).1.res = .err e) : E e := by
  cases a <;> cases h
  · exact (Plain.server_raises _ hE).step _ e he
  · exact (Login.server_raises hE).step _ e he
  · exact (External.server_raises hE).step _ e he
  · exact (Anonymous.server_raises hE).step _ e he
  · exact (XOAuth2.server_raises hE henv).step _ e he
  · exact (OAuthBearer.server_raises _ hE henv).step _ e he
  · exact (Gssapi.server_raises _ hE henv).step _ e he
  · rw [Session.step_res] at he
    exact Scram.server_raises _ _ _ (Scram.server_begins _ _ _ ops _ fun _ h => by cases h; rfl) hE henv _ e he
  · rw [Session.step_res] at he
    exact Scram.server_raises _ _ _ (Scram.server_begins _ _ _ ops _ fun _ h => by cases h; rfl) hE henv _ e he

/-- C67, `encode` and `decode`: whatever the session has been through. -/
theorem C67_layer (deps : Deps) (a : Auth) (st : Started)
    (h : a.startClient deps = some st ∨ a.startServer deps = some st) (ses : Session st.mech.S)
    (input : Bytes) (sched : List WResp) (e : SessionError)
    (he : (ses.encode st.mech input sched).1.res = .err e ∨
      (ses.decode st.mech input sched).1.res = .err e) : layerErrors a e := by
  have hf : ∀ {S α : Type} {E : SessionError → Prop}, E .noSecurityLayer →
    Raises E (M.fail .noSecurityLayer : M S α) := Raises.fail
  have key : ∀ {m : Mech}, (∀ i, Raises (layerErrors a) (m.encode i)) →
      (∀ i, Raises (layerErrors a) (m.decode i)) → ∀ ses : Session m.S,
      ((ses.encode m input sched).1.res = .err e ∨ (ses.decode m input sched).1.res = .err e) →
      layerErrors a e := by
    intro m h1 h2 ses he
    rcases he with he | he
    · exact (h1 input).errs _ _ e he
    · exact (h2 input).errs _ _ e he
  rcases h with h | h <;> cases a <;> cases h
  all_goals first
    | exact key (fun _ => hf (.inl rfl)) (fun _ => hf (.inl rfl)) ses he
    | exact key (fun i => (Gssapi.layers_raises _ (fun _ h => h) i).1)
        (fun i => (Gssapi.layers_raises _ (fun _ h => h) i).2.1) ses he
    | exact key (fun i => (Gssapi.layers_raises _ (fun _ h => h) i).2.2.1)
        (fun i => (Gssapi.layers_raises _ (fun _ h => h) i).2.2.2) ses he

/-- C67, `step64`: besides the errors of `step` only text that is not base64. -/
theorem C67_step64 (m : Mech) (env : Env) (ses : Session m.S) (c : Call) (e : SessionError)
    (he : (ses.step64 m env c).1.res = .err e) :
    (e = .base64 ∧ ∃ text, c.input = some text ∧ Base64.decode text = none) ∨
    ∃ input, (c.input = none ↔ input = none) ∧ (ses.step m env ⟨input, c.sched⟩).1.res = .err e := by
  unfold Session.step64 at he
  split at he
  · next text ht =>
    split at he
    · next hd => cases he; exact .inl ⟨rfl, text, ht, hd⟩
    · next bytes hd => exact .inr ⟨some bytes, by rw [ht]; simp, he⟩
  · next ht =>
    refine .inr ⟨none, by rw [ht], ?_⟩
    rw [← ht]; exact he

/-! ## What the documentation says of errors -/

/-- A session of a mechanism of the library. -/
def Spec.Shipped (deps : Deps) (a : Auth) (st : Started) : Prop :=
  a.startClient deps = some st ∨ a.startServer deps = some st

/-- The callback does not itself return the error `x`. -/
def Spec.Withholds (env : Env) (x : SessionError) : Prop := env.ErrsIn (· ≠ x)

theorem Env.errsIn_of_ne {x : SessionError} (hx : x = earlyReturn ∨ x = .callbackError .noValue)
    (env : Env) : env.ErrsIn (· ≠ x) := by
  have : (fun e : SessionError => e ≠ x ∨ e = earlyReturn ∨ e = .callbackError .noValue) =
      fun _ => True := by
    funext e
    refine eq_true ?_
    by_cases h : e = x
    · rw [h]; exact .inr hx
    · exact .inl h
  unfold Env.ErrsIn
  rw [this]
  exact Env.errs_true env

/-- An error in none of the tables of a mechanism is never returned, unless by the callback. -/
theorem Spec.never {deps : Deps} {a : Auth} {st : Started} (h : Shipped deps a st) (env : Env)
    (rng : Nat → Nat) (ops : List Op) (c : Call) (x : SessionError)
    (hc : a.startClient deps = some st → ¬ clientErrors c.input a x)
    (hs : a.startServer deps = some st → ¬ serverErrors c.input a x) (henv : Withholds env x) :
    (((st.session rng).afterAll st.mech env ops).step st.mech env c).1.res ≠ .err x := by
  intro he
  rcases h with h | h
  · exact C67_client deps a st h env rng ops c (· ≠ x) (fun e he h' => hc h (h' ▸ he)) henv x he rfl
  · exact C67_server deps a st h env rng ops c (· ≠ x) (fun e he h' => hs h (h' ▸ he)) henv x he rfl

/-- "Only mechanisms that perform mutual authentication can return this error, and it will only ever
be returned on the client side": `MutualAuthenticationFailed` is for SCRAM clients. -/
theorem C67_mutual (deps : Deps) (a : Auth) (st : Started) (h : Shipped deps a st) (env : Env)
    (henv : Withholds env .mutualAuthenticationFailed) (rng : Nat → Nat) (ops : List Op) (c : Call)
    (he : (((st.session rng).afterAll st.mech env ops).step st.mech env c).1.res =
      .err .mutualAuthenticationFailed) :
    a.startClient deps = some st ∧ ((∃ h b, a = .scramClient h b) ∨ ∃ h, a = .scramClientPlus h) := by
  refine Classical.byContradiction fun hn => never h env rng ops c _ ?_ ?_ henv he
  · intro hst
    cases a <;> first
      | exact absurd ⟨hst, .inl ⟨_, _, rfl⟩⟩ hn
      | exact absurd ⟨hst, .inr ⟨_, rfl⟩⟩ hn
      | simp [clientErrors, isIo, isWriteAll, isMissing, isMech, isInputless]
  · intro hst
    cases a <;> simp [serverErrors, scramServerErrors, isIo, isWriteAll, isMissing, isMech, isInputless, isRefused]

/-- "Mechanism was called without input data when requiring some": never with input. -/
theorem C67_input (deps : Deps) (a : Auth) (st : Started) (h : Shipped deps a st) (env : Env)
    (henv : Withholds env .inputDataRequired) (rng : Nat → Nat) (ops : List Op) (c : Call)
    (he : (((st.session rng).afterAll st.mech env ops).step st.mech env c).1.res =
      .err .inputDataRequired) : c.input = none := by
  refine Classical.byContradiction fun hn => never h env rng ops c _ ?_ ?_ henv he <;> intro _ <;>
    cases a <;> simp [clientErrors, serverErrors, scramClientErrors, scramServerErrors, isIo, isWriteAll, isMissing, isMech, isInputless, isRefused, hn]

/-- The early return of `satisfy` is for the callback alone: no step ends with it, whatever the
callback does. -/
theorem C67_early (deps : Deps) (a : Auth) (st : Started) (h : Shipped deps a st) (env : Env)
    (rng : Nat → Nat) (ops : List Op) (c : Call) :
    (((st.session rng).afterAll st.mech env ops).step st.mech env c).1.res ≠ .err earlyReturn := by
  refine never h env rng ops c _ ?_ ?_ (Env.errsIn_of_ne (.inl rfl) env) <;> intro _ <;>
    cases a <;>
    simp [clientErrors, serverErrors, scramClientErrors, scramServerErrors, isIo, isWriteAll, isMissing, isMech, isInputless, isRefused, earlyReturn]

/-- A callback that says `NoValue` is taken to have no value; only when it is told of an error of
XOAUTH2 or OAUTHBEARER does that end the step. -/
theorem C67_noValue (deps : Deps) (a : Auth) (st : Started) (h : Shipped deps a st) (env : Env)
    (rng : Nat → Nat) (ops : List Op) (c : Call)
    (he : (((st.session rng).afterAll st.mech env ops).step st.mech env c).1.res =
      .err (.callbackError .noValue)) :
    a.startClient deps = some st ∧ (a = .xoauth2 ∨ a = .oauthbearer) := by
  refine Classical.byContradiction fun hn =>
    never h env rng ops c _ ?_ ?_ (Env.errsIn_of_ne (.inr rfl) env) he <;> intro hst <;>
    cases a <;>
    simp_all [clientErrors, serverErrors, scramClientErrors, scramServerErrors, isIo, isWriteAll, isMissing, isMech, isInputless, isRefused]

/-- Errors that no step of a mechanism of the library ends with by itself. -/
theorem C67_unused (deps : Deps) (a : Auth) (st : Started) (h : Shipped deps a st) (env : Env)
    (rng : Nat → Nat) (ops : List Op) (c : Call) (x : SessionError)
    (hx : x = .noValidate ∨ x = .noSecurityLayer ∨ x = .base64 ∨ ∃ n, x = .boxed n)
    (henv : Withholds env x) :
    (((st.session rng).afterAll st.mech env ops).step st.mech env c).1.res ≠ .err x := by
  refine never h env rng ops c _ ?_ ?_ henv <;> intro _ <;> rcases hx with rfl | rfl | rfl | ⟨n, rfl⟩ <;>
    cases a <;>
    simp [clientErrors, serverErrors, scramClientErrors, scramServerErrors, isIo, isWriteAll, isMissing, isMech, isInputless, isRefused]

/-- A mechanism error of kind `Outcome` means that the server of a SCRAM client refused. -/
theorem C67_outcome (deps : Deps) (a : Auth) (st : Started) (h : Shipped deps a st) (env : Env)
    (rng : Nat → Nat) (ops : List Op) (c : Call) (x : MechErr) (hx : x.kind = some .outcome)
    (henv : Withholds env (.mechanismError x))
    (he : (((st.session rng).afterAll st.mech env ops).step st.mech env c).1.res =
      .err (.mechanismError x)) :
    a.startClient deps = some st ∧ ((∃ h b, a = .scramClient h b) ∨ ∃ h, a = .scramClientPlus h) ∧
      ∃ v, x = .scramServer v := by
  have hv : ∃ v, x = .scramServer v := by cases x <;> first | exact ⟨_, rfl⟩ | cases hx
  obtain ⟨v, rfl⟩ := hv
  refine Classical.byContradiction fun hn => never h env rng ops c _ ?_ ?_ henv he
  · intro hst
    cases a <;> first
      | exact absurd ⟨hst, .inl ⟨_, _, rfl⟩, _, rfl⟩ hn
      | exact absurd ⟨hst, .inr ⟨_, rfl⟩, _, rfl⟩ hn
      | simp [clientErrors, isIo, isWriteAll, isMissing, isMech, isInputless, gssSort]
  · intro hst
    cases a <;> simp [serverErrors, scramServerErrors, isIo, isWriteAll, isMissing, isMech, isInputless, isRefused, gssSort,
      scramServerSort]

/-- A session stops for want of a property only if that property cannot be done without. -/
theorem C67_missing (deps : Deps) (a : Auth) (st : Started) (h : Shipped deps a st) (env : Env)
    (rng : Nat → Nat) (ops : List Op) (c : Call) (p : Property)
    (henv : Withholds env (.callbackError (.noCallback p)))
    (he : (((st.session rng).afterAll st.mech env ops).step st.mech env c).1.res =
      .err (.callbackError (.noCallback p))) :
    p ∈ [Property.authId, .password, .oauthBearerToken, .xoauth2Error, .oauthBearerErrored,
      .xoauth2Validate, .oauthBearerValidate, .gssService, .hostname] := by
  refine Classical.byContradiction fun hn => never h env rng ops c _ ?_ ?_ henv he <;> intro hst <;>
    cases a <;>
    simp_all [clientErrors, serverErrors, scramClientErrors, scramServerErrors, isIo, isWriteAll, isMissing, isMech, isInputless, isRefused]

/-! ## Examples -/

/-- A callback without answers makes PLAIN stop for want of the authentication identity. -/
example : ((Started.session ⟨Plain.client, ()⟩ fun _ => 0).step Plain.client (exampleEnv [])
    ⟨none, []⟩).1.res = .err (.callbackError (.noCallback .authId)) := by decide +kernel

/-- A callback without answers returns no errors of its own: the theorems apply to it. -/
example (x : SessionError) : Withholds (exampleEnv []) x := fun _ _ => nofun

/-- A SCRAM client refuses a server that cannot prove itself. -/
example : (Session.step (Scram.client toyDigest) (exampleEnv [])
    { st := some (.serverFirst (b!"sig") [] [] [] 1), rng := fun _ => 0 }
    ⟨some (b!"v=AAAA"), []⟩).1.res = .err .mutualAuthenticationFailed := by decide +kernel

/-- A server called without input. -/
example : ((Started.session ⟨Plain.server some, ()⟩ fun _ => 0).step (Plain.server some)
    (exampleEnv []) ⟨none, []⟩).1.res = .err .inputDataRequired := by decide +kernel

/-- An XOAUTH2 client whose callback has nothing to say to the server's error. -/
example : (Session.step XOAuth2.client
    ⟨fun _ _ _ => .ret (.error (.callbackError .noValue)), fun _ _ _ => .ret (.ok ()), fun _ => none, 0,
      (exampleEnv []).sd⟩
    { st := .waitingServerResponse, rng := fun _ => 0 } ⟨some (b!"x"), []⟩).1.res =
    .err (.callbackError .noValue) := by decide +kernel

end Rsasl

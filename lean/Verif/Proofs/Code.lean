/-
What the code of a mechanism is made of. Facts that hold for every such code are proved by
induction on this; all built-in mechanisms are made of it.
-/
import Verif.Proofs.Silent
import Verif.Model.Link
import Verif.Spec.Session

namespace Rsasl

variable {S α β G : Type}

/-- Code made of the operations mechanisms have. `vec` tells whether vectored writes occur. -/
inductive Code (vec : Prop) (env : Env) : {S α : Type} → M S α → Prop where
  | pure {S α : Type} (a : α) : Code vec env (Pure.pure a : M S α)
  | fail {S α : Type} (e : SessionError) : Code vec env (M.fail e : M S α)
  | panic {S α : Type} : Code vec env (M.panic : M S α)
  | get {S : Type} : Code vec env (M.get : M S S)
  | set {S : Type} (s : S) : Code vec env (M.set s)
  | modify {S : Type} (f : S → S) : Code vec env (M.modify f)
  | draw {S : Type} (n : Nat) : Code vec env (M.draw n : M S (List Nat))
  | writeAll {S : Type} (b : Bytes) : Code vec env (M.writeAll b : M S Unit)
  | writeVectored {S : Type} (h : vec) (bs : List Bytes) (hne : bs.flatten ≠ []) :
      Code vec env (M.writeVectored bs : M S Unit)
  | writeJson {S : Type} (bs : List Bytes) : Code vec env (OAuthBearer.writeJson bs : M S Unit)
  | bind {S α β : Type} {m : M S α} {f : α → M S β} :
      Code vec env m → (∀ a, Code vec env (f a)) → Code vec env (m >>= f)
  | withLocal {S T α : Type} (t : T) {m : M (S × T) α} :
      Code vec env m → Code vec env (M.withLocal t m)
  | ask {S G : Type} (p : Property) (ctx : Provider) {f : p.Value → M S G} :
      (∀ v, Code vec env (f v)) → Code vec env (maybeNeedWith env p ctx f)
  | action {S : Type} (p : Property) (ctx : Provider) (v : p.Value) :
      Code vec env (action env p ctx v : M S Unit)
  | tryAction {S : Type} (p : Property) (ctx : Provider) (v : p.Value) :
      Code vec env (M.attempt (Rsasl.action env p ctx v) : M S (Except SessionError Unit))
  | validate {S : Type} (ctx : Provider) : Code vec env (validate env ctx : M S Unit)

namespace Code

variable {vec : Prop} {env : Env}

theorem okOr (e : SessionError) (o : Option α) : Code vec env (M.okOr e o : M S α) := by
  cases o with
  | none => exact fail e
  | some a => exact Code.pure a

theorem lift (r : Except SessionError α) : Code vec env (M.lift r : M S α) := by
  cases r with
  | error e => exact fail e
  | ok a => exact Code.pure a

theorem liftOutcome (o : Outcome α) : Code vec env (M.liftOutcome o : M S α) := by
  cases o with
  | ok a => exact Code.pure a
  | err e => exact fail e
  | panic => exact panic

theorem liftGss (r : Except Nat α) : Code vec env (Gssapi.liftGss r : M S α) := by
  cases r with
  | error e => exact fail _
  | ok a => exact Code.pure a

theorem needWith (p : Property) (ctx : Provider) {f : p.Value → M S G}
    (h : ∀ v, Code vec env (f v)) : Code vec env (needWith env p ctx f) :=
  bind (ask p ctx h) fun _ => okOr _ _

theorem maybeNeedCbData (n : Str) (ctx : Provider) {f : Bytes → M S G}
    (h : ∀ v, Code vec env (f v)) : Code vec env (maybeNeedCbData env n ctx f) := by
  unfold Rsasl.maybeNeedCbData
  dsimp only
  split
  · exact bind (h _) fun _ => Code.pure _
  · exact ask _ _ h

theorem needCbData (n : Str) (ctx : Provider) {f : Bytes → M S G}
    (h : ∀ v, Code vec env (f v)) : Code vec env (needCbData env n ctx f) :=
  bind (maybeNeedCbData n ctx h) fun _ => okOr _ _

end Code

/-- Every vectored write of the mechanisms contains a literal. -/
macro "some_literal" : tactic => `(tactic|
  simp [XOAuth2.userPrefix, XOAuth2.authPrefix, XOAuth2.endMark, Scram.ClientFinal.ioslices,
    Scram.ServerFirst.ioslices, Scram.ServerFinal.ioslices])

/-- Decompose a piece of mechanism code. -/
macro "code" : tactic => `(tactic|
  repeat (first
    | exact Code.pure _ | exact Code.fail _ | exact Code.panic | exact Code.get | exact Code.set _
    | exact Code.modify _ | exact Code.draw _ | exact Code.writeAll _
    | exact Code.writeVectored trivial _ (by some_literal) | exact Code.writeJson _ | exact Code.okOr _ _
    | exact Code.lift _ | exact Code.liftOutcome _ | exact Code.liftGss _
    | exact Code.action _ _ _ | exact Code.tryAction _ _ _ | exact Code.validate _
    | assumption
    | apply Code.needWith | apply Code.ask | apply Code.needCbData | apply Code.maybeNeedCbData
    | apply Code.withLocal | apply Code.bind | intro _ | split | dsimp only))

section

variable {vec : Prop} {env : Env}

theorem Plain.client_code (input : Option Bytes) : Code vec env (Plain.clientStep env input) := by
  unfold Plain.clientStep
  have h1 : ∀ v, Code vec env (Plain.clientAuthzid v) := by unfold Plain.clientAuthzid; code
  have h2 : ∀ v, Code vec env (Plain.clientAuthid v) := by unfold Plain.clientAuthid; code
  have h3 : ∀ v, Code vec env (Plain.clientPassword v) := by unfold Plain.clientPassword; code
  have h1 := Code.ask (env := env) .authzId .empty h1
  have h2 := Code.needWith (env := env) .authId .empty h2
  have h3 := Code.needWith (env := env) .password .empty h3
  code

theorem Plain.server_code (prep : Str → Option Str) (input : Option Bytes) :
    Code vec env (Plain.serverStep prep env input) := by
  unfold Plain.serverStep; code

theorem Login.client_code (input : Option Bytes) : Code vec env (Login.clientStep env input) := by
  unfold Login.clientStep; code

theorem Login.server_code (input : Option Bytes) : Code vec env (Login.serverStep env input) := by
  unfold Login.serverStep; code

theorem External.client_code (input : Option Bytes) :
    Code vec env (External.clientStep env input) := by
  unfold External.clientStep; code

theorem External.server_code (input : Option Bytes) :
    Code vec env (External.serverStep env input) := by
  unfold External.serverStep; code

theorem Anonymous.client_code (input : Option Bytes) :
    Code vec env (Anonymous.clientStep env input) := by
  unfold Anonymous.clientStep; code

theorem Anonymous.server_code (input : Option Bytes) :
    Code vec env (Anonymous.serverStep env input) := by
  unfold Anonymous.serverStep; code

theorem XOAuth2.client_code (input : Option Bytes) :
    Code True env (XOAuth2.clientStep env input) := by
  unfold XOAuth2.clientStep; code

theorem XOAuth2.server_code (input : Option Bytes) :
    Code vec env (XOAuth2.serverStep env input) := by
  unfold XOAuth2.serverStep XOAuth2.onResult; code

theorem OAuthBearer.writeKVs_code (kvs : List (Str × Str)) :
    Code True env (OAuthBearer.writeKVs kvs : M S Unit) := by
  induction kvs with
  | nil => exact Code.pure _
  | cons kv kvs ih => unfold OAuthBearer.writeKVs; code

theorem OAuthBearer.client_code (json : OAuthBearer.Json) (input : Option Bytes) :
    Code True env (OAuthBearer.clientStep json env input) := by
  have h := fun kvs => OAuthBearer.writeKVs_code (S := OAuthCState) (env := env) kvs
  have h := Code.ask (env := env) .oauthBearerKV .empty h
  unfold OAuthBearer.clientStep; code

theorem OAuthBearer.server_code (json : OAuthBearer.Json) (input : Option Bytes) :
    Code vec env (OAuthBearer.serverStep json env input) := by
  unfold OAuthBearer.serverStep OAuthBearer.onResult; code

namespace Scram

theorem escapeM_code (x : Str) : Code vec env (escapeM x : M S Str) := by
  unfold escapeM; code

theorem generateNonce_code (n : Nat) : Code vec env (generateNonce n : M S Bytes) := by
  unfold generateNonce; code

theorem clientCb_code (plus : CbSupport) : Code vec env (clientCb env plus) := by
  unfold clientCb pushHeader setCbdata; code

theorem sendClientFirst_code (n : Nat) (plus : CbSupport) :
    Code True env (sendClientFirst n env plus) := by
  have h1 := clientCb_code (vec := True) (env := env) plus
  have h2 : ∀ v, Code True env (clientAuthzid v) := by
    intro v
    have := escapeM_code (S := CS × Gs2) (vec := True) (env := env) v
    unfold clientAuthzid pushHeader; code
  have h2 := Code.ask .authzId .empty h2
  have h3 := Code.needWith .authId .empty (escapeM_code (S := CS × Gs2) (vec := True) (env := env))
  have h4 := generateNonce_code (S := CS × Gs2) (vec := True) (env := env) n
  unfold sendClientFirst pushHeader; code

theorem clientKeys_code (d : Digest) (prov : Provider) (i : UInt32) (salt : Bytes) :
    Code vec env (clientKeys d env prov i salt) := by
  unfold clientKeys useCached useSalted usePassword; code

theorem client_code (d : Digest) (n : Nat) (input : Option Bytes) :
    Code True env (clientStep d n env input) := by
  have h1 := sendClientFirst_code (env := env) n
  have h2 := clientKeys_code (vec := True) (env := env) d
  unfold clientStep handleServerFirst handleServerFinal
  refine Code.bind .get fun st => Code.bind (.set _) fun _ => ?_
  split
  · have := Code.withLocal {} (h1 ‹_›); code
  · refine Code.bind (.okOr _ _) fun i => Code.bind (Code.bind (.liftOutcome _) ?_) ?_
    · rintro ⟨sf, sn, it, salt⟩
      refine Code.bind (h2 _ _ _) ?_
      code
    · code
  · code
  · code

theorem handleClientFirst_code (d : Digest) (n : Nat) (canCb : Bool) (msg : ClientFirst) :
    Code True env (handleClientFirst d n env canCb msg) := by
  have h1 : ∀ prov flag, Code True env (serverCb env canCb prov flag) := by
    intro prov flag
    unfold serverCb; code
  have h2 : ∀ p, Code True env (useStored (S := Hdr) d p) := by unfold useStored; code
  have h4 := generateNonce_code (S := Hdr) (vec := True) (env := env) n
  unfold handleClientFirst
  refine Code.bind (h1 _ _) fun _ => Code.bind (Code.ask _ _ h2) fun _ => ?_
  code

theorem server_code (d : Digest) (n : Nat) (input : Option Bytes) :
    Code True env (serverStep d n env input) := by
  have h1 := handleClientFirst_code (env := env) d n
  unfold serverStep handleClientFinal
  refine Code.bind .get fun st => Code.bind (.set _) fun _ => ?_
  split
  · refine Code.bind (.okOr _ _) fun i => Code.bind (.liftOutcome _) fun msg =>
      Code.bind (.withLocal _ (h1 _ msg)) fun _ => ?_
    code
  · code
  · code
  · code

end Scram

namespace Gssapi

variable (lib : Lib)

theorem clientPending_code (ctx : lib.Ctx) (input : Option Bytes) :
    Code vec env (clientPending lib env ctx input) := by
  have h1 : ∀ ctx v, Code vec env (clientAcceptable lib ctx v) := by
    unfold clientAcceptable; code
  have h1 := fun ctx => Code.ask (env := env) .gssSecurityLayer .empty (h1 ctx)
  unfold clientPending
  dsimp only
  refine Code.bind (.liftGss _) fun _ => ?_
  have h2 : Code vec env (if lib.isComplete (lib.clientStep ctx input).2 = true then (do
      let acceptable ← maybeNeedWith env .gssSecurityLayer .empty
        (clientAcceptable lib (lib.clientStep ctx input).2)
      M.set (.last (lib.clientStep ctx input).2 (match acceptable with
        | some a => a
        | none => .all))
      pure State.running)
    else do
      M.set (.pending (lib.clientStep ctx input).2)
      pure State.running) := by
    split
    · exact Code.bind (h1 _) fun _ => Code.bind (.set _) fun _ => .pure _
    · code
  split
  · split
    · exact h2
    · exact Code.bind (.writeAll _) fun _ => h2
  · exact h2

theorem client_code (input : Option Bytes) : Code vec env (clientStep lib env input) := by
  have h := clientPending_code (vec := vec) (env := env) lib
  unfold clientStep
  refine Code.bind .get fun st => Code.bind (.set _) fun _ => ?_
  split
  · refine Code.bind ?_ fun _ => Code.bind ?_ fun _ => Code.bind (.liftGss _) fun _ => h _ _
    · code
    · code
  · exact h _ _
  · code
  · code
  · code

theorem server_code (input : Option Bytes) : Code vec env (serverStep lib env input) := by
  have h0 : ∀ ctx l, Code vec env (serverInstalled lib ctx l) := by
    unfold serverInstalled; code
  have h : ∀ ctx input, Code vec env (serverPending lib env ctx input) := by
    intro ctx input
    unfold serverPending
    refine Code.bind (.okOr _ _) fun _ => ?_
    dsimp only
    refine Code.bind (.liftGss _) fun _ => ?_
    split
    · refine Code.bind ?_ fun _ => Code.bind (.liftGss _) fun _ => ?_
      · code
      · have := h0
        split <;> split
        all_goals first
          | exact Code.fail _
          | refine Code.bind (.set _) fun _ => ?_
        all_goals
          split
          · code
          · exact Code.bind (.set _) fun _ => h0 _ _
    · code
  unfold serverStep
  refine Code.bind .get fun st => Code.bind (.set _) fun _ => ?_
  split
  · exact Code.bind (.liftGss _) fun _ => h _ _
  · exact h _ _
  · exact h0 _ _
  · code
  · code
  · code

theorem clientEncode_code (input : Bytes) : Code vec env (clientEncode lib input) := by
  unfold clientEncode layerEncode; code

theorem clientDecode_code (input : Bytes) : Code vec env (clientDecode lib input) := by
  unfold clientDecode layerDecode; code

theorem serverEncode_code (input : Bytes) : Code vec env (serverEncode lib input) := by
  unfold serverEncode layerEncode; code

theorem serverDecode_code (input : Bytes) : Code vec env (serverDecode lib input) := by
  unfold serverDecode layerDecode; code

end Gssapi

end

/-- All methods of a built-in mechanism, on either side. -/
theorem builtin_code {deps : Deps} {st : Started}
    (h : Spec.BuiltinServer deps st ∨ Spec.BuiltinClient deps st) (env : Env) :
    (∀ input, Code True env (st.mech.step env input)) ∧
    (∀ input, Code True env (st.mech.encode input)) ∧
    (∀ input, Code True env (st.mech.decode input)) := by
  rcases h with ⟨a, h⟩ | ⟨a, h⟩ <;> cases a <;> cases h
  · exact ⟨Plain.server_code _, fun _ => .fail _, fun _ => .fail _⟩
  · exact ⟨Login.server_code, fun _ => .fail _, fun _ => .fail _⟩
  · exact ⟨External.server_code, fun _ => .fail _, fun _ => .fail _⟩
  · exact ⟨Anonymous.server_code, fun _ => .fail _, fun _ => .fail _⟩
  · exact ⟨XOAuth2.server_code, fun _ => .fail _, fun _ => .fail _⟩
  · exact ⟨OAuthBearer.server_code _, fun _ => .fail _, fun _ => .fail _⟩
  · exact ⟨Gssapi.server_code _, Gssapi.serverEncode_code _, Gssapi.serverDecode_code _⟩
  · exact ⟨Scram.server_code _ _, fun _ => .fail _, fun _ => .fail _⟩
  · exact ⟨Scram.server_code _ _, fun _ => .fail _, fun _ => .fail _⟩
  · exact ⟨Plain.client_code, fun _ => .fail _, fun _ => .fail _⟩
  · exact ⟨Login.client_code, fun _ => .fail _, fun _ => .fail _⟩
  · exact ⟨External.client_code, fun _ => .fail _, fun _ => .fail _⟩
  · exact ⟨Anonymous.client_code, fun _ => .fail _, fun _ => .fail _⟩
  · exact ⟨XOAuth2.client_code, fun _ => .fail _, fun _ => .fail _⟩
  · exact ⟨OAuthBearer.client_code _, fun _ => .fail _, fun _ => .fail _⟩
  · exact ⟨Gssapi.client_code _, Gssapi.clientEncode_code _, Gssapi.clientDecode_code _⟩
  · exact ⟨Scram.client_code _ _, fun _ => .fail _, fun _ => .fail _⟩
  · exact ⟨Scram.client_code _ _, fun _ => .fail _, fun _ => .fail _⟩

end Rsasl

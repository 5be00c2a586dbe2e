/-
C83: the kind of a mechanism error tells what was wrong with the message.
-/
import Verif.Props.ScramAnswers
import Verif.Props.ScramWrong
import Verif.Props.StepErrors
import Verif.Spec.ErrorKinds
import Verif.Spec.Examples

namespace Rsasl

open Spec

variable {env : Env}

namespace Scram

/-- Errors that are no mechanism errors. -/
abbrev Else (e : SessionError) : Prop := e.isMechanismError = false

/-- The same, or a name that cannot be sent. -/
abbrev OwnName (e : SessionError) : Prop := Else e ∨ ∃ n, e = .mechanismError (.saslName n)

theorem clientKeys_raises (d : Digest) (henv : Plainspoken env) (prov : Provider) (it : UInt32)
    (salt : Bytes) : Raises Else (clientKeys d env prov it salt) := by
  have henv : env.ErrsIn Else := henv _ fun _ h => h
  unfold clientKeys
  refine Raises.bind (Raises.ask henv fun c => ?_) fun o => ?_
  · unfold useCached
    split
    · exact .pure _
    · exact .panic
  · split
    · exact .pure _
    · refine Raises.bind (Raises.ask henv fun c => ?_) fun o => ?_
      · unfold useSalted
        split
        · exact .fail (.inr rfl)
        · exact .pure _
      · split
        · exact .pure _
        · exact Raises.needWith henv (fun _ => .pure _) rfl

theorem checkServerFirst_err {cn input : Bytes} {e : SessionError} (h : checkServerFirst cn input = .err e) :
    (∃ ps f, Fields input ps ∧ ServerFirstWrong ps f ∧ e = .mechanismError (.scramParse f)) ∨
    ∃ nonce salt64 count, (44 ∉ nonce ∧ 44 ∉ salt64 ∧ 44 ∉ count) ∧
      input = serverFirst nonce salt64 count ∧ FirstFault cn nonce salt64 count e := by
  cases hp : ServerFirst.parse input with
  | panic => unfold checkServerFirst at h; rw [hp] at h; cases h
  | err e' =>
    unfold checkServerFirst at h
    rw [hp] at h
    cases h
    exact .inl ((C77_server_first _ _).1 hp)
  | ok m =>
    obtain ⟨h1, h2, h3, h4, h5⟩ := ServerFirst.parse_eq_ok.1 hp
    refine .inr ⟨m.nonce, m.salt, m.iterationCount, ⟨h2, h3, h4⟩, h5, ?_⟩
    rcases C76_client_first_total cn m.nonce m.salt m.iterationCount ⟨h2, h3, h4⟩ with
      ⟨e', hf⟩ | ⟨sn, salt, n, hn, hs⟩
    · have := checkServerFirst_fault ⟨h2, h3, h4⟩ hf
      rw [show input = serverFirst m.nonce m.salt m.iterationCount from h5] at h
      rw [h] at this
      cases this
      exact hf
    · rw [show input = serverFirst m.nonce m.salt m.iterationCount from h5] at h
      rw [(checkServerFirst_eq_ok (sf := ⟨cn ++ sn, none, m.salt, m.iterationCount⟩)).2
        ⟨rfl, serverParams_iff.1 hs⟩] at h
      cases h

/-- C83, a client that waits for a server-first message: the mechanism errors are exactly those of a
message that lacks the attributes, and those of attributes with wrong values. -/
theorem C83_client_first (d : Digest) (henv : Plainspoken env) (cb cn : Bytes) (user : Str) (w : World)
    (input : Bytes) (x : MechErr) :
    ((client d).step env (some input) (some (.clientFirst cb cn user)) w).1 = .err (.mechanismError x) ↔
    (∃ ps f, Fields input ps ∧ ServerFirstWrong ps f ∧ x = .scramParse f) ∨
    ∃ nonce salt64 count, (44 ∉ nonce ∧ 44 ∉ salt64 ∧ 44 ∉ count) ∧
      input = serverFirst nonce salt64 count ∧ FirstFault cn nonce salt64 count (.mechanismError x) := by
  constructor
  · intro h
    change (M.bind (M.bind (M.liftOutcome (checkServerFirst cn input)) _) _ _ _).1 = _ at h
    cases hc : checkServerFirst cn input with
    | panic => rw [hc] at h; cases h
    | err e =>
      rw [hc] at h
      cases h
      refine (checkServerFirst_err hc).imp ?_ id
      rintro ⟨ps, f, h1, h2, h3⟩
      exact ⟨ps, f, h1, h2, by injection h3⟩
    | ok r =>
      rw [hc] at h
      have hr : Raises Else (M.bind (M.bind (M.liftOutcome (.ok r)) fun r => do
          let (clientKey, serverKey) ← clientKeys d env (clientProvider r.2.2.2 r.2.2.1) r.2.2.1 r.2.2.2
          let (clientSignature, serverSignature) :=
            computeSignatures d (d.hash clientKey) serverKey user cn r.2.1 r.1.salt
              r.1.iterationCount cb
          M.writeVectored (ClientFinal.ioslices ⟨cb, r.1.nonce,
            Base64.encode (xor clientKey clientSignature)⟩)
          pure (CState.serverFirst serverSignature clientKey serverKey r.2.2.2 r.2.2.1)) fun new => do
          M.set (some new)
          pure State.running : M CS State) :=
        Raises.bind (Raises.bind (.liftOutcome nofun) fun _ => Raises.bind (clientKeys_raises d henv _ _ _)
          fun _ => Raises.bind (.writeVectored fun _ => rfl) fun _ => .pure _) fun _ =>
          Raises.bind (.set _) fun _ => .pure _
      exact absurd (hr.errs _ _ _ h) nofun
  · rintro (⟨ps, f, h1, h2, rfl⟩ | ⟨nonce, salt64, count, hc, rfl, hf⟩)
    · rw [((C77_steps d env w input ps h1).2.2.1 cb cn user f h2)]
    · rw [C76_client_first d env cb cn user w nonce salt64 count hc _ hf]

/-- C83, a client that waits for a server-final message. -/
theorem C83_client_final (d : Digest) (env : Env) (sig ck sk salt : Bytes) (it : UInt32) (w : World)
    (input : Bytes) (x : MechErr) :
    ((client d).step env (some input) (some (.serverFirst sig ck sk salt it)) w).1 =
        .err (.mechanismError x) ↔
    (∃ k, OtherField [b!"v=", b!"e="] k input ∧ x = .scramParse (.invalidAttribute k)) ∨
    (∃ v, input = b!"v=" ++ v ∧ (∀ b, v ≠ Base64.encode b) ∧ x = .scramProtocol .base64Decode) ∨
    ∃ text e, input = b!"e=" ++ text ∧ Means text e ∧ x = .scramServer e := by
  constructor
  · intro h
    change (M.bind (M.bind (M.liftOutcome (ServerFinal.parse input)) _) _ _ _).1 = _ at h
    cases hp : ServerFinal.parse input with
    | panic => rw [hp] at h; cases h
    | err e =>
      rw [hp] at h
      cases h
      obtain ⟨k, h1, h2⟩ := (C77_server_final _ _).1 hp
      exact .inl ⟨k, h1, by injection h2⟩
    | ok m =>
      rw [hp] at h
      rcases (C53_server_final_partial _ _).1 hp with ⟨v, rfl, hi⟩ | ⟨v, rfl, hi⟩
      · change (M.bind (match Base64.decode v with | none => _ | some _ => _) _ _ _).1 = _ at h
        cases hd : Base64.decode v with
        | none =>
          rw [hd] at h
          cases h
          refine .inr (.inl ⟨v, hi, fun b hb => ?_, rfl⟩)
          rw [hb, Base64.decode_encode] at hd
          cases hd
        | some v' =>
          rw [hd] at h
          have hr : Raises Else (M.bind (if sig = v' then do
              let _ ← M.attempt (action env .scramCachedPassword (clientProvider salt it)
                (⟨ck, sk⟩ : CachedPassword))
              pure ()
            else M.fail .mutualAuthenticationFailed) fun _ => pure (State.finished .no) : M CS State) := by
            refine Raises.bind ?_ fun _ => .pure _
            split
            · exact Raises.bind .attempt fun _ => .pure _
            · exact .fail rfl
          exact absurd (hr.errs _ _ _ h) nofun
      · cases h
        exact .inr (.inr ⟨v, _, hi, means_iff.2 rfl, rfl⟩)
  · rintro (⟨k, h1, rfl⟩ | ⟨v, hi, h1, rfl⟩ | ⟨text, e, h1, h2, rfl⟩)
    · rw [(C77_steps d env w input _ (fields_iff.2 rfl)).2.2.2.1 sig ck sk salt it k h1]
    · rw [C76_client_final d env sig ck sk salt it w input _ (.text hi h1)]
    · rw [(C77_steps d env w input _ (fields_iff.2 rfl)).2.2.2.2 sig ck sk salt it text e h1 h2]

/-- C83, a client that has not begun: a name of its own side that cannot be sent. -/
theorem C83_client_initial (d : Digest) (henv : Plainspoken env) (plus : CbSupport) (w : World)
    (input : Option Bytes) (x : MechErr)
    (h : ((client d).step env input (some (.initial plus)) w).1 = .err (.mechanismError x)) :
    ∃ n, x = .saslName n := by
  have hp : ∀ b, Raises OwnName (pushHeader b) := fun b => Raises.modify _
  have hs : ∀ b, Raises OwnName (setCbdata b) := fun b => Raises.modify _
  have henv : env.ErrsIn OwnName := henv _ fun _ => .inl
  have hr : Raises OwnName (M.bind (M.withLocal {} (sendClientFirst nonceLen env plus)) fun new => do
      M.set (some new)
      pure State.running : M CS State) := by
    refine Raises.bind (Raises.withLocal ?_) fun _ => Raises.bind (.set _) fun _ => .pure _
    unfold sendClientFirst
    have hc : Raises OwnName (clientCb env plus) := by
      cases plus with
      | serverNoSupport => exact hp _
      | clientNoSupport => exact hp _
      | supported =>
        unfold clientCb
        refine Raises.bind (hp _) fun _ => Raises.bind (Raises.ask henv fun _ =>
          Raises.bind (Raises.modify _) fun _ => .pure _) fun o => ?_
        split
        · exact Raises.needCbData henv hs (.inl rfl)
        · refine Raises.bind (Raises.maybeNeedCbData henv fun _ => Raises.bind (hp _) fun _ => hs _)
            fun o => ?_
          split
          · exact .pure _
          · exact Raises.needCbData henv (fun _ => Raises.bind (hp _) fun _ => hs _) (.inl rfl)
    refine Raises.bind hc fun _ => Raises.bind (hp _) fun _ =>
      Raises.bind (Raises.ask henv fun z => ?_) fun _ => Raises.bind (hp _) fun _ =>
      Raises.bind (Raises.needWith henv
        (fun _ => escapeM_raises (fun _ _ => .inl (.inr ⟨_, rfl⟩)) _) (.inl rfl)) fun _ =>
      Raises.bind (generateNonce_raises _) fun _ => Raises.bind .get fun _ =>
      Raises.bind (.writeVectored fun _ => .inl rfl) fun _ => ?_
    · unfold clientAuthzid
      exact Raises.bind (Raises.modify _) fun _ => Raises.bind
        (escapeM_raises (fun _ _ => .inl (.inr ⟨_, rfl⟩)) _) fun _ => Raises.modify _
    · split <;> exact .pure _
  rcases hr.errs _ _ _ h with h | ⟨n, h⟩
  · cases h
  · exact ⟨n, by injection h⟩

theorem judge_fail {d : Digest} {data : Option FinalInner} {m : ClientFinal} {e : SessionError}
    (h : judge d data m = .error e) : Judged d data m.channelBinding m.nonce m.proof (.fail e) := by
  obtain ⟨j, hj, -⟩ := C76_server_total d data m.channelBinding m.nonce m.proof
  have := judged_told hj
  rw [h] at this
  cases (this : Judgement.fail e = j)
  exact hj

/-- C83, a server that waits for a client-final message. -/
theorem C83_server_final (d : Digest) (env : Env) (data : Option FinalInner) (w : World)
    (input : Bytes) (x : MechErr) :
    ((server d).step env (some input) (some (.waitingClientFinal data)) w).1 =
        .err (.mechanismError x) ↔
    (∃ ps f, Fields input ps ∧ ClientFinalWrong ps f ∧ x = .scramParse f) ∨
    ∃ cb64 nonce proof64 exts, (44 ∉ cb64 ∧ 44 ∉ nonce ∧ 44 ∉ proof64) ∧ (∀ e ∈ exts, Skipped e) ∧
      input = clientFinalBare cb64 nonce ++ tail exts ++ b!",p=" ++ proof64 ∧
      Judged d data cb64 nonce proof64 (.fail (.mechanismError x)) := by
  constructor
  · intro h
    change (M.bind (M.bind (M.liftOutcome (ClientFinal.parse input)) _) _ _ _).1 = _ at h
    cases hp : ClientFinal.parse input with
    | panic => rw [hp] at h; cases h
    | err e =>
      rw [hp] at h
      cases h
      obtain ⟨ps, f, h1, h2, h3⟩ := (C77_client_final _ _).1 hp
      exact .inl ⟨ps, f, h1, h2, by injection h3⟩
    | ok m =>
      rw [hp] at h
      obtain ⟨h1, h2, h3, exts, h4, h5⟩ := (C53_client_final_partial _ _ _ _).1 hp
      refine .inr ⟨m.channelBinding, m.nonce, m.proof, exts, ⟨h1, h2, h3⟩, h4, h5, ?_⟩
      change (M.bind (M.bind (M.lift (judge d data m)) _) _ _ _).1 = _ at h
      cases hj : judge d data m with
      | error e =>
        rw [hj] at h
        cases h
        exact judge_fail hj
      | ok r =>
        rw [hj] at h
        have hr : Raises Else (M.bind (M.bind (M.lift (.ok r)) fun
            | .ok (f, serverSignature) => do
              M.writeVectored (ServerFinal.ioslices (.verifier (Base64.encode serverSignature)))
              validate env (serverProvider f.username f.authzid)
            | .error e => M.writeVectored (ServerFinal.ioslices (.error e))) fun _ => do
            M.set (some .finished)
            pure (State.finished .yes) : M SS State) := by
          refine Raises.bind (Raises.bind (.lift nofun) fun r => ?_) fun _ =>
            Raises.bind (.set _) fun _ => .pure _
          split
          · exact Raises.bind (.writeVectored fun _ => rfl) fun _ => .validate fun _ => rfl
          · exact .writeVectored fun _ => rfl
        exact absurd (hr.errs _ _ _ h) nofun
  · rintro (⟨ps, f, h1, h2, rfl⟩ | ⟨cb64, nonce, proof64, exts, hc, hx, hi, hj⟩)
    · rw [(C77_steps d env w input ps h1).2.1 data f h2]
    · show (M.bind (M.bind (M.liftOutcome (ClientFinal.parse _)) _) _ _ _).1 = _
      rw [(C53_client_final_partial _ cb64 nonce proof64).2 ⟨hc.1, hc.2.1, hc.2.2, exts, hx, hi⟩]
      have := judged_told hj
      show (M.bind (M.bind (M.lift (judge d data _)) _) _ _ _).1 = _
      rcases hr : judge d data ⟨cb64, nonce, proof64⟩ with e | (e | ⟨f, sig⟩) <;> rw [hr] at this <;>
        cases this
      rfl

/-- C83, a server that waits for a client-first message: besides the errors of a message that lacks
the attributes there are two of other sorts. -/
theorem C83_server_first (d : Digest) (henv : Plainspoken env) (canCb : Bool) (w : World)
    (input : Bytes) (x : MechErr)
    (h : ((server d).step env (some input) (some (.waitingClientFirst canCb)) w).1 =
        .err (.mechanismError x)) :
    (∃ ps f, Fields input ps ∧ ClientFirstWrong ps f ∧ x = .scramParse f) ∨
    ∃ flag authzid user nonce, ClientFirst.parse input = .ok ⟨flag, authzid, user, nonce⟩ ∧
      (canCb = true ∧ flag = .supportedNotUsed ∧ x = .scramChannelBindingsNotUsed ∨
        x = .scramPasswordHashInvalid) := by
  change (M.bind (M.liftOutcome (ClientFirst.parse input)) _ _ _).1 = _ at h
  cases hp : ClientFirst.parse input with
  | panic => rw [hp] at h; cases h
  | err e =>
    rw [hp] at h
    cases h
    obtain ⟨ps, f, h1, h2, h3⟩ := (C77_client_first _ _).1 hp
    exact .inl ⟨ps, f, h1, h2, by injection h3⟩
  | ok m =>
    rw [hp] at h
    refine .inr ⟨m.cbflag, m.authzid, m.username, m.nonce, rfl, ?_⟩
    let E : SessionError → Prop := fun e => e.isMechanismError = false ∨
      (canCb = true ∧ m.cbflag = .supportedNotUsed ∧ e = .mechanismError .scramChannelBindingsNotUsed ∨
        e = .mechanismError .scramPasswordHashInvalid)
    have henv : env.ErrsIn E := henv _ fun _ => .inl
    have hr : Raises E (M.bind (M.liftOutcome (.ok m)) fun m => M.bind
        (M.withLocal m.gs2Header (handleClientFirst d nonceLen env canCb m)) fun new => do
        M.set (some new)
        pure State.running : M SS State) := by
      suffices hh : Raises E (handleClientFirst d nonceLen env canCb m) by
        refine ⟨fun s w e he => ?_⟩
        exact (Raises.bind (Raises.withLocal hh) fun _ => Raises.bind (.set _) fun _ => .pure _).errs s w e he
      unfold handleClientFirst
      refine Raises.bind ?_ fun _ => Raises.bind (Raises.ask henv fun p => ?_) fun params =>
        Raises.bind (generateNonce_raises _) fun _ => ?_
      · unfold serverCb
        split
        · next hf =>
          split
          · next hc => exact .fail (.inr (.inl ⟨hc, hf, rfl⟩))
          · exact .pure _
        · exact .pure _
        · exact Raises.needCbData henv (fun _ => Raises.modify _) (.inl rfl)
      · unfold useStored
        split
        · exact .fail (.inl (.inr (.inr rfl)))
        · exact .pure _
      · split
        · exact Raises.bind (.writeVectored fun _ => .inl rfl) fun _ => Raises.bind .get fun _ => .pure _
        · exact Raises.bind (.draw _) fun _ => Raises.bind (.writeVectored fun _ => .inl rfl) fun _ => .pure _
    rcases hr.errs _ _ _ h with h | h | h
    · cases h
    · exact .inl ⟨h.1, h.2.1, by injection h.2.2⟩
    · exact .inr (by injection h)

/-- C83, clients: errors of kind `Parse` are for messages without the attributes the client looks for
(or with an iteration count that is no text), those of kind `Protocol` for messages that have them,
and those of kind `Outcome` for errors the server sent. -/
theorem C83_client_partial (d : Digest) (henv : Plainspoken env) (st : CState) (w : World)
    (input : Bytes) (x : MechErr)
    (h : ((client d).step env (some input) (some st) w).1 = .err (.mechanismError x)) :
    match x.kind with
    | some .parse => ¬ ClientShape st input ∨ ∃ cb cn user nonce salt64 count,
        st = .clientFirst cb cn user ∧ input = serverFirst nonce salt64 count ∧ NoText count
    | some .protocol => ClientShape st input
    | some .outcome => (∃ v ck sk salt it, st = .serverFirst v ck sk salt it) ∧
        ∃ text, input = b!"e=" ++ text
    | none => False := by
  cases st with
  | initial plus =>
    obtain ⟨n, rfl⟩ := C83_client_initial d henv plus w _ x h
    exact .inl id
  | clientFirst cb cn user =>
    rcases (C83_client_first d henv cb cn user w input x).1 h with
      ⟨ps, f, h1, h2, rfl⟩ | ⟨nonce, salt64, count, hc, hi, hf⟩
    · refine .inl ?_
      rintro ⟨nonce, salt64, count, hc, hi⟩
      have h3 := (C77_server_first input _).2 ⟨ps, f, h1, h2, rfl⟩
      rw [(C53_server_first_partial input nonce salt64 count).2 ⟨hc.1, hc.2.1, hc.2.2, hi⟩] at h3
      cases h3
    · have hs : ClientShape (.clientFirst cb cn user) input := ⟨nonce, salt64, count, hc, hi⟩
      cases hf with
      | text _ _ ht => exact .inr ⟨cb, cn, user, nonce, salt64, count, rfl, hi, ht⟩
      | nonce | format | zero | salt => exact hs
  | serverFirst v ck sk salt it =>
    rcases (C83_client_final d env v ck sk salt it w input x).1 h with
      ⟨k, h1, rfl⟩ | ⟨v, hi, h1, rfl⟩ | ⟨text, e, h1, h2, rfl⟩
    · refine .inl ?_
      have h3 := (C77_server_final input _).2 ⟨k, h1, rfl⟩
      rintro ⟨v, hv | hv⟩
      · rw [(C53_server_final_partial input _).2 (.inl ⟨v, rfl, hv⟩)] at h3
        cases h3
      · rw [(C53_server_final_partial input _).2 (.inr ⟨v, rfl, hv⟩)] at h3
        cases h3
    · exact ⟨v, .inl hi⟩
    · exact ⟨⟨_, _, _, _, _, rfl⟩, text, h1⟩

/-- C83, servers: errors of kind `Protocol` are for messages that have the attributes, and those of
kind `Parse` for messages that don't, but for two errors; there are none of kind `Outcome`. -/
theorem C83_server_partial (d : Digest) (henv : Plainspoken env) (st : SState) (w : World)
    (input : Bytes) (x : MechErr)
    (h : ((server d).step env (some input) (some st) w).1 = .err (.mechanismError x)) :
    match x.kind with
    | some .parse => ¬ ServerShape st input ∨ x = .scramChannelBindingsNotUsed ∨
        x = .scramPasswordHashInvalid
    | some .protocol => ServerShape st input
    | some .outcome | none => False := by
  cases st with
  | waitingClientFirst canCb =>
    rcases C83_server_first d henv canCb w input x h with
      ⟨ps, f, h1, h2, rfl⟩ | ⟨flag, authzid, user, nonce, -, ⟨-, -, rfl⟩ | rfl⟩
    · refine .inl ?_
      rintro ⟨flag, authzid, start, user, nonce, exts, g1, g2, g3, g4, g5⟩
      have h3 := (C77_client_first input _).2 ⟨ps, f, h1, h2, rfl⟩
      rw [(C53_client_first_partial input flag authzid user nonce).2
        ⟨start, exts, g1, g2, g3, g4, g5⟩] at h3
      cases h3
    · exact .inr (.inl rfl)
    · exact .inr (.inr rfl)
  | waitingClientFinal data =>
    rcases (C83_server_final d env data w input x).1 h with
      ⟨ps, f, h1, h2, rfl⟩ | ⟨cb64, nonce, proof64, exts, hc, hx, hi, hj⟩
    · refine .inl ?_
      rintro ⟨cb64, nonce, proof64, exts, hc, hx, hi⟩
      have h3 := (C77_client_final input _).2 ⟨ps, f, h1, h2, rfl⟩
      rw [(C53_client_final_partial input cb64 nonce proof64).2
        ⟨hc.1, hc.2.1, hc.2.2, exts, hx, hi⟩] at h3
      cases h3
    · have hs : ServerShape (.waitingClientFinal data) input :=
        ⟨cb64, nonce, proof64, exts, hc, hx, hi⟩
      cases hj with
      | cbText | proofText => exact hs
  | finished => cases h

end Scram

/-- C83, as documented: by the grammar of the RFC, for every SCRAM client and server. -/
def C83 : Prop :=
  ∀ (d : Scram.Digest) (env : Env), Plainspoken env → ∀ (w : World) (input : Bytes) (x : MechErr),
    (∀ st, ((Scram.client d).step env (some input) (some st) w).1 = .err (.mechanismError x) →
      KindTells (ClientGrammar st input) (∃ text, input = b!"e=" ++ text) x) ∧
    (∀ st, ((Scram.server d).step env (some input) (some st) w).1 = .err (.mechanismError x) →
      KindTells (ServerGrammar st input) False x)

theorem plainspoken_example (pvs : List PV) : Plainspoken (exampleEnv pvs) := by
  intro E _ _ _
  show (answerAll pvs).Errs _
  induction pvs with
  | nil => exact nofun
  | cons pv rest ih =>
    intro r hr
    cases r with
    | error e =>
      intro e' he
      cases he
      exact hr e rfl
    | ok u => exact ih

theorem name_user : SaslName (c!"user") :=
  .safe _ (by decide) (by decide) (by decide) (.safe _ (by decide) (by decide) (by decide)
    (.safe _ (by decide) (by decide) (by decide) (.safe _ (by decide) (by decide) (by decide) .nil)))

/-- A world at the start of a call. -/
def someWorld : World := ⟨⟨[], []⟩, fun _ => 0, none, []⟩

/-- The server says `Parse` of a client-first message without any fault: its flag is not the one the
server wants. -/
theorem C83_false_flag : ¬ C83 := by
  intro h
  have h1 := (h toyDigest (exampleEnv []) (plainspoken_example []) someWorld (b!"y,,n=user,r=abc")
    .scramChannelBindingsNotUsed).2 (.waitingClientFirst true) (by decide +kernel)
  exact h1 ⟨_, _, _, b!"abc", _, _, [], .supportedNotUsed, .none, (by decide : c!"user" ≠ []),
    name_user, ⟨by decide, by unfold Printable; decide⟩, nofun, rfl⟩

/-- A password that was stored for another hash. -/
def longUser : StoredPassword := ⟨4096, [0, 0, 0], [30, 30], [9, 9]⟩

/-- The server says `Parse` of a client-first message without any fault: its own database is wrong. -/
theorem C83_false_hash : ¬ C83 := by
  intro h
  have h1 := (h toyDigest (exampleEnv [⟨.scramStoredPassword, longUser⟩]) (plainspoken_example _)
    someWorld (b!"n,,n=user,r=abc") .scramPasswordHashInvalid).2 (.waitingClientFirst false)
    (by decide +kernel)
  exact h1 ⟨_, _, _, b!"abc", _, _, [], .notSupported, .none, (by decide : c!"user" ≠ []),
    name_user, ⟨by decide, by unfold Printable; decide⟩, nofun, rfl⟩

/-- The client says `Protocol` of a server-final message that is syntactically wrong: the signature is
no base64. -/
theorem C83_false_base64 : ¬ C83 := by
  intro h
  have h1 := (h toyDigest (exampleEnv []) (plainspoken_example []) someWorld (b!"v=!")
    (.scramProtocol .base64Decode)).1 (.serverFirst [] [] [] [] 1) (by decide +kernel)
  rcases h1 with ⟨v, exts, raw, hb, -, hi⟩ | ⟨v, exts, -, -, hi⟩
  · have hi : b!"!" = v ++ tail exts := List.append_cancel_left (as := b!"v=") (by simpa using hi)
    cases hb with
    | nil =>
      cases exts with
      | nil => cases hi
      | cons e es => injection hi with hi; exact absurd hi (by decide)
    | _ => injection hi with _ hi; cases hi
  · injection hi with hi
    exact absurd hi (by decide)

theorem C83_false : ¬ C83 := C83_false_flag

/-- Each kind, of a message that calls for it. -/
example :
    ((Scram.client toyDigest).step (exampleEnv []) (some (b!"r=ab,i=1,s=AAAA"))
      (some (.clientFirst [] (b!"a") (c!"user"))) someWorld).1 =
        .err (.mechanismError (.scramParse (.invalidAttribute 105))) ∧
    ((Scram.client toyDigest).step (exampleEnv []) (some (b!"r=xb,s=AAAA,i=1"))
      (some (.clientFirst [] (b!"a") (c!"user"))) someWorld).1 =
        .err (.mechanismError (.scramProtocol .invalidNonce)) ∧
    ((Scram.client toyDigest).step (exampleEnv []) (some (b!"e=invalid-proof"))
      (some (.serverFirst [] [] [] [] 1)) someWorld).1 =
        .err (.mechanismError (.scramServer .invalidProof)) ∧
    ((Scram.server toyDigest).step (exampleEnv []) (some (b!"n,,n=user"))
      (some (.waitingClientFirst false)) someWorld).1 =
        .err (.mechanismError (.scramParse .missingAttributes)) := by decide +kernel

end Rsasl

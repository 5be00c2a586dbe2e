/-
C105: exactly how the steps of servers end that come to a decision of the application.
-/
import Verif.Spec.ServerSteps
import Verif.Props.ScramSteps
import Verif.Props.Refusals

namespace Rsasl

open Spec

variable {S G : Type}

theorem runVal_exact (vtag : Nat) (prog : ValProg) (s : S) (w : World) :
    runVal vtag prog s w = (.ok (returned vtag w.slot.isNone prog), s,
      ⟨w.wr, w.rng, slotAfter vtag w.slot prog,
        w.log ++ List.replicate (closures vtag w.slot.isNone prog) (.vEvaluated vtag)⟩) := by
  induction prog generalizing w with
  | ret r =>
    obtain ⟨wr, rng, slot, log⟩ := w
    cases slot <;> simp [runVal, returned, slotAfter, firstValue, closures] <;> rfl
  | finalize t v k ih =>
    obtain ⟨wr, rng, slot, log⟩ := w
    unfold runVal returned closures
    show runVal vtag k s _ = _
    rw [ih]
    by_cases ht : t = vtag
    · subst ht
      cases slot <;> simp [slotAfter, firstValue]
    · have : (t != vtag) = true := by simpa using ht
      cases slot <;> simp [slotAfter, firstValue, ht, this]
  | «with» t f k ih =>
    obtain ⟨wr, rng, slot, log⟩ := w
    unfold runVal returned closures
    by_cases ht : t = vtag
    · subst ht
      cases slot with
      | none =>
        cases f with
        | ok v =>
          simp only [and_self, if_true]
          rw [ih]
          simp [slotAfter, firstValue, List.replicate_succ]
        | error e =>
          simp only [and_self, if_true]
          rw [ih]
          simp [slotAfter, firstValue, List.replicate_succ]
      | some u =>
        simp only [reduceCtorEq, and_false, if_false]
        rw [ih]
        simp [slotAfter]
    · simp only [ht, false_and, if_false]
      rw [ih]
      conv => rhs; unfold slotAfter firstValue
      cases slot <;> simp [slotAfter, ht]
  | is t k ih =>
    unfold runVal returned closures
    rw [ih]
    unfold slotAfter
    cases w.slot <;> simp [firstValue]

/-- C105: exactly how a call of `validate` ends, for every callback. -/
theorem C105_validate (env : Env) (ctx : Provider) (s : S) (w : World) :
    validate env ctx s w =
      (match returned env.vtag w.slot.isNone (env.validate w.log env.sd ctx) with
        | .ok () => .ok ()
        | .error e => .err (.validationError e), s,
       ⟨w.wr, w.rng, slotAfter env.vtag w.slot (env.validate w.log env.sd ctx),
        w.log ++ validation env.vtag w.slot ctx (env.validate w.log env.sd ctx)⟩) := by
  unfold validate
  rw [M.bind_ok (M.history_apply ..), M.bind_ok (M.note_apply ..), M.bind_ok (runVal_exact ..)]
  unfold validation
  simp only [World.addLog, List.append_assoc, List.singleton_append]
  generalize returned env.vtag w.slot.isNone (env.validate w.log env.sd ctx) = x
  rcases x with e | u <;> rfl

/-- A step that ends in `validate(..)?; self.state = s'; Ok(st)`. -/
theorem step_ruling {m : Mech} {env : Env} {ses s₁ : Session m.S} {c : Call} {ctx : Provider} {st : State} {after : m.S}
    {out : Bytes} {sched : List WResp}
    (h : m.step env c.input ses.st ⟨⟨[], c.sched⟩, ses.rng, ses.slot, ses.log⟩ =
      (do validate env ctx; M.set after; pure st : M m.S State) s₁.st ⟨⟨out, sched⟩, s₁.rng, s₁.slot, s₁.log⟩) :
    ses.step m env c = ruling env s₁ ctx out st after := by
  have hv := C105_validate env ctx s₁.st ⟨⟨out, sched⟩, s₁.rng, s₁.slot, s₁.log⟩
  unfold ruling
  simp only at hv ⊢
  cases hx : returned env.vtag s₁.slot.isNone (env.validate s₁.log env.sd ctx) with
  | ok u =>
    rw [hx] at hv
    exact step_of (h.trans (M.bind_ok hv))
  | error e =>
    rw [hx] at hv
    exact step_of (h.trans (M.bind_err hv))

/-- C105, PLAIN. -/
theorem C105_plain (prep : Str → Option Str) (env : Env) (ses : Session Unit) (message : Bytes) (authzid authid : Str)
    (password : Bytes) (h : PlainMessage prep message authzid authid password) (hl : 4 ≤ message.length)
    (sched : List WResp) :
    ses.step (Plain.server prep) env ⟨some message, sched⟩ =
      ruling env ses (.chain [⟨.authId, authid⟩, ⟨.password, password⟩, ⟨.authzId, authzid⟩]) [] (.finished .no) () := by
  obtain ⟨rawId, rawPw, hi, nz, na, np, hprep, hne, hpw, hpne⟩ := h
  refine step_ruling (m := Plain.server prep) (sched := sched) ?_
  have hsplit : splitOn 0 message = [Str.bytes authzid, Str.bytes rawId, rawPw] :=
    splitOn_three.2 ⟨by rw [hi]; simp, nz, na, np⟩
  show Plain.serverStep prep env (some message) _ _ = _
  unfold Plain.serverStep
  rw [M.bind_ok (M.okOr_some ..), if_neg (by omega)]
  simp only [hsplit, fromUtf8_bytes]
  rw [M.bind_ok (M.okOr_some ..), M.bind_ok (M.okOr_some ..), hprep, M.bind_ok (M.okOr_some ..),
    if_neg (by simpa using hne)]
  rcases hpw with ⟨s, s', rfl, h2, rfl⟩ | ⟨h1, rfl⟩
  · have hs' : s' ≠ [] := by rintro rfl; exact hpne rfl
    simp only [fromUtf8_bytes, h2]
    rw [M.bind_ok (M.okOr_some ..), if_neg (by simpa using hs')]
    rfl
  · have : fromUtf8 password = none := by
      cases hf : fromUtf8 password with
      | none => rfl
      | some s => exact absurd (bytes_of_fromUtf8 _ _ hf).symm (h1 s)
    simp only [this]
    rw [if_neg (by simpa using hpne)]
    rfl

/-- C105, LOGIN. -/
theorem C105_login (env : Env) (ses : Session Login.SState) (user : Str) (hs : ses.st = .waitingForPassword user)
    (password : Bytes) (sched : List WResp) :
    ses.step Login.server env ⟨some password, sched⟩ =
      ruling env ses (.chain [⟨.authId, user⟩, ⟨.password, password⟩]) [] (.finished .no) .done := by
  refine step_ruling (m := Login.server) (sched := sched) ?_
  show Login.serverStep env (some password) _ _ = _
  unfold Login.serverStep
  rw [hs, M.bind_ok (M.get_apply ..)]
  rfl

/-- C105, EXTERNAL. -/
theorem C105_external (env : Env) (ses : Session Unit) (c : Call) (authzid : Str) (h : c.input.getD [] = Str.bytes authzid) :
    ses.step External.server env c = ruling env ses (.this ⟨.authzId, authzid⟩) [] (.finished .no) () := by
  refine step_ruling (m := External.server) (sched := c.sched) ?_
  show External.serverStep env c.input _ _ = _
  have : External.orEmpty c.input = Str.bytes authzid := by rw [← h]; cases c.input <;> rfl
  unfold External.serverStep
  rw [this, fromUtf8_bytes, M.bind_ok (M.okOr_some ..)]
  rfl

/-- C105, ANONYMOUS. -/
theorem C105_anonymous (env : Env) (ses : Session Unit) (c : Call) (token : Str) (h : c.input.getD [] = Str.bytes token) :
    ses.step Anonymous.server env c = ruling env ses (.this ⟨.anonymousToken, token⟩) [] (.finished .no) () := by
  refine step_ruling (m := Anonymous.server) (sched := c.sched) ?_
  show Anonymous.serverStep env c.input _ _ = _
  have : External.orEmpty c.input = Str.bytes token := by rw [← h]; cases c.input <;> rfl
  unfold Anonymous.serverStep
  rw [this, fromUtf8_bytes, M.bind_ok (M.okOr_some ..)]
  rfl

/-! ## OAuth -/

/-- A closure that says what the outcome of checking the token is. -/
def Tells {α : Type} (f : α → M OAuthSState State) (refused : α → Option Bytes) : Prop :=
  ∀ v s w, Patient w.wr.sched → ∃ sched, f v s w =
    (.ok (if (refused v).isSome then .running else .finished .no), if (refused v).isSome then .errored else s,
      { w with wr := ⟨w.wr.out ++ (refused v).getD [], sched⟩ })

theorem needWith_tells {p : Property} {f : p.Value → M OAuthSState State} {refused : p.Value → Option Bytes}
    (hf : Tells f refused) (env : Env) (ctx : Provider) (s : OAuthSState) (w : World) (hw : Patient w.wr.sched) :
    ∃ sched, needWith env p ctx f s w =
      (came (fun v => if (refused v).isSome then .running else .finished .no)
          (settledNeed p fine (env.callback w.log env.sd ctx)),
        if ((firstAnswer p (env.callback w.log env.sd ctx)).bind refused).isSome then .errored else s,
        ⟨⟨w.wr.out ++ ((firstAnswer p (env.callback w.log env.sd ctx)).bind refused).getD [], sched⟩, w.rng, w.slot,
          w.log ++ settledLog p fine ctx (env.callback w.log env.sd ctx)⟩) := by
  have h := C17_exact env p ctx f s w
  unfold settledNeed settled settledLog firstAnswer
  generalize beginning p 0 (env.callback w.log env.sd ctx) = b at h
  unfold needWith
  rcases b with ⟨n, r⟩ | ⟨n, v, k⟩
  · simp only at h ⊢
    refine ⟨w.wr.sched, ?_⟩
    cases hc : complaint r with
    | none =>
      rw [hc] at h
      rw [M.bind_ok h]
      simp [World.addLog, evaluations, came]
    | some e =>
      rw [hc] at h
      rw [M.bind_err h]
      simp [World.addLog, evaluations, came]
  · obtain ⟨sched, hfv⟩ := hf v s (w.addLog (.asked p ctx :: evaluations p n ++ [.answered p v])) hw
    refine ⟨sched, ?_⟩
    simp only at h ⊢
    rw [hfv] at h
    simp only [fine, Option.getD_none, Option.bind_some] at h ⊢
    generalize sequel p (k (.error (.callbackError .earlyReturn))) = t at h
    cases hc : complaint t.result with
    | some e =>
      rw [hc] at h
      rw [M.bind_err h]
      simp [World.addLog, evaluations, came]
    | none =>
      rw [hc] at h
      rw [M.bind_ok h]
      by_cases ht : t.answers = 0
      · simp [ht, World.addLog, evaluations, came]
      · simp [ht, World.addLog, evaluations, came]

/-- The rest of a step of an OAuth server. -/
theorem checked_step {m : M OAuthSState State} {p : Property} {f : p.Value → M OAuthSState State}
    {refused : p.Value → Option Bytes} (hf : Tells f refused) (env : Env) (ses : Session OAuthSState) (ctx : Provider)
    (sched : List WResp) (hw : Patient sched)
    (hm : m ses.st ⟨⟨[], sched⟩, ses.rng, ses.slot, ses.log⟩ = (do
      let state ← needWith env p ctx f
      validate env ctx
      pure state : M OAuthSState State) ses.st ⟨⟨[], sched⟩, ses.rng, ses.slot, ses.log⟩) :
    ses.exec m sched = tokenChecked p refused env ses ctx := by
  obtain ⟨sc, h⟩ := needWith_tells hf env ctx ses.st ⟨⟨[], sched⟩, ses.rng, ses.slot, ses.log⟩ hw
  unfold tokenChecked
  simp only [List.nil_append] at h ⊢
  unfold Session.exec
  rw [hm]
  cases hs : settledNeed p fine (env.callback ses.log env.sd ctx) with
  | error e =>
    rw [hs] at h
    rw [M.bind_err h]
  | ok v =>
    rw [hs] at h
    rw [M.bind_ok h]
    have hv := C105_validate env ctx
      (if ((firstAnswer p (env.callback ses.log env.sd ctx)).bind refused).isSome then .errored else ses.st)
      ⟨⟨((firstAnswer p (env.callback ses.log env.sd ctx)).bind refused).getD [], sc⟩, ses.rng, ses.slot,
          ses.log ++ settledLog p fine ctx (env.callback ses.log env.sd ctx)⟩
    unfold ruling
    simp only at hv ⊢
    generalize hx : returned env.vtag ses.slot.isNone (env.validate (ses.log ++
      settledLog p fine ctx (env.callback ses.log env.sd ctx)) env.sd ctx) = x at hv
    rcases x with e | u
    · rw [M.bind_err hv]
    · rw [M.bind_ok hv]
      rfl

/-- What an XOAUTH2 callback's refusal is sent as. -/
def xoauth2Refusal : Except Str Unit → Option Bytes
  | .error text => some (Str.bytes text)
  | .ok () => none

/-- C105, XOAUTH2. -/
theorem C105_xoauth2 (env : Env) (ses : Session OAuthSState) (hs : ses.st = .initial) (user token : Str)
    (hu : '\x01' ∉ user) (sched : List WResp) (hw : Patient sched) :
    ses.step XOAuth2.server env ⟨some (Spec.xoauth2Message user token), sched⟩ =
      tokenChecked .xoauth2Validate xoauth2Refusal env ses (.chain [⟨.authId, user⟩, ⟨.oauthBearerToken, token⟩]) := by
  refine checked_step (f := XOAuth2.onResult) (m := XOAuth2.serverStep env _) ?_ env ses _ sched hw ?_
  · rintro (text | u) s w hw
    · obtain ⟨sc, -, h⟩ := M.writeAll_patient (Str.bytes text) s w hw
      refine ⟨sc, ?_⟩
      unfold XOAuth2.onResult
      exact M.bind_ok h
    · exact ⟨w.wr.sched, by simp [XOAuth2.onResult, xoauth2Refusal]⟩
  · unfold XOAuth2.serverStep
    rw [M.bind_ok (M.get_apply ..), hs]
    simp only
    rw [M.bind_ok (M.okOr_some ..), (XOAuth2.parse_eq_ok _ user token).2 ⟨rfl, hu⟩]
    rfl

theorem writeJson_patient (pieces : List Bytes) (s : S) (w : World) (hw : Patient w.wr.sched) :
    ∃ sched, Patient sched ∧ OAuthBearer.writeJson pieces s w =
      (.ok (), s, { w with wr := ⟨w.wr.out ++ pieces.flatten, sched⟩ }) := by
  induction pieces generalizing w with
  | nil => exact ⟨w.wr.sched, hw, by simp [OAuthBearer.writeJson]⟩
  | cons b bs ih =>
    obtain ⟨sc, h1, h2⟩ := M.writeAll_patient b s w hw
    obtain ⟨sc', h3, h4⟩ := ih { w with wr := ⟨w.wr.out ++ b, sc⟩ } (fun r hr => hw r (h1.subset hr))
    refine ⟨sc', h3, ?_⟩
    unfold OAuthBearer.writeJson
    have : M.attempt (M.writeAll b) s w = (.ok (.ok ()), s, { w with wr := ⟨w.wr.out ++ b, sc⟩ }) := by
      unfold M.attempt
      rw [h2]
    rw [M.bind_ok this]
    simpa using h4

/-- What an OAUTHBEARER callback's refusal is sent as. -/
def bearerRefusal (json : OAuthBearer.Json) : Except OAuthBearerError Unit → Option Bytes
  | .error e => some (json.ser e).flatten
  | .ok () => none

/-- C105, OAUTHBEARER. -/
theorem C105_oauthbearer (json : OAuthBearer.Json) (env : Env) (ses : Session OAuthSState) (hs : ses.st = .initial)
    (message : Bytes) (authzid : Option Str) (token : Str) (fields : List (Str × Str))
    (hm : OAuthWire message authzid token fields) (sched : List WResp) (hw : Patient sched) :
    ses.step (OAuthBearer.server json) env ⟨some message, sched⟩ =
      tokenChecked .oauthBearerValidate (bearerRefusal json) env ses (bearerOffer authzid token fields) := by
  refine checked_step (f := OAuthBearer.onResult json) (m := OAuthBearer.serverStep json env _) ?_ env ses _ sched hw ?_
  · rintro (e | u) s w hw
    · obtain ⟨sc, -, h⟩ := writeJson_patient (json.ser e) s w hw
      refine ⟨sc, ?_⟩
      unfold OAuthBearer.onResult
      exact M.bind_ok h
    · exact ⟨w.wr.sched, by simp [OAuthBearer.onResult, bearerRefusal]⟩
  · unfold OAuthBearer.serverStep
    rw [M.bind_ok (M.get_apply ..), hs]
    simp only
    have hp : OAuthBearer.provider ⟨authzid, token, fields⟩ = bearerOffer authzid token fields := by
      cases authzid <;> rfl
    rw [M.bind_ok (M.okOr_some ..), (OAuthBearer.C52_parse _ _ _ _).2 hm]
    simp only [hp]

/-- C105: the client's last word to an OAuth server that refused it. -/
theorem C105_errored (json : OAuthBearer.Json) (env : Env) (ses : Session OAuthSState) (hs : ses.st = .errored) (c : Call) :
    ses.step XOAuth2.server env c = (⟨.ok (.finished .no), []⟩, ses) ∧
    ses.step (OAuthBearer.server json) env c = (⟨.ok (.finished .no), []⟩, ses) := by
  obtain ⟨st, slot, rng, log⟩ := ses
  cases hs
  exact ⟨rfl, rfl⟩

/-- C105, SCRAM: the step of a server that accepts the client's proof. -/
theorem C105_scram (d : Scram.Digest) (env : Env) (ses : Session Scram.SS) (f : Scram.FinalInner)
    (hst : ses.st = some (.waitingClientFinal (some f))) (cb64 nonce proof64 : Bytes) (exts : List Bytes)
    (hc : 44 ∉ cb64 ∧ 44 ∉ nonce ∧ 44 ∉ proof64) (hx : ∀ e ∈ exts, Skipped e) (sched : List WResp)
    (hw : Cooperative sched) (text : Bytes) (hj : Judged d (some f) cb64 nonce proof64 (.accept text)) :
    ses.step (Scram.server d) env ⟨some (clientFinalBare cb64 nonce ++ tail exts ++ b!",p=" ++ proof64), sched⟩ =
      ruling env { ses with st := none } (namesOffered f.username f.authzid) text (.finished .yes) (some .finished) := by
  have hp := (C53_client_final_partial _ cb64 nonce proof64).2 ⟨hc.1, hc.2.1, hc.2.2, exts, hx, rfl⟩
  have htold := judged_told hj
  obtain ⟨sig, hr, rfl⟩ : ∃ sig, Scram.judge d (some f) ⟨cb64, nonce, proof64⟩ = .ok (.ok (f, sig)) ∧
      text = b!"v=" ++ Base64.encode sig := by
    rcases hr : Scram.judge d (some f) ⟨cb64, nonce, proof64⟩ with e | (e | ⟨g, sig⟩)
    · rw [hr] at htold; cases htold
    · rw [hr] at htold; cases htold
    · rw [hr] at htold
      obtain ⟨h, -⟩ := Scram.judge_ok hr
      cases h
      cases htold
      exact ⟨sig, rfl, rfl⟩
  obtain ⟨sc, -, h6⟩ := M.writeVectored_cooperative (Scram.ServerFinal.ioslices (.verifier (Base64.encode sig)))
    (none : Scram.SS) ⟨⟨[], sched⟩, ses.rng, ses.slot, ses.log⟩ hw
  refine step_ruling (m := Scram.server d) (s₁ := { ses with st := none }) (sched := sc) ?_
  show Scram.serverStep d Scram.nonceLen env (some _) _ _ = _
  unfold Scram.serverStep
  rw [M.bind_ok (M.get_apply ..), M.bind_ok (M.set_apply ..), hst]
  dsimp only
  rw [M.bind_ok (M.okOr_some ..)]
  unfold Scram.handleClientFinal
  rw [hp, M.bind_assoc, M.bind_ok (M.liftOutcome_apply ..), hr, M.bind_assoc, M.bind_ok (M.lift_ok ..)]
  dsimp only
  rw [M.bind_assoc, M.bind_ok h6, namesOffered_eq]
  simp [Scram.ServerFinal.ioslices]

/-- C105: an OAuth server whose callback refuses the token and then makes the step fail counts the
exchange as over: the step after it finishes, as it would after a refusal that was sent. -/
theorem C105_finishes_after_error (p : Property) (refused : p.Value → Option Bytes) (env : Env) (ses : Session OAuthSState)
    (ctx : Provider) (v : p.Value) (b : Bytes) (hv : firstAnswer p (env.callback ses.log env.sd ctx) = some v)
    (hb : refused v = some b) : (tokenChecked p refused env ses ctx).2.st = .errored := by
  unfold tokenChecked
  simp only [hv, Option.bind_some, hb]
  split
  · rfl
  · unfold ruling
    simp only
    split <;> rfl

/-! ### Examples -/

section Examples

/-- Refuses every token, and then says that all is well. -/
def refuses : Env :=
  { exampleEnv [] with
    callback := fun _ _ _ => (.satisfy .xoauth2Validate (.error (c!"no")) fun _ => .ret (.error .inputDataRequired) : CbProg)
    validate := fun _ _ _ => (.with 0 (.error .missingRequiredProperty) fun _ => .finalize 0 [7] (.ret (.ok ())) : ValProg) }

/-- The refusal is on the wire, the step fails, and the next one finishes. -/
example : (Session.run XOAuth2.server refuses ⟨.initial, none, fun _ => 0, []⟩
    [⟨some (Spec.xoauth2Message (c!"u") (c!"t")), []⟩, ⟨none, []⟩]).1 =
    [⟨.err .inputDataRequired, b!"no"⟩, ⟨.ok (.finished .no), []⟩] := by
  have h := C105_xoauth2 refuses ⟨.initial, none, fun _ => 0, []⟩ rfl (c!"u") (c!"t") (by decide) []
    (by intro r hr; simp at hr)
  exact congrArg (fun x : Reply State × Session OAuthSState =>
    x.1 :: [(x.2.step XOAuth2.server refuses ⟨none, []⟩).1]) h

/-- A closure fails, a value is set later: both show. -/
example : (⟨(), none, fun _ => 0, []⟩ : Session Unit).step (Plain.server some) refuses ⟨some (b!"\x00ab\x00c"), []⟩ =
    (⟨.ok (.finished .no), []⟩, ⟨(), some [7], fun _ => 0,
      [.validated (.chain [⟨.authId, c!"ab"⟩, ⟨.password, b!"c"⟩, ⟨.authzId, []⟩]), .vEvaluated 0]⟩) := by
  rw [C105_plain some refuses _ (b!"\x00ab\x00c") [] (c!"ab") (b!"c")
    ⟨c!"ab", b!"c", by decide, by decide, by decide, by decide, rfl, by decide, .inl ⟨c!"c", c!"c", by decide, rfl, by decide⟩,
      by decide⟩ (by decide)]
  rfl

example : (⟨.waitingForPassword (c!"u"), some [3], fun _ => 0, []⟩ : Session Login.SState).step Login.server refuses
    ⟨some (b!"p"), []⟩ = (⟨.ok (.finished .no), []⟩, ⟨.done, some [3], fun _ => 0,
      [.validated (.chain [⟨.authId, c!"u"⟩, ⟨.password, b!"p"⟩])]⟩) := by
  rw [C105_login refuses _ (c!"u") rfl]
  rfl

example : ((⟨(), none, fun _ => 0, []⟩ : Session Unit).step External.server
    { exampleEnv [] with validate := fun _ _ _ => .ret (.error .missingRequiredProperty) } ⟨none, []⟩).1 =
    ⟨.err (.validationError .missingRequiredProperty), []⟩ := by
  rw [C105_external _ _ ⟨none, []⟩ [] rfl]
  rfl

example : ((⟨(), none, fun _ => 0, []⟩ : Session Unit).step Anonymous.server refuses ⟨some (b!"tok"), []⟩).2.slot = some [7] := by
  rw [C105_anonymous _ _ ⟨some (b!"tok"), []⟩ (c!"tok") (by decide)]
  rfl

/-- A token that is fine. -/
example (json : OAuthBearer.Json) : ((⟨.initial, none, fun _ => 0, []⟩ : Session OAuthSState).step (OAuthBearer.server json)
    (exampleEnv [⟨.oauthBearerValidate, .ok ()⟩]) ⟨some (b!"n,,\x01auth=Bearer t\x01\x01"), []⟩).1 = ⟨.ok (.finished .no), []⟩ := by
  rw [C105_oauthbearer json _ _ rfl _ none (c!"Bearer t") [] ⟨b!",", [.auth (c!"Bearer t")], by decide, by simp,
    .inr ⟨[], rfl, by simp⟩, by intro i hi; simp at hi; subst hi; unfold OAuthItem.Plain; decide, rfl, rfl⟩ [] (by intro r hr; simp at hr)]
  rfl

end Examples

end Rsasl

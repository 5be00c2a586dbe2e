/-
C61: a SCRAM client's first message says what the callbacks gave, and the client binds to the channel it
announces there.
-/
import Verif.Spec.ClientFirst
import Verif.Proofs.Upright
import Verif.Props.ScramClient

namespace Rsasl.Scram

open _root_.Rsasl.Spec

/-! ## The parts of the first step -/

theorem maybeNeedCbData_upright {S G : Type} {env : Env} (h : env.Upright) {name : Str}
    {f : Bytes → M S G} {s s' : S} {w w' : World} {r : Option G}
    (hf : ∀ v s w, ∃ g s', f v s w = (.ok g, s', w))
    (hr : maybeNeedCbData env name .empty f s w = (.ok r, s', w')) :
    (∃ es, FindsData env name none es ∧ r = none ∧ s' = s ∧ w' = w.addLog es) ∨
    ∃ data es g, FindsData env name (some data) es ∧ r = some g ∧
      f data s (w.addLog es) = (.ok g, s', w') := by
  unfold maybeNeedCbData at hr
  cases hc : env.chanbind name with
  | some data =>
    rw [hc] at hr
    obtain ⟨g, s1, w1, h1, h2⟩ := M.bind_eq_ok hr
    cases h2
    exact .inr ⟨data, [], g, .protocol data hc, rfl, by simpa using h1⟩
  | none =>
    rw [hc] at hr
    have hx : (Provider.and (.this ⟨.channelBindingName, name⟩) .empty).Exactly (nameOffer name) := by
      intro p
      cases p <;> rfl
    rcases maybeNeedWith_upright h (fun v s w e he => by
        obtain ⟨g, s', h⟩ := hf v s w
        rw [h] at he
        cases he) hr with ⟨es, ha, rfl, rfl, rfl⟩ | ⟨v, es, g, ha, rfl, he⟩
    · exact .inl ⟨es, .user _ _ _ hc hx ha, rfl, rfl, rfl⟩
    · exact .inr ⟨v, es, g, .user _ _ _ hc hx ha, rfl, he⟩

theorem needCbData_upright {S G : Type} {env : Env} (h : env.Upright) {name : Str}
    {f : Bytes → M S G} {s s' : S} {w w' : World} {g : G}
    (hf : ∀ v s w, ∃ g s', f v s w = (.ok g, s', w))
    (hr : needCbData env name .empty f s w = (.ok g, s', w')) :
    ∃ data es, FindsData env name (some data) es ∧ f data s (w.addLog es) = (.ok g, s', w') := by
  unfold needCbData at hr
  obtain ⟨r, s1, w1, h1, h2⟩ := M.bind_eq_ok hr
  rcases maybeNeedCbData_upright h hf h1 with ⟨es, -, rfl, -⟩ | ⟨data, es, g', ha, rfl, he⟩
  · cases h2
  · cases h2
    exact ⟨data, es, ha, he⟩

theorem clientCb_upright {env : Env} (h : env.Upright) {plus : CbSupport} {s' : CS × Gs2}
    {w w' : World} (hr : clientCb env plus (none, {}) w = (.ok (), s', w')) :
    ∃ flag data es, BindsAs env plus flag data es ∧ s'.1 = none ∧ s'.2.header = flagBytes flag ∧
      s'.2.cbdata.getD [] = data ∧ w' = w.addLog es := by
  cases plus with
  | clientNoSupport =>
    cases hr
    exact ⟨_, _, _, .off, rfl, rfl, rfl, by simp⟩
  | serverNoSupport =>
    cases hr
    exact ⟨_, _, _, .unoffered, rfl, rfl, rfl, by simp⟩
  | supported =>
    unfold clientCb at hr
    dsimp only at hr
    rw [M.bind_ok (pushHeader_apply ..)] at hr
    obtain ⟨r, s1, w1, h1, h2⟩ := M.bind_eq_ok hr
    rcases maybeNeedWith_upright h (fun v s w e he => by cases he) h1 with
      ⟨es, ha, rfl, rfl, rfl⟩ | ⟨v, es, g, ha, rfl, he⟩
    · dsimp only at h2
      obtain ⟨r, s2, w2, h3, h4⟩ := M.bind_eq_ok h2
      rcases maybeNeedCbData_upright h (fun v s w => ⟨_, _, rfl⟩) h3 with
        ⟨es', hb, rfl, rfl, rfl⟩ | ⟨data, es', g, hb, rfl, he⟩
      · dsimp only at h4
        obtain ⟨data, es'', hc, he⟩ := needCbData_upright h (fun v s w => ⟨_, _, rfl⟩) h4
        cases he
        exact ⟨_, _, _, .used _ _ _ (.unique data _ _ _ ha hb hc), rfl, rfl, rfl, by simp⟩
      · cases he
        cases h4
        exact ⟨_, _, _, .used _ _ _ (.exporter data _ _ ha hb), rfl, rfl, rfl, by simp⟩
    · dsimp only at h2
      cases he
      obtain ⟨data, es', hc, he⟩ := needCbData_upright h (fun v s w => ⟨_, _, rfl⟩) h2
      cases he
      exact ⟨_, _, _, .used _ _ _ (.override v data _ _ ha hc), rfl, rfl, rfl, by simp⟩

theorem clientAuthzid_apply (v : Str) (s : CS × Gs2) (w : World) :
    clientAuthzid v s w = match escape v with
      | .ok x => (.ok (), (s.1, { s.2 with header := s.2.header ++ b!"a=" ++ Str.bytes x }), w)
      | .error e => (.err (.mechanismError (.saslName e)),
          (s.1, { s.2 with header := s.2.header ++ b!"a=" }), w) := by
  unfold clientAuthzid escapeM
  rw [M.bind_ok (pushHeader_apply ..)]
  cases escape v <;> rfl

/-- The first step of a client with an upright callback, if it succeeds. -/
theorem sendClientFirst_upright {n : Nat} {env : Env} (h : env.Upright) {plus : CbSupport}
    {s' : CS × Gs2} {w w' : World} {new : CState}
    (hr : sendClientFirst n env plus (none, {}) w = (.ok new, s', w')) :
    ∃ asked flag data authz user o sched, Says env plus asked flag data authz user ∧
      new = .clientFirst (Base64.encode (gs2Header flag authz ++ data))
        (((List.range n).map w.rng).map nonceChar) user ∧
      o <+: gs2Header flag authz ++
        clientFirstBare user (((List.range n).map w.rng).map nonceChar) ∧
      (Cooperative w.wr.sched → o = gs2Header flag authz ++
        clientFirstBare user (((List.range n).map w.rng).map nonceChar)) ∧
      w' = World.after w o sched (fun i => w.rng (i + n)) asked := by
  unfold sendClientFirst at hr
  obtain ⟨_, s1, w1, h1, k1⟩ := M.bind_eq_ok hr
  obtain ⟨flag, data, es, hb, e1, e2, e3, rfl⟩ := clientCb_upright h h1
  rw [M.bind_ok (pushHeader_apply ..)] at k1
  obtain ⟨a, s3, w3, h3, k3⟩ := M.bind_eq_ok k1
  have hz : ∃ authzid authz es', Asked .authzId .empty authzid es' ∧ EscapesOpt authzid authz ∧
      s3 = (none, ⟨flagBytes flag ++ b!"," ++ authzidBytes (b!"a=") authz, s1.2.cbdata⟩) ∧
      w3 = (w.addLog es).addLog es' := by
    rcases maybeNeedWith_upright h (fun v s w e he => by
        rw [clientAuthzid_apply] at he
        cases hx : escape v with
        | ok x => rw [hx] at he; cases he
        | error x => rw [hx] at he; cases he; rfl) h3 with
      ⟨es', ha, rfl, rfl, rfl⟩ | ⟨v, es', g, ha, rfl, he⟩
    · exact ⟨none, none, es', ha, .none, by rw [e1, e2]; simp [authzidBytes], rfl⟩
    · rw [clientAuthzid_apply] at he
      cases hx : escape v with
      | error x => rw [hx] at he; cases he
      | ok x =>
        rw [hx] at he
        cases he
        refine ⟨_, some x, es', ha, .some (C32_rfc _ _ hx), ?_, rfl⟩
        rw [e1, e2]
        simp [authzidBytes]
  obtain ⟨authzid, authz, es', ha, hesc, rfl, rfl⟩ := hz
  rw [M.bind_ok (pushHeader_apply ..)] at k3
  obtain ⟨user, s5, w5, h5, k5⟩ := M.bind_eq_ok k3
  obtain ⟨name, es'', hi, he⟩ := needWith_upright h (fun v s w e he => by
    unfold escapeM at he
    cases hx : escape v with
    | ok x => rw [hx] at he; cases he
    | error x => rw [hx] at he; cases he; rfl) h5
  unfold escapeM at he
  cases hx : escape name with
  | error x => rw [hx] at he; cases he
  | ok x =>
    rw [hx] at he
    cases he
    rw [M.bind_ok (generateNonce_apply ..), M.bind_ok (M.get_apply ..)] at k5
    obtain ⟨_, s8, w8, h8, hr⟩ := M.bind_eq_ok k5
    obtain ⟨e8, o, sched, ho1, ho2, ho3, e9⟩ := M.writeVectored_eq_ok h8
    clear h8 k5 k3 k1 h1 h3 h5
    have hrng : (((w.addLog es).addLog es').addLog es'').rng = w.rng := rfl
    rw [hrng] at hr ho1 ho3 e9
    generalize hn : ((List.range n).map w.rng).map nonceChar = nonce at *
    have hbare : ([flagBytes flag ++ b!"," ++ authzidBytes (b!"a=") authz ++ b!",", b!"n=",
        Str.bytes user, b!",r=", nonce] : List Bytes).flatten =
        gs2Header flag authz ++ clientFirstBare user nonce := by
      simp [gs2Header, clientFirstBare]
    have h' : new = .clientFirst (Base64.encode (gs2Header flag authz ++ data)) nonce user ∧
        w' = w8 := by
      rw [← e3]
      dsimp only at hr
      cases hc : s1.2.cbdata <;> rw [hc] at hr <;> cases hr <;> simp [gs2Header]
    obtain ⟨rfl, rfl⟩ := h'
    refine ⟨es ++ es' ++ es'', flag, data, authz, user, o, sched,
      ⟨es, es', es'', authzid, name, rfl, hb, ha, hesc, hi, C32_rfc _ _ hx⟩, rfl, ?_, ?_, ?_⟩
    · rw [← hbare]; exact ho1
    · intro hco; rw [← hbare]; exact ho3 hco
    · rw [e9]
      simp [World.after, World.addLog]

/-! ## C61 -/

/-- The first message of a client, `r0`, says what the callbacks gave, and the channel binding in its
second message, `r1`, is for this gs2 header and the data of the channel named in it. -/
def FirstMessage (d : Digest) (env : Env) (ses : Session CS) (plus : CbSupport) (c0 c1 : Call) : Prop :=
  let r0 := ses.step (client d) env c0
  let r1 := r0.2.step (client d) env c1
  ∀ st, r0.1.res = .ok st → ∃ asked flag data authz user nonce,
    r0.2.log = ses.log ++ asked ∧ Says env plus asked flag data authz user ∧
    r0.1.out <+: gs2Header flag authz ++ clientFirstBare user nonce ∧
    (Cooperative c0.sched → r0.1.out = gs2Header flag authz ++ clientFirstBare user nonce) ∧
    ∀ st, r1.1.res = .ok st → ∃ snonce proof,
      let final := clientFinalBare (Base64.encode (gs2Header flag authz ++ data)) (nonce ++ snonce) ++
        b!",p=" ++ proof
      r1.1.out <+: final ∧ (Cooperative c1.sched → r1.1.out = final)

/-- The full statement of C61. -/
def C61 : Prop :=
  ∀ (d : Digest) (env : Env) (ses : Session CS) (plus : CbSupport) (c0 c1 : Call),
    ses.st = some (.initial plus) → FirstMessage d env ses plus c0 c1

/-- C61 for callbacks that hand on the results of `satisfy`. Missing: other callbacks, for which it is
false (`C61_false`). -/
theorem C61_partial (d : Digest) (env : Env) (h : env.Upright) (ses : Session CS)
    (plus : CbSupport) (c0 c1 : Call) (hst : ses.st = some (.initial plus)) :
    FirstMessage d env ses plus c0 c1 := by
  unfold FirstMessage
  intro r0 r1 st hr
  obtain ⟨ss, slot, rng, log⟩ := ses
  dsimp only at hst
  subst hst
  rcases hs : clientStep d nonceLen env c0.input (some (.initial plus))
    ⟨⟨[], c0.sched⟩, rng, slot, log⟩ with ⟨o, s', w'⟩
  have he : r0 = (⟨o, w'.wr.out⟩, ⟨s', w'.slot, w'.rng, w'.log⟩) :=
    step_of (m := client d) (ses := ⟨_, slot, rng, log⟩) hs
  rw [he] at hr
  dsimp only at hr
  subst hr
  unfold clientStep at hs
  rw [M.bind_ok (M.get_apply ..), M.bind_ok (M.set_apply ..)] at hs
  dsimp only at hs
  obtain ⟨new, s1, w1, h1, h2⟩ := M.bind_eq_ok hs
  rw [M.bind_ok (M.set_apply ..)] at h2
  cases h2
  unfold M.withLocal at h1
  rcases hq : sendClientFirst nonceLen env plus (none, {}) ⟨⟨[], c0.sched⟩, rng, slot, log⟩ with
    ⟨o, ⟨s2, l⟩, w2⟩
  rw [hq] at h1
  cases h1
  obtain ⟨asked, flag, data, authz, user, o, sched, hsay, rfl, ho, ho', rfl⟩ :=
    sendClientFirst_upright h hq
  refine ⟨asked, flag, data, authz, user, ((List.range nonceLen).map rng).map nonceChar, ?_, hsay, ?_, ?_, ?_⟩
  · rw [he]; rfl
  · rw [he]; simpa [World.after] using ho
  · intro hc
    rw [he]
    simpa [World.after] using ho' hc
  · intro st hst
    rcases client_second d env r0.2 _ _ user (by rw [he]) c1 r1.1 r1.2 rfl with
      ⟨n1, -⟩ | ⟨b, sn, salt64, it64, salt, it, es, -, -, -, -, ⟨n1, -⟩ | ⟨ck, sk, auth, f, -⟩⟩
    · exact absurd hst (n1 st)
    · exact absurd hst (n1 st)
    · exact ⟨_, _, f.sent, f.whole⟩

/-! A callback that names a channel binding type and then ignores that the request is answered. -/

/-- It answers requests for `OverrideCBType` twice. -/
def eagerEnv : Env :=
  { exampleEnv [] with
    callback := fun _ _ _ => .satisfy .overrideCBType (c!"x") fun _ =>
      .satisfy .overrideCBType (c!"x") fun _ => answerAll [⟨.authId, c!"u"⟩]
    chanbind := fun name => if name = c!"tls-exporter" then some [1] else none }

/-- A client that was told to bind to the channel. -/
def plusClient : Session CS := { st := some (.initial .supported), rng := fun _ => 0 }

/-- It announces a channel binding type made up of two names, and binds to the second. -/
theorem C61_false : ¬ C61 := by
  intro h
  obtain ⟨asked, flag, data, authz, user, nonce, hl, ⟨es, es', es'', az, name, rfl, hb, -⟩, -, ho, -⟩ :=
    h toyDigest eagerEnv plusClient .supported ⟨none, []⟩ ⟨none, []⟩ rfl .running rfl
  have ho := ho (by unfold Cooperative; simp)
  have h1 : (plusClient.step (client toyDigest) eagerEnv ⟨none, []⟩).1.out.take 4 = b!"p=xt" := by
    decide +kernel
  have h2 : (plusClient.step (client toyDigest) eagerEnv ⟨none, []⟩).2.log =
      [.asked .overrideCBType .empty, .answered .overrideCBType (c!"x"), .asked .authzId .empty,
        .asked .authId .empty, .answered .authId (c!"u")] := rfl
  rw [ho] at h1
  rw [h2] at hl
  have e1 : Str.bytes (c!"tls-exporter") = b!"tls-exporter" := by decide +kernel
  have e2 : Str.bytes (c!"tls-unique") = b!"tls-unique" := by decide +kernel
  have e3 : Str.bytes (c!"x") = b!"x" := by decide +kernel
  cases hb with
  | used cb _ _ hp =>
    cases hp with
    | exporter es es' ha hf =>
      unfold gs2Header flagBytes at h1
      rw [e1] at h1
      simp at h1
    | unique es es' es'' ha hf hf' =>
      unfold gs2Header flagBytes at h1
      rw [e2] at h1
      simp at h1
    | override _ _ es0 es1 ha hf =>
      have hm : Event.answered .overrideCBType cb ∈ ([.asked .overrideCBType .empty,
          .answered .overrideCBType (c!"x"), .asked .authzId .empty, .asked .authId .empty,
          .answered .authId (c!"u")] : List Event) := by
        rw [hl]
        cases ha
        simp
      have hcb : cb = c!"x" := by
        simpa using hm
      subst hcb
      unfold gs2Header flagBytes at h1
      rw [e3] at h1
      simp at h1

/-- A callback with well-formed answers, as the documentation has it. -/
theorem answerAll_upright (pvs : List PV) (p : Property) : (answerAll pvs).Upright p := by
  induction pvs with
  | nil => trivial
  | cons pv pvs ih => exact ⟨fun _ e => rfl, fun _ => ih⟩

/-- A client that binds to the type its user names. -/
def namingEnv : Env :=
  { exampleEnv [⟨.overrideCBType, c!"tls-server-end-point"⟩, ⟨.authId, c!"user"⟩,
      ⟨.authzId, c!"a,b"⟩] with
    chanbind := fun name => if name = c!"tls-server-end-point" then some [1, 2] else none }

example : namingEnv.Upright ∧
    (plusClient.step (client toyDigest) namingEnv ⟨none, []⟩).1.res = .ok .running ∧
    (plusClient.step (client toyDigest) namingEnv ⟨none, []⟩).1.out.take 40 =
      b!"p=tls-server-end-point,a=a=2Cb,n=user,r=" :=
  ⟨fun _ _ _ => answerAll_upright _ _, rfl, by decide +kernel⟩

end Rsasl.Scram

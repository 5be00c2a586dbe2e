/-
C63: the servers of the examples.
-/
import Verif.Model.ExampleServers
import Verif.Props.EndToEnd
import Verif.Props.Reads
import Verif.Props.ScramServer

namespace Rsasl

open Spec Example

/-! ## Verdicts -/

theorem Example.Verdict.value_inj {a b : Verdict} (h : a.value = b.value) : a = b := by
  cases a <;> cases b <;> simp only [Verdict.value, List.cons.injEq, and_true, true_and] at h <;>
    first
    | rfl
    | exact absurd h (by decide)
    | exact absurd h.1 (by decide)
    | rw [Str.bytes_injective h]

/-- What the example's author expects of a user who logs in with a password, on their own or
(`authzid`) another's behalf. -/
def Spec.expected (authzid : Option Str) (authid : Str) (password : Bytes) : Verdict :=
  if authzid ≠ none ∧ authzid ≠ some authid then .authzBad
  else if authid = c!"username" then
    if password = b!"secret" then .ok authid else .passwdBad
  else .noSuchUser

/-- The authorization id a PLAIN message holds: none if the part before the first NUL is empty
(RFC 4616, section 2). -/
def Spec.sentAuthzid (field : Str) : Option Str := if field = [] then none else some field

/-! ## PLAIN -/

/-- The full statement of C63 for PLAIN: for every message the server of the example finishes with the
verdict its author expects. -/
def C63_plain : Prop :=
  ∀ (prep : Str → Option Str) (_ : ∀ s, prep [] = some s → s = []) (ses : Session Unit)
    (_ : ses.slot = none) (input : Bytes) (sched : List WResp) (authzid authid : Str)
    (password : Bytes), PlainMessage prep input authzid authid password →
    let r := ses.step (Plain.server prep) plainServer ⟨some input, sched⟩
    r.1.res = .ok (.finished .no) ∧
    r.2.slot = some (expected (sentAuthzid authzid) authid password).value

theorem plainServer_verdict (prep : Str → Option Str) (hprep : ∀ s, prep [] = some s → s = [])
    (ses : Session Unit) (hs : ses.slot = none) (input : Bytes) (sched : List WResp)
    (authzid authid : Str) (password : Bytes)
    (h : PlainMessage prep input authzid authid password) :
    let r := ses.step (Plain.server prep) plainServer ⟨some input, sched⟩
    r.1.res = .ok (.finished .no) ∧
    r.2.slot = some (expected (some authzid) authid password).value := by
  obtain ⟨ctx, hx, he⟩ := C09_accepts prep hprep plainServer ses input sched authzid authid password h
  refine he.accepted hx ?_ hs
  intro log ctx hx
  have e : plainVerdict ctx = some (expected (some authzid) authid password) := by
    unfold plainVerdict expected
    rw [hx .authId, hx .password, hx .authzId]
    simp only [plainOffer, Option.bind_eq_bind, Option.bind_some, Option.pure_def]
    by_cases h1 : authzid = authid
    · by_cases h2 : authid = c!"username" <;> by_cases h3 : password = b!"secret" <;>
        simp [h1, h2, h3]
    · simp [h1]
  show returned testValidation true (report (plainVerdict ctx)) = _ ∧
    firstValue testValidation (report (plainVerdict ctx)) = _
  rw [e]
  exact ⟨rfl, rfl⟩

/-- C63: the verdict the callback comes to on any context that has a name and a password, with an authorization id or
without: the one its author expects. -/
theorem C63_verdict (ctx : Provider) (authid : Str) (password : Bytes) (h1 : ctx.getRef .authId = some authid)
    (h2 : ctx.getRef .password = some password) :
    plainVerdict ctx = some (expected (ctx.getRef .authzId) authid password) := by
  unfold plainVerdict expected
  rw [h1, h2]
  generalize (ctx.getRef .authzId : Option Str) = z
  simp only [Option.bind_eq_bind, Option.bind_some, Option.pure_def]
  rcases z with _ | z
  · by_cases h4 : authid = c!"username" <;> by_cases h5 : password = b!"secret" <;> simp [h4, h5]
  · by_cases h3 : z = authid
    · subst h3
      by_cases h4 : z = c!"username" <;> by_cases h5 : password = b!"secret" <;> simp [h4, h5]
    · simp [h3]

/-- C63, PLAIN, for clients that send an authorization id. Missing: the others, for whom it is false
(`C63_false`). -/
theorem C63_plain_partial (prep : Str → Option Str) (hprep : ∀ s, prep [] = some s → s = [])
    (ses : Session Unit) (hs : ses.slot = none) (input : Bytes) (sched : List WResp)
    (authzid authid : Str) (password : Bytes)
    (h : PlainMessage prep input authzid authid password) (hz : authzid ≠ []) :
    let r := ses.step (Plain.server prep) plainServer ⟨some input, sched⟩
    r.1.res = .ok (.finished .no) ∧
    r.2.slot = some (expected (sentAuthzid authzid) authid password).value := by
  rw [sentAuthzid, if_neg hz]
  exact plainServer_verdict prep hprep ses hs input sched authzid authid password h

/-- The message of a client that asks to act as itself. -/
example : PlainMessage some (b!"username\x00username\x00secret") (c!"username") (c!"username")
    (b!"secret") :=
  ⟨c!"username", b!"secret", by decide +kernel, by decide +kernel, by decide +kernel,
    by decide +kernel, rfl, by decide, .inl ⟨c!"secret", c!"secret", by decide +kernel, rfl,
    by decide +kernel⟩, by decide⟩

/-- C63, PLAIN: without an authorization id everyone is refused, also with the right password. -/
theorem C63_plain_nobody (prep : Str → Option Str) (hprep : ∀ s, prep [] = some s → s = [])
    (ses : Session Unit) (hs : ses.slot = none) (input : Bytes) (sched : List WResp)
    (authid : Str) (password : Bytes) (h : PlainMessage prep input [] authid password) :
    let r := ses.step (Plain.server prep) plainServer ⟨some input, sched⟩
    r.1.res = .ok (.finished .no) ∧ r.2.slot = some Verdict.authzBad.value := by
  have h1 := plainServer_verdict prep hprep ses hs input sched [] authid password h
  obtain ⟨_, _, _, _, _, _, _, hne, _⟩ := h
  have e : expected (some []) authid password = .authzBad := by
    unfold expected
    rw [if_pos ⟨by simp, by simpa [eq_comm] using hne⟩]
  rwa [e] at h1

theorem example_message : PlainMessage some (b!"\x00username\x00secret") [] (c!"username")
    (b!"secret") :=
  ⟨c!"username", b!"secret", by decide +kernel, by decide +kernel, by decide +kernel,
    by decide +kernel, rfl, by decide, .inl ⟨c!"secret", c!"secret", by decide +kernel, rfl,
    by decide +kernel⟩, by decide⟩

/-- C63 is false for PLAIN: the first assertion of `examples/server_plain.rs` fails, the right password
is not accepted. -/
theorem C63_false : ¬ C63_plain := by
  intro h
  have hp : ∀ s : Str, some ([] : Str) = some s → s = [] := fun s h => (Option.some.inj h).symm
  have h1 := (h some hp { st := (), rng := fun _ => 0 } rfl _ [] _ _ _ example_message).2
  have h2 := (C63_plain_nobody some hp { st := (), rng := fun _ => 0 } rfl _ [] _ _
    example_message).2
  rw [h2] at h1
  exact absurd h1 (by decide +kernel)

/-! ## SCRAM -/

theorem scramVerdict_eq {ctx : Provider} {authzid : Option Str}
    (hx : ctx.Exactly (scramOffer (c!"username") authzid)) :
    scramVerdict ctx = some (expected authzid (c!"username") (b!"secret")) := by
  unfold scramVerdict expected
  rw [hx .authId, hx .authzId]
  simp only [scramOffer, Option.bind_eq_bind, Option.bind_some, Option.pure_def]
  by_cases h1 : authzid = none
  · simp [h1]
  · by_cases h2 : authzid = some (c!"username") <;> simp [h1, h2]

/-- C63, SCRAM: a client with the password of the user "username" is served to the end, and the
verdict is the expected one: itself, or, for another authorization id, `AuthzBad`. -/
theorem C63_scram_accepts (deps : Deps) (canCb : Bool) (cenv : Env) (authzid authzid' : Option Str)
    (password : Str) (salt : Bytes) (hc : cenv.HasCredentials authzid (c!"username") password)
    (hz : WrittenAsOpt authzid authzid')
    (client server : Started)
    (hcs : Auth.startClient deps (.scramClient .sha256 true) = some client)
    (hss : Auth.startServer deps (.scramServer .sha256 canCb) = some server) :
    Completes 3 .client client server cenv
      (scramServer ((deps.digest .sha256).hash (clientKey (deps.digest .sha256)
        ((deps.digest .sha256).pbkdf2 (Str.bytes password) salt 4096)))
        (serverKey (deps.digest .sha256)
          ((deps.digest .sha256).pbkdf2 (Str.bytes password) salt 4096)) salt)
      (expected authzid' (c!"username") (b!"secret")).value := by
  intro crng srng ws hl hw
  obtain ⟨w0, w1, w2, w3, w4, rfl⟩ := list_five hl
  refine C62_scram deps .sha256 canCb cenv _ authzid authzid' (c!"username") (c!"username") password
    hc ⟨by decide, escapes_username⟩ hz salt 4096 (by decide) ?_ _ ?_ client server hcs hss crng srng
    w0 w1 w2 w3 w4 ⟨hw _ (by simp), hw _ (by simp), hw _ (by simp), hw _ (by simp), hw _ (by simp)⟩
  · intro log ctx hx
    have e : ctx.getRef .authId = some (c!"username") := hx .authId
    show Answers _ _ (if ctx.getRef .authId = some (c!"username") then _ else _)
    rw [if_pos e]
    exact .satisfy _ (fun _ => rfl)
  · intro log ctx hx
    have e := scramVerdict_eq hx
    show returned testValidation true (report (scramVerdict ctx)) = _ ∧
      firstValue testValidation (report (scramVerdict ctx)) = _
    rw [e]
    exact ⟨rfl, rfl⟩

theorem firstSet_some {env : Env} {h es : List Event} {v : VVal} (hv : firstSet env h es = some v) :
    ∃ log, ∃ ctx ∈ validations es, firstValue env.vtag (env.validate log env.sd ctx) = some v := by
  induction es generalizing h with
  | nil => cases hv
  | cons e es ih =>
    cases e with
    | validated ctx =>
      simp only [firstSet, Option.or_eq_some_iff] at hv
      rcases hv with hv | ⟨-, hv⟩
      · exact ⟨h, ctx, by simp [validations], hv⟩
      · obtain ⟨log, ctx', hm, hv⟩ := ih hv
        exact ⟨log, ctx', by
          simp only [validations, List.filterMap_cons, List.mem_cons] at hm ⊢
          exact .inr hm, hv⟩
    | _ => exact ih hv

theorem afterAll_steps (m : Mech) (env : Env) (ses : Session m.S) (calls : List Call) :
    ses.afterAll m env (calls.map .step) = (ses.run m env calls).2 := by
  induction calls generalizing ses with
  | nil => rfl
  | cons c cs ih =>
    rw [run_cons]
    exact ih _

/-- C63, SCRAM: the only verdicts are `Ok("username")` and `AuthzBad`, and only for clients that prove
to know the stored key: a final message with a valid proof over the messages of this exchange was
given. `Ok` needs an authorization id equal to the name, or none. -/
theorem C63_scram_only (deps : Deps) (canCb : Bool) (storedKey serverKey salt : Bytes)
    (server : Started) (hss : Auth.startServer deps (.scramServer .sha256 canCb) = some server)
    (rng : Nat → Nat) (calls : List Call) (v : VVal)
    (hv : ((server.session rng).run server.mech (scramServer storedKey serverKey salt) calls).2.slot =
      some v) :
    ∃ (b0 b1 : Bytes) (flag : Scram.CbFlag) (authzid : Option Str) (cnonce snonce data auth
        given proof key : Bytes) (exts0 exts1 : List Bytes),
      some b0 ∈ calls.map (·.input) ∧ some b1 ∈ calls.map (·.input) ∧
      v = (expected authzid (c!"username") (b!"secret")).value ∧
      ClientFirstRead b0 flag key authzid (c!"username") cnonce exts0 ∧
      auth = authMessage (clientFirstBare (c!"username") cnonce)
        (serverFirst (cnonce ++ snonce) (Base64.encode salt) (b!"4096"))
        (clientFinalBare (Base64.encode (gs2Header flag authzid ++ data)) (cnonce ++ snonce)) ∧
      ProofGiven (deps.digest .sha256) ⟨4096, salt, storedKey, serverKey⟩
        (gs2Header flag authzid ++ data)        (cnonce ++ snonce) auth b1 exts1 given proof := by
  cases hss
  generalize henv : scramServer storedKey serverKey salt = env at hv
  have hb : BuiltinServer deps ⟨Scram.server (deps.digest .sha256), Scram.serverNew canCb⟩ :=
    ⟨.scramServer .sha256 canCb, rfl⟩
  have hslot := C16_session (.inl hb) env rng (calls.map .step) (by simp)
  rw [afterAll_steps] at hslot
  have hslot := hslot.symm.trans hv
  obtain ⟨log, ctx, hctx, hval⟩ := firstSet_some hslot
  obtain ⟨es, hlog, hno | ⟨c0, c1, rest, r0, r1, post, b0, flag, key, authzid, user, cnonce, exts0, data,
    snonce, stored, b1, auth, exts1, given, proof, rfl, -, hvs, hi0, hread, -, -, hlacks, hsup, -, -, -,
    -, hauth, hi1, hproof, -⟩⟩ := C26_partial (deps.digest .sha256) env
      (Started.session ⟨Scram.server (deps.digest .sha256), Scram.serverNew canCb⟩ rng) canCb rfl calls
  · have hlog : (Session.run _ env _ calls).2.log = es := hlog
    rw [hlog, hno] at hctx
    cases hctx
  · have hlog : (Session.run _ env _ (c0 :: c1 :: rest)).2.log = es := hlog
    rw [hlog, hvs, List.mem_singleton] at hctx
    subst hctx
    have hoff := Scram.serverProvider_exactly user authzid
    have huser : user = c!"username" := by
      refine Decidable.byContradiction fun hne => hlacks ?_
      intro log' ctx' hx'
      have e : ctx'.getRef .authId = some user := hx' .authId
      subst henv
      show Declines _ (if ctx'.getRef .authId = some (c!"username") then _ else _)
      rw [if_neg (by rw [e]; intro h; exact hne (Option.some.inj h))]
      exact .ok
    subst huser
    have hstored : stored = ⟨4096, salt, storedKey, serverKey⟩ := by
      refine hsup (· = ⟨4096, salt, storedKey, serverKey⟩) ?_
      intro log' ctx' hx'
      have e : ctx'.getRef .authId = some (c!"username") := hx' .authId
      subst henv
      show (if ctx'.getRef .authId = some (c!"username") then _ else _ : CbProg).Supplies _ _
      rw [if_pos e]
      exact ⟨fun _ => rfl, fun r => by cases r <;> trivial⟩
    subst hstored
    have hverdict : scramVerdict (Scram.serverProvider (c!"username") authzid) =
        some (expected authzid (c!"username") (b!"secret")) := scramVerdict_eq hoff
    have hv' : v = (expected authzid (c!"username") (b!"secret")).value := by
      subst henv
      have hval : firstValue testValidation (report (scramVerdict
        (Scram.serverProvider (c!"username") authzid))) = some v := hval
      rw [hverdict] at hval
      exact (Option.some.inj hval).symm
    have e4096 : storedCount ⟨4096, salt, storedKey, serverKey⟩ = b!"4096" := by
      show Str.bytes (Scram.decimal 4096) = _
      decide +kernel
    rw [e4096] at hauth
    exact ⟨b0, b1, flag, authzid, cnonce, snonce, data, auth, given, proof, key, exts0, exts1,
      by simp [hi0], by simp [hi1], hv', hread, hauth, hproof⟩

/-- The client of the example. -/
def exampleClient : Env :=
  { exampleEnv [] with callback := fun _ _ _ => credentialCallback none (c!"username") (c!"secret") }

/-- It meets the hypotheses of `C63_scram_accepts`, so `C63_scram_only` is not vacuous either. -/
example : exampleClient.HasCredentials none (c!"username") (c!"secret") ∧ WrittenAsOpt none none :=
  ⟨fun _ _ => rfl, trivial⟩

end Rsasl

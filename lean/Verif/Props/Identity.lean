/-
C119: to the server's application a user is the same whatever the mechanism.
-/
import Verif.Spec.Identity
import Verif.Props.EndToEnd
import Verif.Props.Spelling

namespace Rsasl

open Spec

theorem escapes_self {name : Str} (h0 : '\x00' ∉ name) (h : PlainName name) : Escapes name name := by
  induction name with
  | nil => exact .nil
  | cons c s ih =>
    obtain ⟨h1, h2⟩ := h
    simp only [List.mem_cons, not_or] at h0 h1 h2
    exact .other c (Ne.symm h1.1) (Ne.symm h2.1) (Ne.symm h0.1) (ih h0.2 ⟨h1.2, h2.2⟩)

/-- C119, SCRAM: with every server, for names without ',' and '='. -/
theorem C119_scram_partial (deps : Deps) (h : Hash) (canCb : Bool) (cenv senv : Env) (authzid : Option Str) (authid password : Str)
    (hc : cenv.HasCredentials authzid authid password) (hn : authid ≠ [] ∧ '\x00' ∉ authid ∧ PlainName authid)
    (hz : ∀ z, authzid = some z → z ≠ [] ∧ '\x00' ∉ z ∧ PlainName z)
    (client server : Started) (hcs : Auth.startClient deps (.scramClient h true) = some client)
    (hss : Auth.startServer deps (.scramServer h canCb) = some server) (crng srng : Nat → Nat) (w0 w1 w2 w3 w4 : List WResp)
    (hw : Cooperative w0) :
    ShownExactly authid authzid
      (talk [w0, w1, w2, w3, w4] none (start client cenv crng) (start server senv srng)).2.2.ses.log := by
  cases hcs
  cases hss
  rcases h0 : Session.step (Scram.client (deps.digest h)) cenv
    { st := Scram.clientNew true, rng := crng } ⟨none, w0⟩ with ⟨r0, c1⟩
  rcases h1 : Session.step (Scram.server (deps.digest h)) senv
    { st := Scram.serverNew canCb, rng := srng } ⟨some r0.out, w1⟩ with ⟨r1, s1⟩
  rcases h2 : Session.step (Scram.client (deps.digest h)) cenv c1 ⟨some r1.out, w2⟩ with ⟨r2, c2⟩
  rcases h3 : Session.step (Scram.server (deps.digest h)) senv s1 ⟨some r2.out, w3⟩ with ⟨r3, s2⟩
  rcases h4 : Session.step (Scram.client (deps.digest h)) cenv c2 ⟨some r3.out, w4⟩ with ⟨r4, c3⟩
  have hz' : WrittenAsOpt authzid authzid := by
    cases authzid with
    | none => trivial
    | some z => exact ⟨(hz z rfl).1, escapes_self (hz z rfl).2.1 (hz z rfl).2.2⟩
  obtain ⟨es, hl, hs⟩ := C33_partial (deps.digest h) cenv senv .clientNoSupport canCb .notSupported [] authid authid authzid authzid
    (hc.offers .authId) ⟨hn.1, escapes_self hn.2.1 hn.2.2⟩ (hc.offers .authzId) hz' hn.2.2 (fun z e => (hz z e).2.2) ⟨rfl, rfl⟩
    trivial _ _ rfl none w0 hw r0 h0 { st := Scram.serverNew canCb, rng := srng } rfl w1 [⟨some r2.out, w3⟩]
  have ht := talk_five (A := Scram.client (deps.digest h)) (B := Scram.server (deps.digest h)) h0 h1 h2 h3 h4
  show ShownExactly authid authzid (talk _ _ ⟨_, _, _⟩ ⟨_, _, _⟩).2.2.ses.log
  erw [ht]
  rw [run_cons, h1] at hl
  dsimp only at hl
  rw [run_cons, h3] at hl
  intro ctx hctx
  have hl : s2.log = [] ++ es := hl
  rw [List.nil_append] at hl
  exact hs (.validated ctx) (hl ▸ hctx) ctx rfl

/-- C119, LOGIN: for every name; there is no name to act as. -/
theorem C119_login (deps : Deps) (cenv senv : Env) (authid password : Str) (hc : cenv.HasCredentials none authid password)
    (client server : Started) (hcs : Auth.startClient deps .login = some client)
    (hss : Auth.startServer deps .login = some server) (crng srng : Nat → Nat) (w0 w1 w2 w3 w4 : List WResp)
    (hw : Patient w0 ∧ Patient w1 ∧ Patient w2 ∧ Patient w3) :
    ShownExactly authid none
      (talk [w0, w1, w2, w3, w4] none (start server senv srng) (start client cenv crng)).2.1.ses.log := by
  cases hcs
  cases hss
  obtain ⟨hw0, hw1, hw2, hw3⟩ := hw
  simp only [talk, Party.step, start, Started.session]
  obtain ⟨-, -, -, -, hlog, -, ctx, hx, he, -⟩ := C10_exchange cenv senv authid
    (Str.bytes password) (hc.offers .authId) (hc.offers .password)
    { st := .authid, rng := crng } { st := .new, rng := srng } rfl rfl none _ _ w0 w1 w2 w3 w4
    hw0 hw1 hw2 hw3
  obtain ⟨es, hq, hl⟩ := he.log
  rw [hlog] at hl
  intro ctx' hctx
  have hctx : Event.validated ctx' ∈ [] ++ Event.validated ctx :: es := hl ▸ hctx
  rw [List.nil_append] at hctx
  rcases List.mem_cons.1 hctx with h | h
  · cases h
    exact ⟨hx .authId, hx .authzId⟩
  · obtain ⟨t, ht⟩ := hq _ h
    cases ht

/-- C119, PLAIN: for names that the preparation leaves as they are. -/
theorem C119_plain_partial (deps : Deps) (cenv senv : Env) (authzid : Option Str) (authid password : Str)
    (hc : cenv.HasCredentials authzid authid password) (hn : authid ≠ [] ∧ '\x00' ∉ authid) (hp : password ≠ [] ∧ '\x00' ∉ password)
    (hz : ∀ z, authzid = some z → '\x00' ∉ z) (hprep : deps.prep authid = some authid)
    (client server : Started) (hcs : Auth.startClient deps .plain = some client)
    (hss : Auth.startServer deps .plain = some server) (crng srng : Nat → Nat) (w0 w1 : List WResp) (hw : Patient w0) :
    ShownUser authid authzid (talk [w0, w1] none (start client cenv crng) (start server senv srng)).2.2.ses.log := by
  cases hcs
  cases hss
  simp only [talk, Party.step, start, Started.session]
  have nz : ∀ z ∈ authzid, (0 : UInt8) ∉ Str.bytes z := fun z h => nul_notMem (hz z h)
  have np : Str.bytes password ≠ [] := by rw [Ne, Str.bytes_eq_nil]; exact hp.1
  by_cases hpw : ∃ p, deps.prep password = some p ∧ p ≠ []
  · obtain ⟨p, hpw, hp0⟩ := hpw
    obtain ⟨-, ctx, hx, he⟩ := C07_round_trip deps.prep cenv senv authzid authid authid (Str.bytes password) (Str.bytes p)
      (hc.offers .authzId) (hc.offers .authId) (hc.offers .password) nz (nul_notMem hn.2) (nul_notMem hp.2) hn.1 np hprep hn.1
      (.inl ⟨password, p, rfl, hpw, rfl⟩) (by rw [Ne, Str.bytes_eq_nil]; exact hp0) { st := (), rng := crng }
      { st := (), rng := srng } none w0 w1 hw
    obtain ⟨es, hq, hl⟩ := he.log
    intro ctx' hctx
    have hctx : Event.validated ctx' ∈ [] ++ Event.validated ctx :: es := hl ▸ hctx
    rw [List.nil_append] at hctx
    rcases List.mem_cons.1 hctx with h | h
    · cases h
      refine ⟨hx .authId, ?_⟩
      rw [hx .authzId]
      rfl
    · obtain ⟨t, ht⟩ := hq _ h
      cases ht
  · obtain ⟨es, _, he⟩ := (Plain.client_does (hc.offers .authzId) (hc.offers .authId) (hc.offers .password) nz (nul_notMem hn.2)
      (nul_notMem hp.2) hn.1 np none).exec (ses := { st := (), rng := crng }) hw
    have he : Session.step Plain.client cenv { st := (), rng := crng } ⟨none, w0⟩ = _ := he
    rw [he]
    have hm : Str.bytes (authzid.getD []) ++ 0 :: (Str.bytes authid ++ 0 :: Str.bytes password) =
        plainWire (authzid.getD []) authid password := by simp [plainWire]
    have hz0 : '\x00' ∉ authzid.getD [] := by
      cases authzid with
      | none => exact List.not_mem_nil
      | some z => exact hz z rfl
    have hs := plain_prepared deps.prep senv hz0 hn.2 hp.2 hn.1 hp.1
    rw [hprep] at hs
    have hf : ∃ e, ∀ s w, plainPrepared senv (authzid.getD []) (some authid) (deps.prep password) s w = (.err e, s, w) := by
      unfold plainPrepared
      cases hpr : deps.prep password with
      | none =>
        refine ⟨Plain.plainErr .saslprep, fun s w => ?_⟩
        rw [M.bind_ok (M.okOr_some ..), if_neg (by simpa using hn.1)]
        rfl
      | some q =>
        obtain rfl : q = [] := by
          by_cases h : q = []
          · exact h
          · exact absurd ⟨q, hpr, h⟩ hpw
        refine ⟨Plain.plainErr .empty, fun s w => ?_⟩
        rw [M.bind_ok (M.okOr_some ..), if_neg (by simpa using hn.1)]
        rfl
    obtain ⟨e, hf⟩ := hf
    have hl := step_of (m := Plain.server deps.prep) (env := senv) (ses := { st := (), rng := srng })
      (c := ⟨some (plainWire (authzid.getD []) authid password), w1⟩) (by
        show Plain.serverStep deps.prep senv _ _ _ = _
        rw [hs]
        exact hf _ _)
    intro ctx hctx
    rw [← hm] at hl
    have hctx : Event.validated ctx ∈ (Session.step (Plain.server deps.prep) senv _ _).2.log := hctx
    erw [hl] at hctx
    cases hctx

/-- C119: credentials given to `SASLConfig::with_credentials` are the same user for the server's application, whichever of
the mechanisms for credentials is used and whatever the server's callback does.

Missing: names with ',' or '=' (`C119_false_name`), names that the preparation changes (`C119_false_spelling`); and PLAIN shows an
empty name to act as if there is none (`C119_false_absent`). -/
theorem C119_partial (deps : Deps) (authzid : Option Str) (authid password : Str) (m : Mechanism) (a b : Auth)
    (hm : ForCredentials authzid m) (hab : StartedPair m a b) (cenv senv : Env)
    (hc : cenv.HasCredentials authzid authid password) (hn : authid ≠ [] ∧ '\x00' ∉ authid ∧ PlainName authid)
    (hprep : deps.prep authid = some authid) (hz : ∀ z, authzid = some z → z ≠ [] ∧ '\x00' ∉ z ∧ PlainName z)
    (hp : password ≠ [] ∧ '\x00' ∉ password) (client server : Started) (hcs : Auth.startClient deps a = some client)
    (hss : Auth.startServer deps b = some server) (crng srng : Nat → Nat) (ws : List (List WResp))
    (hl : ws.length = if m.name = PLAIN.name then 2 else 5) (hw : ∀ w ∈ ws, Cooperative w) :
    ShownUser authid authzid (serverLog m.first ws (start client cenv crng) (start server senv srng)) := by
  have weaken : ∀ {l}, ShownExactly authid authzid l → ShownUser authid authzid l := fun h ctx hx =>
    ⟨(h ctx hx).1, by rw [(h ctx hx).2]⟩
  rcases hab with ⟨h, canCb, rfl, rfl, rfl⟩ | ⟨rfl, rfl, rfl⟩ | ⟨rfl, rfl, rfl⟩
  · rw [if_neg (by cases h <;> decide)] at hl
    obtain ⟨w0, w1, w2, w3, w4, rfl⟩ := list_five hl
    exact weaken (C119_scram_partial deps h canCb cenv senv authzid authid password hc hn hz client server hcs hss crng srng w0 w1 w2
      w3 w4 (hw _ (by simp)))
  · rw [if_pos rfl] at hl
    obtain ⟨w0, w1, rfl⟩ := list_two hl
    exact C119_plain_partial deps cenv senv authzid authid password hc ⟨hn.1, hn.2.1⟩ hp (fun z e => (hz z e).2.1) hprep client server
      hcs hss crng srng w0 w1 (hw _ (by simp)).patient
  · have hnone : authzid = none := by
      rcases hm with ⟨h, hm⟩ | hm | ⟨-, h⟩
      · exact absurd (congrArg (·.name) hm) (by cases h <;> decide)
      · exact absurd (congrArg (·.name) hm) (by decide)
      · exact h
    subst hnone
    rw [if_neg (by decide)] at hl
    obtain ⟨w0, w1, w2, w3, w4, rfl⟩ := list_five hl
    exact weaken (C119_login deps cenv senv authid password hc client server hcs hss crng srng w0 w1 w2 w3 w4
      ⟨(hw _ (by simp)).patient, (hw _ (by simp)).patient, (hw _ (by simp)).patient, (hw _ (by simp)).patient⟩)

/-! ## What is missing -/

/-- The names that validate was shown. -/
def shownNames (log : List Event) : List (Option Str × Option Str) :=
  log.filterMap fun
    | .validated ctx => some (ctx.getRef .authId, ctx.getRef .authzId)
    | _ => none

theorem shown_of_mem {log : List Event} {x y : Option Str} (h : (x, y) ∈ shownNames log) :
    ∃ ctx, .validated ctx ∈ log ∧ ctx.getRef .authId = x ∧ ctx.getRef .authzId = y := by
  obtain ⟨e, he, h⟩ := List.mem_filterMap.1 h
  split at h
  · cases h
    exact ⟨_, he, rfl, rfl⟩
  · cases h

/-- A client made with `SASLConfig::with_credentials`. -/
def givenEnv (authzid : Option Str) (authid password : Str) : Env :=
  { exampleEnv [] with callback := fun _ _ _ => credentialCallback authzid authid password }

theorem givenEnv_has (authzid : Option Str) (authid password : Str) :
    (givenEnv authzid authid password).HasCredentials authzid authid password := fun _ _ => rfl

/-- Dependencies with one rule of SASLprep. -/
def hyphenDeps : Deps := { toyDeps with prep := withoutHyphens }

/-- A talk over SCRAM, PLAIN or LOGIN with a server that lets everyone in. -/
def scramLog (authid : Str) : List Event :=
  serverLog .client [[], [], [], [], []]
    (start ⟨Scram.client toyDigest, Scram.clientNew true⟩ (givenEnv none authid (c!"secret")) fun i => i)
    (start ⟨Scram.server toyDigest, Scram.serverNew true⟩ knowingEnv fun i => i + 5)

def plainLog (authid : Str) : List Event :=
  serverLog .client [[], []] (start ⟨Plain.client, ()⟩ (givenEnv none authid (c!"secret")) fun i => i)
    (start ⟨Plain.server withoutHyphens, ()⟩ knowingEnv fun i => i)

def loginLog (authid : Str) : List Event :=
  serverLog .server [[], [], [], [], []] (start ⟨Login.client, .authid⟩ (givenEnv none authid (c!"secret")) fun i => i)
    (start ⟨Login.server, .new⟩ knowingEnv fun i => i)

/-- The full claim fails for the user "a,b": SCRAM shows another name than PLAIN and LOGIN do. -/
theorem C119_false_name : ¬ ShownUser (c!"a,b") none (scramLog (c!"a,b")) ∧ shownNames (scramLog (c!"a,b")) = [(some (c!"a=2Cb"), none)] ∧
    shownNames (plainLog (c!"a,b")) = [(some (c!"a,b"), some [])] ∧ shownNames (loginLog (c!"a,b")) = [(some (c!"a,b"), none)] := by
  have h : shownNames (scramLog (c!"a,b")) = [(some (c!"a=2Cb"), none)] := by decide +kernel
  refine ⟨fun hs => ?_, h, by decide +kernel, by decide +kernel⟩
  obtain ⟨ctx, hm, h1, -⟩ := shown_of_mem (h ▸ List.mem_singleton_self _)
  exact absurd (h1.symm.trans (hs ctx hm).1) (by decide)

/-- The full claim fails for a name with a soft hyphen: PLAIN shows it without, LOGIN and SCRAM with it. -/
theorem C119_false_spelling : ¬ ShownUser hyphened none (plainLog hyphened) ∧
    shownNames (plainLog hyphened) = [(some (c!"IX"), some [])] ∧ shownNames (loginLog hyphened) = [(some hyphened, none)] ∧
    shownNames (scramLog hyphened) = [(some hyphened, none)] := by
  have h : shownNames (plainLog hyphened) = [(some (c!"IX"), some [])] := by decide +kernel
  refine ⟨fun hs => ?_, h, by decide +kernel, by decide +kernel⟩
  obtain ⟨ctx, hm, h1, -⟩ := shown_of_mem (h ▸ List.mem_singleton_self _)
  exact absurd (h1.symm.trans (hs ctx hm).1) (by decide)

/-- The full claim fails for a user who acts as nobody else: PLAIN shows an empty name to act as, SCRAM and LOGIN show none. -/
theorem C119_false_absent : ¬ ShownExactly (c!"u") none (plainLog (c!"u")) ∧ ShownExactly (c!"u") none (scramLog (c!"u")) ∧
    ShownExactly (c!"u") none (loginLog (c!"u")) := by
  have h : shownNames (plainLog (c!"u")) = [(some (c!"u"), some [])] := by decide +kernel
  refine ⟨fun hs => ?_, ?_, ?_⟩
  · obtain ⟨ctx, hm, -, h2⟩ := shown_of_mem (h ▸ List.mem_singleton_self _)
    exact absurd (h2.symm.trans (hs ctx hm).2) (by decide)
  · exact C119_scram_partial toyDeps .sha1 true (givenEnv none (c!"u") (c!"secret")) knowingEnv none (c!"u") (c!"secret")
      (givenEnv_has _ _ _) (by unfold PlainName; decide) nofun ⟨Scram.client toyDigest, Scram.clientNew true⟩
      ⟨Scram.server toyDigest, Scram.serverNew true⟩ rfl rfl (fun i => i) (fun i => i + 5) [] [] [] [] [] (by intro r hr; simp at hr)
  · exact C119_login toyDeps (givenEnv none (c!"u") (c!"secret")) knowingEnv (c!"u") (c!"secret") (givenEnv_has _ _ _)
      ⟨Login.client, .authid⟩ ⟨Login.server, .new⟩ rfl rfl (fun i => i) (fun i => i) [] [] [] [] [] (by simp [Patient])

/-! ## The assumptions -/

/-- A user who acts as another one, over PLAIN and SCRAM. -/
example (m : Mechanism) (a b : Auth) (hm : ForCredentials (some (c!"alice")) m) (hab : StartedPair m a b) (client server : Started)
    (hcs : Auth.startClient hyphenDeps a = some client) (hss : Auth.startServer hyphenDeps b = some server) (ws : List (List WResp))
    (hl : ws.length = if m.name = PLAIN.name then 2 else 5) (hw : ∀ w ∈ ws, Cooperative w) :
    ShownUser (c!"bob") (some (c!"alice")) (serverLog m.first ws
      (start client (givenEnv (some (c!"alice")) (c!"bob") (c!"secret")) id) (start server knowingEnv id)) :=
  C119_partial hyphenDeps _ _ (c!"secret") m a b hm hab _ _ (givenEnv_has _ _ _) (by unfold PlainName; decide) (by decide)
    (by rintro z ⟨⟩; unfold PlainName; decide) (by decide) client server hcs hss _ _ ws hl hw

/-- Each of the three mechanisms for credentials. -/
example : ForCredentials (some (c!"alice")) PLAIN ∧ ForCredentials (some (c!"alice")) (SCRAM .sha256) ∧ ForCredentials none LOGIN ∧
    StartedPair PLAIN .plain .plain ∧ StartedPair (SCRAM .sha256) (.scramClient .sha256 true) (.scramServer .sha256 false) ∧
    StartedPair LOGIN .login .login :=
  ⟨.inr (.inl rfl), .inl ⟨_, rfl⟩, .inr (.inr ⟨rfl, rfl⟩), .inr (.inl ⟨rfl, rfl, rfl⟩), .inl ⟨_, _, rfl, rfl, rfl⟩,
    .inr (.inr ⟨rfl, rfl, rfl⟩)⟩

end Rsasl

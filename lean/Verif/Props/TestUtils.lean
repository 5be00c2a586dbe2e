/-
C98: the sessions of the test utilities are those of applications.
-/
import Verif.Model.TestUtils
import Verif.Props.Selection
import Verif.Props.Preference
import Verif.Spec.Talk

namespace Rsasl

open TestUtils

/-- C98: what a client without channel bindings selects, from any configuration and offer, is what
`client_session` makes for that mechanism. -/
theorem C98_client (cfg : Config) (hk : cfg.Known) (hc : cfg.enableCb = false) (offered : List Bytes)
    (a : Auth) (m : Mechanism) (h : cfg.clientStart offered = .ok (a, m)) (config : Config) :
    clientSession config m = .ok (a, m) := by
  obtain ⟨hm, hu, -, ha⟩ := clientStart_ok hk h
  rw [hc] at hu ha
  rcases hk m hm with hs | ⟨h', rfl⟩ | ⟨h', rfl⟩
  · rw [Spec.authFor, hs] at ha
    simp only at ha
    split at ha
    · next a' hcl =>
      cases ha
      simp only [clientSession, hcl]
    · cases ha
    · cases ha
  · cases ha
    rfl
  · cases hu.1

/-- C98: and all that `client_session` makes can be selected, if channel bindings are enabled for the
mechanisms with `-PLUS`. -/
theorem C98_client_all (config : Config) (m m' : Mechanism) (hk : Spec.Known m) (a : Auth)
    (h : clientSession config m = .ok (a, m')) :
    m' = m ∧ ∃ cb, (cb = true ↔ ∃ hash, m = SCRAMPLUS hash) ∧
      (Config.mk [m] cb defaultPrefer).clientStart [m.name] = .ok (a, m) := by
  have hcl : m.client = some (.ok a) ∧ m' = m := by
    unfold clientSession at h
    split at h
    · next hcl => cases h; exact ⟨hcl, rfl⟩
    · cases h
    · cases h
  refine ⟨hcl.2, ?_⟩
  have chosen_one : ∀ x : Mechanism, chosen defaultPrefer [x] = some x := fun _ => rfl
  have known : ∀ cb, (Config.mk [m] cb defaultPrefer).Known := fun cb x hx => by
    cases List.mem_singleton.1 hx
    exact hk
  by_cases hp : ∃ hash, m = SCRAMPLUS hash
  · refine ⟨true, by simp [hp], ?_⟩
    rw [clientStart_eq _ (known true)]
    obtain ⟨hash, rfl⟩ := hp
    rw [List.filter_cons_of_pos (by simp [Spec.Usable, SCRAMPLUS]), List.filter_nil, chosen_one]
    cases hcl.1
    rfl
  · refine ⟨false, by simp [hp], ?_⟩
    rw [clientStart_eq _ (known false)]
    rcases hk with hs | ⟨hash, rfl⟩ | h'
    · rw [List.filter_cons_of_pos (by simp [Spec.Usable, hs]), List.filter_nil, chosen_one]
      simp only [Spec.authFor, hs, hcl.1]
    · rw [List.filter_cons_of_pos (by simp [Spec.Usable, SCRAM]), List.filter_nil, chosen_one]
      cases hcl.1
      rfl
    · exact absurd h' hp

/-- C98: a client with channel bindings differs: its SCRAM session is the one of `client_session` if and
only if the server offered the `-PLUS` mechanism, too. -/
theorem C98_client_cb (cfg : Config) (hk : cfg.Known) (hc : cfg.enableCb = true) (offered : List Bytes)
    (a : Auth) (hash : Hash) (h : cfg.clientStart offered = .ok (a, SCRAM hash)) (config : Config) :
    clientSession config (SCRAM hash) = .ok (a, SCRAM hash) ↔ hash.plusName ∈ offered := by
  obtain ⟨-, -, -, ha⟩ := clientStart_ok hk h
  rw [hc] at ha
  have : a = .scramClient hash (decide (hash.plusName ∈ offered)) := by
    have : Spec.authFor true offered (SCRAM hash) =
        .ok (.scramClient hash (decide (hash.plusName ∈ offered))) := by
      simp [Spec.authFor, SCRAM]
    rw [this] at ha
    cases ha
    rfl
  subst this
  simp [clientSession, SCRAM]

/-- C98: what a server starts is what `server_session` makes with its configuration. -/
theorem C98_server (cfg : Config) (selected : Bytes) (a : Auth) (m : Mechanism)
    (h : cfg.serverStart selected = .ok (a, m)) : serverSession cfg m = .ok (a, m) := by
  obtain ⟨_, _, start, -, -, hs, ha, -⟩ := (C05_start cfg selected a m).1 h
  simp only [serverSession, hs, ha]

/-- C98: and what `server_session` makes, a server with the mechanism before all others of the name
starts, as long as the names of its configuration are the same. -/
theorem C98_server_all (config cfg : Config) (m m' : Mechanism) (a : Auth)
    (h : serverSession config m = .ok (a, m')) (before after : List Mechanism)
    (hm : cfg.mechs = before ++ m :: after) (hb : ∀ x ∈ before, x.name ≠ m.name)
    (hn : cfg.mechs.map (·.name) = config.mechs.map (·.name)) :
    m' = m ∧ cfg.serverStart m.name = .ok (a, m) := by
  unfold serverSession at h
  split at h
  · next start hs =>
    split at h
    · next a' ha =>
      cases h
      exact ⟨rfl, (C05_start cfg _ a m).2 ⟨before, after, start, hm, rfl, hs, by rw [hn]; exact ha,
        fun x hx hx' => absurd hx' (hb x hx)⟩⟩
    · cases h
  · cases h

/-- C98: the two functions panic exactly for a mechanism that does not have the side or does not
start. -/
theorem C98_panics (config : Config) (m : Mechanism) :
    (clientSession config m = .panic ↔ ∀ a, m.client ≠ some (.ok a)) ∧
    (serverSession config m = .panic ↔
      ∀ f, m.server = some f → ∀ a, f (config.mechs.map (·.name)) ≠ .ok a) := by
  constructor
  · unfold clientSession
    rcases m.client with _ | (_ | a)
    · simp
    · simp
    · simp
  · unfold serverSession
    rcases m.server with _ | f
    · simp
    · simp only [Option.some.injEq, forall_eq']
      rcases hf : f (config.mechs.map (·.name)) with _ | a
      · simp [hf]
      · simp [hf]

/-- C98: the crate's mechanisms have sessions for both sides. -/
theorem C98_shipped (deps : Deps) (config : Config) (m : Mechanism) (hm : m ∈ Spec.shipped) :
    (∃ a st, clientSession config m = .ok (a, m) ∧ a.startClient deps = some st) ∧
    ∃ a st, serverSession config m = .ok (a, m) ∧ a.startServer deps = some st := by
  simp only [Spec.shipped, List.mem_cons, List.not_mem_nil, or_false] at hm
  rcases hm with rfl | rfl | rfl | rfl | rfl | rfl | rfl | rfl | rfl | rfl | rfl | rfl | rfl <;>
    exact ⟨⟨_, _, rfl, rfl⟩, _, _, rfl, rfl⟩

/-- C98: making the configuration does not panic. A SCRAM server made with it is never told that there
is a `-PLUS` mechanism. -/
theorem C98_config (enableCb : Bool) (prefer : Prefer) :
    ∃ cfg, TestUtils.config enableCb prefer = some cfg ∧
      cfg = ⟨[RSASLTEST_CF, RSASLTEST_SF], enableCb, prefer⟩ ∧
      ∀ hash, serverSession cfg (SCRAM hash) = .ok (.scramServer hash false, SCRAM hash) := by
  refine ⟨_, rfl, rfl, fun hash => ?_⟩
  cases hash <;> rfl

/-- C98: a client with the configuration and the default preference takes X-RSASLTEST-SF if it is
offered, otherwise X-RSASLTEST-CF. -/
theorem C98_selects (enableCb : Bool) (cfg : Config)
    (h : TestUtils.config enableCb defaultPrefer = some cfg) (offered : List Bytes) :
    cfg.clientStart offered =
      if b!"X-RSASLTEST-SF" ∈ offered then .ok (rsaslTestAuth, RSASLTEST_SF)
      else if b!"X-RSASLTEST-CF" ∈ offered then .ok (rsaslTestAuth, RSASLTEST_CF)
      else .err .noSharedMechanism := by
  cases h
  rw [clientStart_eq _ (fun m hm => .inl (by
    simp only [WantMechanisms.withRegistry, List.mem_cons, List.not_mem_nil, or_false] at hm
    rcases hm with rfl | rfl <;> rfl))]
  have h1 : Spec.Usable enableCb offered RSASLTEST_CF ↔ b!"X-RSASLTEST-CF" ∈ offered := Iff.rfl
  have h2 : Spec.Usable enableCb offered RSASLTEST_SF ↔ b!"X-RSASLTEST-SF" ∈ offered := Iff.rfl
  simp only [WantMechanisms.withRegistry, List.filter_cons, List.filter_nil, h1, h2, decide_eq_true_eq]
  by_cases hc : b!"X-RSASLTEST-CF" ∈ offered <;> by_cases hs : b!"X-RSASLTEST-SF" ∈ offered <;>
    simp only [hc, hs, if_true, if_false] <;> rfl

/-- What the documentation of X-RSASLTEST says of its sides and its steps,
src/test/mechanism.rs:11-70: the server goes first with the one, the client with the other, and the side
that goes first has a message. -/
def C98_documented : Prop :=
  RSASLTEST_CF.first = .client ∧ RSASLTEST_SF.first = .server ∧
  ∀ (env : Env) (rng : Nat → Nat),
    ((rsaslTestNew.session rng).step rsaslTest env ⟨none, []⟩).1.res = .ok .running

/-- C98: a session of X-RSASLTEST does not survive any call of `step`. -/
theorem C98_test_panics (env : Env) (ses : Session rsaslTest.S) (c : Call) :
    (ses.step rsaslTest env c).1.res = .panic ∧ (ses.step rsaslTest env c).1.out = [] := ⟨rfl, rfl⟩

/-- C98: what the configuration for tests selects is none of the crate's mechanisms. -/
theorem C98_own (deps : Deps) (enableCb : Bool) (cfg : Config)
    (h : TestUtils.config enableCb defaultPrefer = some cfg) (offered : List Bytes) (a : Auth) (m : Mechanism)
    (hs : cfg.clientStart offered = .ok (a, m)) : a.startClient deps = none ∧ a.startServer deps = none := by
  rw [C98_selects enableCb cfg h] at hs
  split at hs
  · cases hs; exact ⟨rfl, rfl⟩
  · split at hs
    · cases hs; exact ⟨rfl, rfl⟩
    · cases hs

/-- X-RSASLTEST is not what its documentation says, in either way: the side that goes first, and what
`step` does. -/
theorem C98_undocumented : ¬ C98_documented ∧ RSASLTEST_SF.first = .client ∧
    ∀ env rng, ((rsaslTestNew.session rng).step rsaslTest env ⟨none, []⟩).1.res = .panic :=
  ⟨(fun h => by cases h.2.1), rfl, fun _ _ => rfl⟩

/-! ## Concrete cases -/

/-- The sessions of the crate's own tests: PLAIN with the configuration for servers, OAUTHBEARER. -/
example (cfg : Config) (h : TestUtils.config false defaultPrefer = some cfg) :
    clientSession cfg PLAIN = .ok (.plain, PLAIN) ∧
    serverSession cfg OAUTHBEARER = .ok (.oauthbearer, OAUTHBEARER) := by
  cases h
  exact ⟨rfl, rfl⟩

/-- A client that selects, and the session for tests. -/
example : (Config.withCredentials none).clientStart [b!"PLAIN", b!"SCRAM-SHA-256"] =
      .ok (.scramClient .sha256 true, SCRAM .sha256) ∧
    clientSession (Config.withCredentials none) (SCRAM .sha256) =
      .ok (.scramClient .sha256 true, SCRAM .sha256) := ⟨by rfl, rfl⟩

/-- A client with channel bindings whose server has no `-PLUS`. -/
example : (Config.mk builtinMechs true defaultPrefer).clientStart [b!"SCRAM-SHA-256"] =
    .ok (.scramClient .sha256 false, SCRAM .sha256) := by rfl

/-- A mechanism without a client. -/
example : clientSession (Config.withCredentials none) { PLAIN with client := none } = .panic := rfl

end Rsasl

/-
C121: from the list of a server to two sessions that fit.
-/
import Verif.Spec.Pairs
import Verif.Props.ChannelBindings
import Verif.Props.ErrorKinds
import Verif.Props.ScramPolicy

namespace Rsasl

open Spec Scram

/-- The names a server offers, src/sasl.rs:195-197. -/
abbrev Config.list (sc : Config) : List Bytes := sc.getAvailable.map (·.name)

theorem mem_list {sc : Config} (hss : ∀ m ∈ sc.mechs, m ∈ shipped) {m : Mechanism}
    (hm : m ∈ shipped) : m.name ∈ sc.list ↔ m ∈ sc.mechs := by
  simp only [List.mem_map, (C05_available sc).1]
  constructor
  · rintro ⟨m', ⟨h1, _⟩, h2⟩
    rw [← shipped_name (hss m' h1) hm h2]
    exact h1
  · intro h
    obtain ⟨f, hf, _⟩ := shipped_server hm
    exact ⟨m, ⟨h, by rw [hf]; nofun⟩, rfl⟩

theorem plus_shipped (x : Hash) : SCRAMPLUS x ∈ shipped := by cases x <;> simp [shipped]

theorem scram_shipped (x : Hash) : SCRAM x ∈ shipped := by cases x <;> simp [shipped]

/-- Whether a SCRAM server thinks it does channel binding. -/
theorem canCb_iff {sc : Config} (hss : ∀ m ∈ sc.mechs, m ∈ shipped) (x : Hash) :
    (sc.mechs.map (·.name)).any (· == x.plusName) = true ↔ SCRAMPLUS x ∈ sc.mechs := by
  simp only [List.any_eq_true, List.mem_map, beq_iff_eq]
  constructor
  · rintro ⟨_, ⟨m, hm, rfl⟩, hn⟩
    rw [← shipped_name (hss m hm) (plus_shipped x) hn]
    exact hm
  · exact fun h => ⟨_, ⟨_, h, rfl⟩, rfl⟩

/-! ## C121 -/

/-- The full statement of C121 for a client and a server: what the client picks from the server's
list the server starts too, and the two sides fit. -/
def C121 (cc sc : Config) : Prop :=
  ∀ a m, cc.clientStart sc.list = .ok (a, m) → ∃ b, sc.serverStart m.name = .ok (b, m) ∧ SidesFit a b

/-- The full statement does not hold: with channel binding enabled, a client takes a `-PLUS` name
for a reason to start the mechanism without `-PLUS`, which the server does not have. -/
theorem C121_false : ¬ ∀ cc sc : Config, (∀ m ∈ cc.mechs, m ∈ shipped) →
    (∀ m ∈ sc.mechs, m ∈ shipped) → C121 cc sc := by
  intro h
  obtain ⟨b, hb, -⟩ := h ⟨builtinMechs, true, defaultPrefer⟩
    ⟨[SCRAMPLUS .sha256], true, defaultPrefer⟩
    (by
      intro m hm
      simp only [builtinMechs, List.mem_cons, List.not_mem_nil, or_false] at hm
      rcases hm with rfl | rfl | rfl | rfl | rfl | rfl | rfl | rfl | rfl <;> simp [shipped])
    (by intro m hm; rw [List.mem_singleton.1 hm]; exact plus_shipped _)
    (.scramClient .sha256 true) (SCRAM .sha256) rfl
  have he : Config.serverStart ⟨[SCRAMPLUS .sha256], true, defaultPrefer⟩ (SCRAM .sha256).name =
      .err .noSharedMechanism := rfl
  rw [he] at hb
  cases hb

/-- C121, all that can happen, for any preference: the server starts the other side, or it is told
a SCRAM mechanism that it has only with `-PLUS`, by a client with channel binding, and says that
nothing is shared. Missing: that second case. -/
theorem C121_partial (cc sc : Config) (hcs : ∀ m ∈ cc.mechs, m ∈ shipped)
    (hss : ∀ m ∈ sc.mechs, m ∈ shipped) (a : Auth) (m : Mechanism)
    (h : cc.clientStart sc.list = .ok (a, m)) :
    (m ∈ sc.mechs ∧ ∃ b, sc.serverStart m.name = .ok (b, m) ∧ SidesFit a b) ∨
    (sc.serverStart m.name = .err .noSharedMechanism ∧ cc.enableCb = true ∧
      ∃ x, m = SCRAM x ∧ SCRAM x ∉ sc.mechs ∧ SCRAMPLUS x ∈ sc.mechs) := by
  have hk : cc.Known := shipped_known hcs
  obtain ⟨h1, h2, -, h4⟩ := clientStart_ok hk h
  have hsh := hcs m h1
  by_cases hm : m ∈ sc.mechs
  · left
    refine ⟨hm, ?_⟩
    obtain ⟨f, hf, hf'⟩ := shipped_server hsh
    obtain ⟨b, hb⟩ := hf' (sc.mechs.map (·.name))
    refine ⟨b, serverStart_shipped hss hm hf hb, ?_⟩
    have hscram : ∀ x, m = SCRAM x → SidesFit a b := by
      rintro x rfl
      cases hf
      cases h4
      cases hb
      refine ⟨rfl, fun ht => ?_⟩
      simp only [Bool.or_eq_false_iff, decide_eq_false_iff_not] at ht
      rw [← Bool.not_eq_true, canCb_iff hss]
      exact fun hp => ht.2 ((mem_list hss (plus_shipped x)).2 hp)
    simp only [shipped, List.mem_cons, List.not_mem_nil, or_false] at hsh
    rcases hsh with rfl | rfl | rfl | rfl | rfl | rfl | rfl | rfl | rfl | rfl | rfl | rfl | rfl
    case inr.inr.inr.inr.inr.inr.inr.inl => exact hscram _ rfl
    case inr.inr.inr.inr.inr.inr.inr.inr.inl => exact hscram _ rfl
    case inr.inr.inr.inr.inr.inr.inr.inr.inr.inl => exact hscram _ rfl
    all_goals
      cases hf
      cases h4
      cases hb
      first
      | exact trivial
      | exact rfl
  · right
    rcases C02_partial cc hk sc.list a m h with ⟨-, hn | ⟨hcb, x, rfl, hx⟩⟩
    · exact absurd ((mem_list hss hsh).1 hn) hm
    · refine ⟨?_, hcb, x, rfl, hm, (mem_list hss (plus_shipped x)).1 hx⟩
      rw [C05_no_shared]
      · intro m' hm' hn
        rw [shipped_name (hss m' hm') hsh hn] at hm'
        exact absurd hm' hm
      · intro m' hm' start hst
        obtain ⟨f, hf, hf'⟩ := shipped_server (hss m' hm')
        rw [hst] at hf
        cases hf
        exact hf' _

/-- C121 for a server that has every SCRAM mechanism it has with `-PLUS` also without, or a client
without channel binding. -/
theorem C121_bare_partial (cc sc : Config) (hcs : ∀ m ∈ cc.mechs, m ∈ shipped)
    (hss : ∀ m ∈ sc.mechs, m ∈ shipped)
    (hb : cc.enableCb = false ∨ ∀ x, SCRAMPLUS x ∈ sc.mechs → SCRAM x ∈ sc.mechs) :
    C121 cc sc := by
  intro a m h
  rcases C121_partial cc sc hcs hss a m h with ⟨-, h⟩ | ⟨-, hcb, x, -, h1, h2⟩
  · exact h
  · rcases hb with hb | hb
    · rw [hb] at hcb; cases hcb
    · exact absurd (hb x h2) h1

/-- C121 for a client with the default preference that has every SCRAM mechanism also with
`-PLUS`. -/
theorem C121_plus_partial (cc sc : Config) (hcs : ∀ m ∈ cc.mechs, m ∈ shipped)
    (hss : ∀ m ∈ sc.mechs, m ∈ shipped) (hp : cc.prefer = defaultPrefer)
    (hreg : ∀ x, SCRAM x ∈ cc.mechs → SCRAMPLUS x ∈ cc.mechs) : C121 cc sc := by
  intro a m h
  rcases C121_partial cc sc hcs hss a m h with ⟨-, h⟩ | ⟨-, -, x, rfl, h1, -⟩
  · exact h
  · have hn := (C02_plus_registered_partial cc (shipped_known hcs) hp hreg _ _ _ h).2
    exact absurd ((mem_list hss (scram_shipped x)).1 hn) h1

/-- C121: with the default preference, two sides that share a mechanism (a `-PLUS` one only counts
with channel binding enabled) find one, and it has at least the priority of the shared one. -/
theorem C121_shared (cc sc : Config) (hcs : ∀ m ∈ cc.mechs, m ∈ shipped)
    (hss : ∀ m ∈ sc.mechs, m ∈ shipped) (hp : cc.prefer = defaultPrefer) (m : Mechanism)
    (hc : m ∈ cc.mechs) (hs : m ∈ sc.mechs) (hplus : ∀ x, m = SCRAMPLUS x → cc.enableCb = true) :
    ∃ a m', cc.clientStart sc.list = .ok (a, m') ∧ m.priority ≤ m'.priority := by
  have hk : cc.Known := shipped_known hcs
  have hn : m.name ∈ sc.list := (mem_list hss (hss m hs)).2 hs
  have hu : Usable cc.enableCb sc.list m := by
    rcases hk m hc with h | ⟨x, rfl⟩ | ⟨x, rfl⟩
    · simp only [Usable, h]; exact hn
    · exact .inl hn
    · exact ⟨hplus x rfl, hn⟩
  have hall : cc.AllStart := by
    intro m hm
    have h := hcs m hm
    simp only [shipped, List.mem_cons, List.not_mem_nil, or_false] at h
    rcases h with rfl | rfl | rfl | rfl | rfl | rfl | rfl | rfl | rfl | rfl | rfl | rfl | rfl <;>
    exact ⟨_, rfl⟩
  obtain ⟨a, m', h⟩ := (C04_no_shared cc hk hall hp sc.list).2 ⟨m, hc, hu⟩
  refine ⟨a, m', h, ?_⟩
  obtain ⟨before, after, he, -, hb, ha⟩ := C03_priority cc hk hp _ a m' h
  rw [he] at hc
  rcases List.mem_append.1 hc with hc | hc
  · exact hb m hc hu
  · rcases List.mem_cons.1 hc with rfl | hc
    · exact Nat.le_refl _
    · exact Nat.le_of_lt (ha m hc hu)

/-- C121, no false alarm: if the list has reached the client as it was, the server never answers
the client's first message by saying that channel binding could have been used (C29), whatever the
callbacks do, as long as the server's does not bring up mechanism errors itself. -/
theorem C121_no_alarm (cc sc : Config) (hcs : ∀ m ∈ cc.mechs, m ∈ shipped)
    (hss : ∀ m ∈ sc.mechs, m ∈ shipped) (x : Hash) (m : Mechanism) (hm : m = SCRAM x ∨ m = SCRAMPLUS x)
    (ca sa : Auth) (hc : cc.clientStart sc.list = .ok (ca, m))
    (hs : sc.serverStart m.name = .ok (sa, m)) (deps : Deps) (cs ss : Started)
    (hcst : ca.startClient deps = some cs) (hsst : sa.startServer deps = some ss)
    (crng srng : Nat → Nat) (cenv senv : Env) (henv : Plainspoken senv)
    (c0 : Call) (hw : Cooperative c0.sched) (r0 : Reply State) (cs' : Session cs.mech.S)
    (h0 : (cs.session crng).step cs.mech cenv c0 = (r0, cs')) (hrun : r0.res = .ok .running)
    (w1 : List WResp) :
    ((ss.session srng).step ss.mech senv ⟨some r0.out, w1⟩).1.res ≠
      .err (.mechanismError .scramChannelBindingsNotUsed) := by
  have hy := C29_client cc (shipped_known hcs) sc.list ca m hc x hm deps cs hcst crng cenv c0 hw r0 cs' h0
    hrun
  have key : ∀ (d : Digest) (canCb : Bool) (w : World),
      ((server d).step senv (some r0.out) (some (.waitingClientFirst canCb)) w).1 =
        .err (.mechanismError .scramChannelBindingsNotUsed) → canCb = true ∧ b!"y," <+: r0.out := by
    intro d canCb w h
    rcases C83_server_first d henv canCb w r0.out _ h with
      ⟨_, _, _, _, h⟩ | ⟨flag, authzid, user, nonce, hp, ⟨h1, rfl, -⟩ | h⟩
    · cases h
    · refine ⟨h1, ?_⟩
      obtain ⟨start, exts, ⟨ft, az, hft, -, -, rfl⟩, -, -, -, he⟩ :=
        (C53_client_first_partial _ _ _ _ _).1 hp
      cases hft
      rw [he]
      simp only [List.append_assoc]
      exact ⟨_, by simp only [← List.append_assoc]; rfl⟩
    · cases h
  intro h
  rcases hm with rfl | rfl
  · obtain ⟨before, after, start, -, -, hst, hsa, -⟩ := (C05_start ..).1 hs
    cases hst
    cases hsa
    cases hsst
    obtain ⟨h1, h2⟩ := key (deps.digest x) _ _ h
    rw [canCb_iff hss] at h1
    exact (hy.1 h2).2.2 ((mem_list hss (plus_shipped x)).2 h1)
  · obtain ⟨before, after, start, -, -, hst, hsa, -⟩ := (C05_start ..).1 hs
    cases hst
    cases hsa
    cases hsst
    obtain ⟨-, h2⟩ := key (deps.digest x) _ _ h
    have := congrArg Mechanism.select (hy.1 h2).1
    cases this

/-! ### Non-trivial cases -/

/-- A server with and without `-PLUS`, for the cases below. -/
def bothServer : Config := ⟨[PLAIN, SCRAM .sha256, SCRAMPLUS .sha256], true, defaultPrefer⟩

theorem bothServer_shipped : ∀ m ∈ bothServer.mechs, m ∈ shipped := by
  intro m hm
  simp only [bothServer, List.mem_cons, List.not_mem_nil, or_false] at hm
  rcases hm with rfl | rfl | rfl <;> simp [shipped]

theorem builtin_shipped : ∀ m ∈ builtinMechs, m ∈ shipped := by
  intro m hm
  simp only [builtinMechs, List.mem_cons, List.not_mem_nil, or_false] at hm
  rcases hm with rfl | rfl | rfl | rfl | rfl | rfl | rfl | rfl | rfl <;> simp [shipped]

/-- A client with the default mechanisms and channel binding, with that server. -/
example : (⟨builtinMechs, true, defaultPrefer⟩ : Config).clientStart bothServer.list =
      .ok (.scramClient .sha256 true, SCRAM .sha256) ∧
    ∃ b, bothServer.serverStart (SCRAM .sha256).name = .ok (b, SCRAM .sha256) ∧
      SidesFit (.scramClient .sha256 true) b :=
  ⟨rfl, C121_bare_partial ⟨builtinMechs, true, defaultPrefer⟩ bothServer builtin_shipped
    bothServer_shipped (.inr fun x hx => by
      cases x
      · have : (SCRAMPLUS .sha1).name ∈ bothServer.mechs.map (·.name) := List.mem_map.2 ⟨_, hx, rfl⟩
        exact absurd this (by decide)
      · simp [bothServer]
      · have : (SCRAMPLUS .sha512).name ∈ bothServer.mechs.map (·.name) := List.mem_map.2 ⟨_, hx, rfl⟩
        exact absurd this (by decide)) _ _ rfl⟩

/-- The same server as a client, with itself. -/
example : bothServer.clientStart bothServer.list = .ok (.scramClientPlus .sha256, SCRAMPLUS .sha256) ∧
    ∃ b, bothServer.serverStart (SCRAMPLUS .sha256).name = .ok (b, SCRAMPLUS .sha256) ∧
      SidesFit (.scramClientPlus .sha256) b :=
  ⟨rfl, C121_plus_partial bothServer bothServer bothServer_shipped bothServer_shipped rfl
    (fun x hx => by
      cases x
      · have : (SCRAM .sha1).name ∈ bothServer.mechs.map (·.name) := List.mem_map.2 ⟨_, hx, rfl⟩
        exact absurd this (by decide)
      · simp [bothServer]
      · have : (SCRAM .sha512).name ∈ bothServer.mechs.map (·.name) := List.mem_map.2 ⟨_, hx, rfl⟩
        exact absurd this (by decide)) _ _ rfl⟩

/-- PLAIN is shared, so something is found that is no worse. -/
example : ∃ a m', (⟨builtinMechs, false, defaultPrefer⟩ : Config).clientStart bothServer.list =
    .ok (a, m') ∧ PLAIN.priority ≤ m'.priority :=
  C121_shared ⟨builtinMechs, false, defaultPrefer⟩ bothServer builtin_shipped bothServer_shipped rfl PLAIN
    (by simp [builtinMechs]) (by simp [bothServer]) (fun x h => by
      have := congrArg Mechanism.select h
      cases this)

/-- A client with channel binding and a server without: the client says so, and the server does not
mind. -/
example : ((⟨Scram.clientNew false, none, fun _ => 0, []⟩ : Session CS).step (client toyDigest)
      (exampleEnv [⟨.authId, c!"user"⟩]) ⟨none, []⟩).1.out =
      b!"y,,n=user,r=!!!!!!!!!!!!!!!!!!!!!!!!" ∧
    (((serverAt (serverNew false)).step (server toyDigest) (exampleEnv [])
      ⟨some (b!"y,,n=user,r=!!!!!!!!!!!!!!!!!!!!!!!!"), []⟩).1.res ≠
      .err (.mechanismError .scramChannelBindingsNotUsed)) := by
  have ho : ((⟨Scram.clientNew false, none, fun _ => 0, []⟩ : Session CS).step (client toyDigest)
      (exampleEnv [⟨.authId, c!"user"⟩]) ⟨none, []⟩).1.out =
      b!"y,,n=user,r=!!!!!!!!!!!!!!!!!!!!!!!!" := by decide +kernel
  refine ⟨ho, ?_⟩
  rw [← ho]
  refine C121_no_alarm ⟨[SCRAM .sha1], true, defaultPrefer⟩ ⟨[SCRAM .sha1], false, defaultPrefer⟩
    ?_ ?_ .sha1 (SCRAM .sha1) (.inl rfl) (.scramClient .sha1 false) (.scramServer .sha1 false) rfl rfl
    toyDeps ⟨client toyDigest, clientNew false⟩ ⟨server toyDigest, serverNew false⟩ rfl rfl
    (fun _ => 0) (fun _ => 0) (exampleEnv [⟨.authId, c!"user"⟩]) (exampleEnv []) (plainspoken_example [])
    ⟨none, []⟩ (by nofun) _ _ rfl (by rfl) []
  · intro m hm; rw [List.mem_singleton.1 hm]; exact scram_shipped _
  · intro m hm; rw [List.mem_singleton.1 hm]; exact scram_shipped _

end Rsasl

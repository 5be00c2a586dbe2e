/-
C84: the features of a build decide which mechanisms there are.
-/
import Verif.Spec.Features
import Verif.Props.Preference

namespace Rsasl

open Spec

/-! ## The arrays -/

theorem Build.mem_array {on : Build} {l : List (Feature × Mechanism)} {m : Mechanism} :
    m ∈ on.array l ↔ ∃ f, (f, m) ∈ l ∧ on f = true := by
  simp [Build.array]

/-- Which of the crate's mechanisms needs which feature. -/
theorem enabled_shipped {on : Build} :
    ∀ x ∈ builtin ++ distributed, Enabled on x.2.name ↔ on x.1 = true := by
  intro x hx
  simp only [builtin, distributed, List.cons_append, List.nil_append, List.mem_cons,
    List.not_mem_nil, or_false] at hx
  constructor
  · rintro ⟨f, hf, hn⟩
    rcases hx with rfl | rfl | rfl | rfl | rfl | rfl | rfl | rfl | rfl | rfl | rfl | rfl | rfl |
      rfl | rfl | rfl | rfl | rfl | rfl <;>
    cases f <;> first | exact hf | exact absurd hn (by decide)
  · intro h
    refine ⟨x.1, h, ?_⟩
    rcases hx with rfl | rfl | rfl | rfl | rfl | rfl | rfl | rfl | rfl | rfl | rfl | rfl | rfl |
      rfl | rfl | rfl | rfl | rfl | rfl <;> decide

/-- An array is what is enabled of all its elements. -/
theorem mem_array_enabled {on : Build} {l : List (Feature × Mechanism)}
    (hl : ∀ x ∈ l, x ∈ builtin ++ distributed) (m : Mechanism) :
    m ∈ on.array l ↔ m ∈ l.map (·.2) ∧ Enabled on m.name := by
  rw [Build.mem_array, List.mem_map]
  constructor
  · rintro ⟨f, hf, ho⟩
    exact ⟨⟨_, hf, rfl⟩, (enabled_shipped _ (hl _ hf)).2 ho⟩
  · rintro ⟨⟨⟨f, x⟩, hf, rfl⟩, ho⟩
    exact ⟨f, hf, (enabled_shipped _ (hl _ hf)).1 ho⟩

/-- With everything on the arrays are those of the other properties. -/
theorem default_full : Build.default (fun _ => true) = builtinMechs ∧
    ∀ z, Build.credentials (fun _ => true) z = credentialMechs z :=
  ⟨rfl, fun z => by cases z <;> rfl⟩

/-- Turning features off takes mechanisms out and leaves the order of the others. -/
theorem default_filter (on : Build) [DecidablePred (fun m : Mechanism => Enabled on m.name)] :
    on.default = builtinMechs.filter (fun m => decide (Enabled on m.name)) := by
  rw [← default_full.1, Build.default, Build.default, Build.array, Build.array, List.filter_map]
  refine congrArg (List.map _) ?_
  rw [List.filter_filter]
  refine List.filter_congr fun x hx => ?_
  have := enabled_shipped (on := on) x (List.mem_append_left _ hx)
  cases ho : on x.1 <;> simp [ho, this]

/-! ## C84 -/

/-- The claim in full. -/
def C84 : Prop := ∀ on : Build, FeaturesDecide on on.default

theorem default_subset (on : Build) : ∀ m ∈ on.default, m ∈ builtinMechs := by
  intro m hm
  have := (mem_array_enabled (fun x hx => List.mem_append_left _ hx) m).1 hm
  exact default_full.1 ▸ (by simpa [Build.default, Build.array] using this.1)

/-- C84: the default registry holds the mechanisms of the features that are on, and no others. What
is missing to the full claim are GSSAPI and the `-PLUS` mechanisms, which are never in it. -/
theorem C84_partial (on : Build) (m : Mechanism) :
    m ∈ on.default ↔
      m ∈ shipped ∧ Enabled on m.name ∧ m.name ≠ b!"GSSAPI" ∧ m.name ∉ plusNames := by
  rw [Build.default, mem_array_enabled (fun x hx => List.mem_append_left _ hx)]
  have : builtin.map (·.2) = builtinMechs := rfl
  rw [this, C66_default.2 m]
  have hp : (∀ h : Hash, m.name ≠ h.plusName) ↔ m.name ∉ plusNames := by
    constructor
    · intro h hm
      simp only [plusNames, List.mem_cons, List.not_mem_nil, or_false] at hm
      rcases hm with hm | hm | hm
      · exact h .sha1 hm
      · exact h .sha256 hm
      · exact h .sha512 hm
    · intro h x hx
      apply h
      rw [hx]
      cases x <;> decide
  rw [hp]
  constructor
  · rintro ⟨⟨h1, h2, h3⟩, h4⟩
    exact ⟨h1, h4, h2, h3⟩
  · rintro ⟨h1, h4, h2, h3⟩
    exact ⟨⟨h1, h2, h3⟩, h4⟩

/-- C84: the full claim is false: with every feature on, GSSAPI is not in the default registry, nor
are the mechanisms with channel binding, although a user may turn channel binding on. -/
theorem C84_false : ¬ C84 ∧
    GSSAPI ∉ Build.default (fun _ => true) ∧
    ∀ h : Hash, SCRAMPLUS h ∉ Build.default (fun _ => true) := by
  have hg : GSSAPI ∉ Build.default (fun _ => true) :=
    fun h => ((C84_partial _ _).1 h).2.2.1 rfl
  refine ⟨fun h => hg ((h _ _).2 ⟨by simp [shipped], .gssapi, rfl, by decide⟩), hg, fun x h => ?_⟩
  exact ((C84_partial _ _).1 h).2.2.2 (by cases x <;> decide)

/-- C84: no mechanism is in it twice. -/
theorem C84_once (on : Build) : (on.default.map (·.name)).Nodup := by
  have hs : (on.default.map (·.name)).Sublist (builtinMechs.map (·.name)) := by
    refine List.Sublist.map _ ?_
    rw [← default_full.1]
    refine List.Sublist.map _ ?_
    have : builtin.filter (fun _ => true) = builtin := rfl
    rw [this]
    exact List.filter_sublist
  exact hs.nodup (by decide)

/-- C84: with `registry_static` GSSAPI is in the default registry too, and so is what other crates
put there; the `-PLUS` mechanisms are not. -/
theorem C84_static (on : Build) (others slice : List Mechanism) (h : on.Linked others slice)
    (m : Mechanism) :
    m ∈ slice ↔ (m ∈ shipped ∧ Enabled on m.name ∧ m.name ∉ plusNames) ∨ m ∈ others := by
  rw [List.Perm.mem_iff h, List.mem_append,
    mem_array_enabled (fun x hx => List.mem_append_right _ hx)]
  refine or_congr_left ?_
  constructor
  · rintro ⟨hm, ho⟩
    simp only [distributed, List.map_cons, List.map_nil, List.mem_cons, List.not_mem_nil,
      or_false] at hm
    rcases hm with rfl | rfl | rfl | rfl | rfl | rfl | rfl | rfl | rfl | rfl
    all_goals exact ⟨by simp [shipped], ho, by decide⟩
  · rintro ⟨hm, ho, hp⟩
    simp only [shipped, List.mem_cons, List.not_mem_nil, or_false] at hm
    rcases hm with rfl | rfl | rfl | rfl | rfl | rfl | rfl | rfl | rfl | rfl | rfl | rfl | rfl
    all_goals first
      | exact absurd (by decide) hp
      | exact ⟨by simp [distributed], ho⟩

/-- C84: the registry for static credentials has the documented mechanisms whose features are on,
LOGIN only without an authorization id. -/
theorem C84_credentials (on : Build) (authzid : Option Str) (c : Config)
    (h : on.withCredentials authzid = .ok c) (m : Mechanism) :
    m ∈ c.mechs ↔ m ∈ shipped ∧ Enabled on m.name ∧ m.name ∈ documentedOrder ∧
      (m.name = b!"LOGIN" → authzid = none) := by
  cases h
  change m ∈ on.array _ ↔ _
  have hl : ∀ z : Bool, ∀ x ∈ (if z then credAuthzid else cred), x ∈ builtin ++ distributed := by
    intro z x hx
    refine List.mem_append_left _ ?_
    cases z <;> simp only [if_true, if_false, Bool.false_eq_true, credAuthzid, cred, List.mem_cons,
      List.not_mem_nil, or_false] at hx
    · rcases hx with rfl | rfl | rfl | rfl | rfl <;> simp [builtin]
    · rcases hx with rfl | rfl | rfl | rfl <;> simp [builtin]
  rw [mem_array_enabled (hl _)]
  constructor
  · rintro ⟨hm, ho⟩
    cases authzid <;> simp only [Option.isSome, if_true, if_false, Bool.false_eq_true, credAuthzid,
      cred, List.map_cons, List.map_nil, List.mem_cons, List.not_mem_nil, or_false] at hm
    · rcases hm with rfl | rfl | rfl | rfl | rfl
      all_goals exact ⟨by simp [shipped], ho, by decide, fun _ => rfl⟩
    · rcases hm with rfl | rfl | rfl | rfl
      all_goals exact ⟨by simp [shipped], ho, by decide, fun h => absurd h (by decide)⟩
  · rintro ⟨hm, ho, hd, hz⟩
    simp only [shipped, List.mem_cons, List.not_mem_nil, or_false] at hm
    rcases hm with rfl | rfl | rfl | rfl | rfl | rfl | rfl | rfl | rfl | rfl | rfl | rfl | rfl
    all_goals first
      | exact absurd hd (by decide)
      | exact ⟨by cases hz rfl; simp [cred], ho⟩
      | exact ⟨by cases authzid <;> simp [cred, credAuthzid], ho⟩

/-- C84: the builder keeps what it is given. Giving a callback never fails; the three ways to give it
the mechanisms differ in nothing but the mechanisms. -/
theorem C84_builder (enableCb : Bool) (prefer : Prefer) (mechs : List Mechanism) :
    (Config.builder.withRegistry mechs).withCallback enableCb prefer =
        .ok { mechs := mechs, enableCb := enableCb, prefer := prefer } ∧
    Config.builder.withDefaults mechs = Config.builder.withRegistry mechs ∧
    Config.builder.withDefaultMechanisms mechs = Config.builder.withDefaults mechs :=
  ⟨rfl, rfl, rfl⟩

/-- C84: with everything on, static credentials are those of C06, C62 and C66. -/
theorem C84_credentials_full (authzid : Option Str) :
    Build.withCredentials (fun _ => true) authzid = .ok (Config.withCredentials authzid) := by
  cases authzid <;> rfl

/-! ## What a client or server then does -/

theorem builtin_usable {offered : List Bytes} :
    ∀ x ∈ builtinMechs, Usable false offered x ↔ x.name ∈ offered := by
  intro x hx
  simp only [builtinMechs, List.mem_cons, List.not_mem_nil, or_false] at hx
  rcases hx with rfl | rfl | rfl | rfl | rfl | rfl | rfl | rfl | rfl
  all_goals first
    | exact Iff.rfl
    | exact ⟨fun h => h.resolve_right (fun h => nomatch h.1), .inl⟩

theorem builtin_shipped : ∀ m ∈ builtinMechs, m ∈ shipped :=
  fun m hm => ((C66_default.2 m).1 hm).1

/-- C84: to a client with the default registry a feature that is off is the same as a server that
does not offer its mechanisms, whatever the client prefers. -/
theorem C84_unoffered (on : Build) [DecidablePred (fun n : Bytes => Enabled on n)]
    (prefer : Prefer) (offered : List Bytes) :
    Config.clientStart { mechs := on.default, enableCb := false, prefer := prefer } offered =
      Config.clientStart { mechs := builtinMechs, enableCb := false, prefer := prefer }
        (offered.filter (fun n => decide (Enabled on n))) := by
  rw [clientStart_eq _ (shipped_known fun m hm => builtin_shipped m (default_subset on m hm)),
    clientStart_eq _ (shipped_known builtin_shipped)]
  have hf : on.default.filter (fun m => decide (Usable false offered m)) =
      builtinMechs.filter
        (fun m => decide (Usable false (offered.filter (fun n => decide (Enabled on n))) m)) := by
    rw [default_filter on, List.filter_filter]
    refine List.filter_congr fun x hx => ?_
    rw [Bool.eq_iff_iff]
    simp [builtin_usable x hx]
  have ha : ∀ m, authFor false offered m =
      authFor false (offered.filter (fun n => decide (Enabled on n))) m := by
    intro m
    unfold authFor
    cases m.select <;> simp
  simp only [hf, ha]

/-- C84: a client with the default registry and the default preference uses the first mechanism of
`defaultOrder` that is offered and whose feature is on. -/
theorem C84_order (on : Build) (offered : List Bytes) (a : Auth) (m : Mechanism)
    (h : Config.clientStart { mechs := on.default, enableCb := false, prefer := defaultPrefer }
      offered = .ok (a, m)) :
    ∃ before after, defaultOrder = before ++ m.name :: after ∧
      (m.name ∈ offered ∧ Enabled on m.name) ∧
      ∀ n ∈ before, n ∈ offered → ¬ Enabled on n := by
  haveI := Classical.decPred (fun n : Bytes => Enabled on n)
  rw [C84_unoffered on] at h
  obtain ⟨before, after, he, hm, hb⟩ := C66_default_order _ rfl rfl rfl _ a m h
  simp only [List.mem_filter, decide_eq_true_eq] at hm hb
  exact ⟨before, after, he, hm, fun n hn ho he => hb n hn ⟨ho, he⟩⟩

theorem mem_default (on : Build) (m : Mechanism) :
    m ∈ on.default ↔ m ∈ builtinMechs ∧ Enabled on m.name :=
  mem_array_enabled (fun x hx => List.mem_append_left _ hx) m

theorem defaultOrder_builtin : ∀ n ∈ defaultOrder, ∃ x ∈ builtinMechs, x.name = n := by
  intro n hn
  simp only [defaultOrder, List.mem_cons, List.not_mem_nil, or_false] at hn
  rcases hn with rfl | rfl | rfl | rfl | rfl | rfl | rfl | rfl | rfl
  all_goals simp [builtinMechs, SCRAM, Hash.scramName, PLAIN, LOGIN, ANONYMOUS, EXTERNAL, XOAUTH2,
    OAUTHBEARER]

/-- C84: and it is started exactly if there is one. -/
theorem C84_client (on : Build) (offered : List Bytes) :
    (∃ a m, Config.clientStart { mechs := on.default, enableCb := false, prefer := defaultPrefer }
        offered = .ok (a, m)) ↔
      ∃ n ∈ offered, n ∈ defaultOrder ∧ Enabled on n := by
  have hk : Config.Known { mechs := on.default, enableCb := false, prefer := defaultPrefer } :=
    shipped_known fun m hm => builtin_shipped m (default_subset on m hm)
  have hs : Config.AllStart { mechs := on.default, enableCb := false, prefer := defaultPrefer } := by
    intro m hm
    have := default_subset on m hm
    simp only [builtinMechs, List.mem_cons, List.not_mem_nil, or_false] at this
    rcases this with rfl | rfl | rfl | rfl | rfl | rfl | rfl | rfl | rfl <;> exact ⟨_, rfl⟩
  constructor
  · rintro ⟨a, m, h⟩
    obtain ⟨before, after, he, hm, -⟩ := C84_order on offered a m h
    exact ⟨m.name, hm.1, by rw [he]; simp, hm.2⟩
  · rintro ⟨n, hn, hd, ho⟩
    obtain ⟨x, hx, rfl⟩ := defaultOrder_builtin n hd
    exact (C04_no_shared _ hk hs rfl offered).2
      ⟨x, (mem_default on x).2 ⟨hx, ho⟩, (builtin_usable x hx).2 hn⟩

/-- C84: a server with the default registry is started exactly for the mechanisms of `defaultOrder`
whose feature is on; it then runs what it would with every feature on. -/
theorem C84_server (on : Build) (enableCb : Bool) (prefer : Prefer) (selected : Bytes) :
    ((∃ a m, Config.serverStart { mechs := on.default, enableCb := enableCb, prefer := prefer }
        selected = .ok (a, m)) ↔ selected ∈ defaultOrder ∧ Enabled on selected) ∧
    (selected ∈ defaultOrder ∧ Enabled on selected →
      Config.serverStart { mechs := on.default, enableCb := enableCb, prefer := prefer } selected =
        Config.serverStart { mechs := builtinMechs, enableCb := enableCb, prefer := prefer }
          selected) := by
  have hplus : ∀ h : Hash, ∀ l : List Mechanism, (∀ m ∈ l, m ∈ builtinMechs) →
      (l.map (·.name)).any (· == h.plusName) = false := by
    intro h l hl
    rw [List.any_eq_false]
    intro n hn
    obtain ⟨m, hm, rfl⟩ := List.mem_map.1 hn
    simpa using ((C66_default.2 m).1 (hl m hm)).2.2 h
  have key : selected ∈ defaultOrder ∧ Enabled on selected →
      ∃ a m, Config.serverStart { mechs := on.default, enableCb := enableCb, prefer := prefer }
          selected = .ok (a, m) ∧
        Config.serverStart { mechs := builtinMechs, enableCb := enableCb, prefer := prefer }
          selected = .ok (a, m) := by
    rintro ⟨hd, ho⟩
    obtain ⟨x, hx, rfl⟩ := defaultOrder_builtin selected hd
    have hs : ∀ l : List Mechanism, (∀ m ∈ l, m ∈ builtinMechs) → (l.map (·.name)).Nodup → x ∈ l →
        ∃ a, x.server.map (fun f => f ((builtinMechs.map (·.name)))) = some (.ok a) ∧
          Config.serverStart { mechs := l, enableCb := enableCb, prefer := prefer } x.name =
            .ok (a, x) := by
      intro l hl hn hxl
      obtain ⟨before, after, rfl⟩ := List.append_of_mem hxl
      have hb : ∀ y ∈ before, y.name = x.name → y.server = none := by
        intro y hy he
        rw [List.map_append, List.map_cons, List.nodup_append] at hn
        exact absurd he (hn.2.2 _ (List.mem_map_of_mem hy) _ (List.mem_cons_self ..))
      have hst : ∃ f a, x.server = some f ∧ f (builtinMechs.map (·.name)) = .ok a ∧
          f ((before ++ x :: after).map (·.name)) = .ok a := by
        have hp := fun h => hplus h _ hl
        have hp' := fun h => hplus h builtinMechs (fun _ h => h)
        simp only [builtinMechs, List.mem_cons, List.not_mem_nil, or_false] at hx
        rcases hx with rfl | rfl | rfl | rfl | rfl | rfl | rfl | rfl | rfl
        all_goals first
          | exact ⟨_, _, rfl, rfl, rfl⟩
          | exact ⟨_, _, rfl, by rw [hp'], by rw [hp]⟩
      obtain ⟨f, a, hf, ha, ha'⟩ := hst
      exact ⟨a, by rw [hf, Option.map_some, ha],
        (C05_start _ _ _ _).2 ⟨before, after, f, rfl, rfl, hf, ha', hb⟩⟩
    obtain ⟨a, h1, h2⟩ := hs on.default (default_subset on) (C84_once on)
      ((mem_default on x).2 ⟨hx, ho⟩)
    obtain ⟨a', h1', h2'⟩ := hs builtinMechs (fun _ h => h) (by decide) hx
    cases h1.symm.trans h1'
    exact ⟨a, x, h2, h2'⟩
  refine ⟨⟨?_, fun h => ?_⟩, fun h => ?_⟩
  · rintro ⟨a, m, h⟩
    obtain ⟨before, after, f, he, rfl, -⟩ := (C05_start _ _ _ _).1 h
    have hm : m ∈ on.default := by
      change on.default = _ at he
      rw [he]; simp
    obtain ⟨hb, ho⟩ := (mem_default on m).1 hm
    refine ⟨?_, ho⟩
    simp only [builtinMechs, List.mem_cons, List.not_mem_nil, or_false] at hb
    rcases hb with rfl | rfl | rfl | rfl | rfl | rfl | rfl | rfl | rfl <;> decide
  · obtain ⟨a, m, h, -⟩ := key h
    exact ⟨a, m, h⟩
  · obtain ⟨a, m, h, h'⟩ := key h
    rw [h, h']

/-- C84: what the feature `registry_static` gives is subject to C66 in whatever order the linker puts
it, as long as no other crate adds to it. -/
theorem C84_static_shipped (on : Build) (slice : List Mechanism) (h : on.Linked [] slice) :
    ∀ m ∈ slice, m ∈ shipped := by
  intro m hm
  rcases (C84_static on [] slice h m).1 hm with h | h
  · exact h.1
  · cases h

/-- C84: without any feature of a mechanism nothing can be started (src/lib.rs, "does not compile
code for any mechanism"). -/
theorem C84_none (enableCb : Bool) (prefer : Prefer) (offered : List Bytes) (selected : Bytes) :
    Config.clientStart
        { mechs := Build.default (fun _ => false), enableCb := enableCb, prefer := prefer }
        offered = .err .noSharedMechanism ∧
    Config.serverStart
        { mechs := Build.default (fun _ => false), enableCb := enableCb, prefer := prefer }
        selected = .err .noSharedMechanism := by
  refine ⟨?_, rfl⟩
  rw [clientStart_eq _ (fun m hm => absurd hm (List.not_mem_nil))]
  rfl

/-- The dependency of src/mechanisms/mod.rs:17 with the builder: of the mechanisms the documentation
says are available, GSSAPI and SCRAM-SHA-256-PLUS are not. -/
example : let on : Build := fun f => f == .plain || f == .gssapi || f == .scramSha2
    on.default.map (·.name) = [b!"SCRAM-SHA-512", b!"SCRAM-SHA-256", b!"PLAIN"] ∧
    Enabled on (b!"GSSAPI") ∧ Enabled on (b!"SCRAM-SHA-256-PLUS") ∧ ¬ Enabled on (b!"LOGIN") := by
  refine ⟨rfl, ⟨.gssapi, rfl, by decide⟩, ⟨.scramSha2, rfl, by decide⟩, ?_⟩
  rintro ⟨f, hf, hn⟩
  cases f <;> first | exact absurd hf (by decide) | exact absurd hn (by decide)

/-- A build without SHA-2 falls back to SHA-1. -/
example : ∃ a, Config.clientStart
      { mechs := Build.default (fun f => f != .scramSha2), enableCb := false,
        prefer := defaultPrefer }
      [b!"PLAIN", b!"SCRAM-SHA-1", b!"SCRAM-SHA-256"] = .ok (a, SCRAM .sha1) := ⟨_, rfl⟩

/-- A linker that turns the slice round. -/
example : Build.Linked (fun f => f == .plain || f == .gssapi) [] [GSSAPI, PLAIN] :=
  List.Perm.swap ..

end Rsasl

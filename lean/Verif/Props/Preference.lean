/-
C66: between the mechanisms of the crate, the default preference takes the strongest.
-/
import Verif.Spec.Preference
import Verif.Spec.Talk
import Verif.Props.Selection

namespace Rsasl

theorem shipped_known {c : Config} (hs : ∀ m ∈ c.mechs, m ∈ Spec.shipped) : c.Known := by
  intro m hm
  have := hs m hm
  simp only [Spec.shipped, List.mem_cons, List.not_mem_nil, or_false] at this
  rcases this with rfl | rfl | rfl | rfl | rfl | rfl | rfl | rfl | rfl | rfl | rfl | rfl | rfl
  all_goals first
    | exact .inl rfl
    | exact .inr (.inl ⟨_, rfl⟩)
    | exact .inr (.inr ⟨_, rfl⟩)

/-- The chosen one has the greatest priority of all that could be used. -/
theorem clientStart_best {c : Config} (hk : c.Known) (hp : c.prefer = defaultPrefer)
    {offered : List Bytes} {a : Auth} {m : Mechanism} (h : c.clientStart offered = .ok (a, m)) :
    m ∈ c.mechs ∧ ∀ x ∈ c.mechs, Spec.Usable c.enableCb offered x → x.priority ≤ m.priority := by
  obtain ⟨pre, post, he, _, h1, h2⟩ := C03_priority c hk hp offered a m h
  refine ⟨by rw [he]; simp, fun x hx hu => ?_⟩
  rw [he] at hx
  simp only [List.mem_append, List.mem_cons] at hx
  rcases hx with hx | rfl | hx
  · exact h1 x hx hu
  · exact Nat.le_refl _
  · exact Nat.le_of_lt (h2 x hx hu)

/-- The priorities of the crate's mechanisms follow their strength. -/
theorem shipped_priorities :
    ∀ x ∈ Spec.shipped, ∀ m ∈ Spec.shipped, x.priority ≤ m.priority →
      (x.name ∈ Spec.scramNames → m.name ∈ Spec.scramNames) ∧
      (x.name ∈ Spec.sha2Names → m.name ∈ Spec.sha2Names) ∧
      (∀ h : Hash, x.name = h.plusName → m.name ≠ h.scramName) := by
  intro x hx m hm
  simp only [Spec.shipped, List.mem_cons, List.not_mem_nil, or_false] at hx hm
  rcases hx with rfl | rfl | rfl | rfl | rfl | rfl | rfl | rfl | rfl | rfl | rfl | rfl | rfl <;>
  rcases hm with rfl | rfl | rfl | rfl | rfl | rfl | rfl | rfl | rfl | rfl | rfl | rfl | rfl <;>
  first
    | exact fun h => absurd h (by decide)
    | exact fun _ => ⟨by decide, by decide, by intro h; cases h <;> decide⟩

/-- C66: a client of any of the crate's mechanisms, registered in any order, with the default
preference, never runs anything but SCRAM if a SCRAM mechanism can be used; in particular it does not
send the password. -/
theorem C66_no_plaintext (c : Config) (hs : ∀ m ∈ c.mechs, m ∈ Spec.shipped)
    (hp : c.prefer = defaultPrefer) (offered : List Bytes) (a : Auth) (m : Mechanism)
    (h : c.clientStart offered = .ok (a, m))
    (hx : ∃ x ∈ c.mechs, Spec.Usable c.enableCb offered x ∧ x.name ∈ Spec.scramNames) :
    m.name ∈ Spec.scramNames ∧ m.name ∉ Spec.plaintextNames := by
  obtain ⟨hm, hb⟩ := clientStart_best (shipped_known hs) hp h
  obtain ⟨x, hxm, hu, hn⟩ := hx
  have hmn := (shipped_priorities x (hs x hxm) m (hs m hm) (hb x hxm hu)).1 hn
  refine ⟨hmn, ?_⟩
  revert hmn
  generalize m.name = n
  intro hmn
  simp only [Spec.scramNames, Spec.sha1Names, Spec.sha2Names, List.cons_append, List.nil_append,
    List.mem_cons, List.not_mem_nil, or_false] at hmn
  rcases hmn with rfl | rfl | rfl | rfl | rfl | rfl <;> decide

/-- C66: nor does it use SHA-1 if a mechanism with SHA-2 can be used. -/
theorem C66_no_sha1 (c : Config) (hs : ∀ m ∈ c.mechs, m ∈ Spec.shipped)
    (hp : c.prefer = defaultPrefer) (offered : List Bytes) (a : Auth) (m : Mechanism)
    (h : c.clientStart offered = .ok (a, m))
    (hx : ∃ x ∈ c.mechs, Spec.Usable c.enableCb offered x ∧ x.name ∈ Spec.sha2Names) :
    m.name ∈ Spec.sha2Names := by
  obtain ⟨hm, hb⟩ := clientStart_best (shipped_known hs) hp h
  obtain ⟨x, hxm, hu, hn⟩ := hx
  exact (shipped_priorities x (hs x hxm) m (hs m hm) (hb x hxm hu)).2.1 hn

/-- C66: nor does it leave out channel binding if the `-PLUS` mechanism can be used. -/
theorem C66_plus (c : Config) (hs : ∀ m ∈ c.mechs, m ∈ Spec.shipped)
    (hp : c.prefer = defaultPrefer) (offered : List Bytes) (a : Auth) (m : Mechanism) (hash : Hash)
    (h : c.clientStart offered = .ok (a, m))
    (hx : SCRAMPLUS hash ∈ c.mechs) (hc : c.enableCb = true) (ho : hash.plusName ∈ offered) :
    m.name ≠ hash.scramName := by
  obtain ⟨hm, hb⟩ := clientStart_best (shipped_known hs) hp h
  exact (shipped_priorities _ (hs _ hx) m (hs m hm)
    (hb _ hx (show c.enableCb = true ∧ hash.plusName ∈ offered from ⟨hc, ho⟩))).2.2 hash rfl

/-- C66: neither of the two hashes of SHA-2 is thought better than the other: the mechanism with the
one is not used if the mechanism with the other is registered later and can be used, whichever is which,
and so for the two `-PLUS` mechanisms. -/
theorem C66_tie (c : Config) (hs : ∀ m ∈ c.mechs, m ∈ Spec.shipped)
    (hp : c.prefer = defaultPrefer) (offered : List Bytes) (a : Auth) (m : Mechanism)
    (h : c.clientStart offered = .ok (a, m)) (x y : Mechanism)
    (hxy : (x, y) ∈ [(SCRAM .sha256, SCRAM .sha512), (SCRAM .sha512, SCRAM .sha256),
      (SCRAMPLUS .sha256, SCRAMPLUS .sha512), (SCRAMPLUS .sha512, SCRAMPLUS .sha256)])
    (before after : List Mechanism) (hc : c.mechs = before ++ y :: after)
    (hlast : ∀ z ∈ after, z.name ≠ x.name) (hu : Spec.Usable c.enableCb offered y) :
    m.name ≠ x.name := by
  obtain ⟨pre, post, he, -, -, hpost⟩ := C03_priority c (shipped_known hs) hp offered a m h
  intro hm
  have hmem : m ∈ Spec.shipped := hs m (by rw [he]; simp)
  have key : ¬ y.priority < m.priority ∧ y.name ≠ x.name := by
    simp only [List.mem_cons, Prod.mk.injEq, List.not_mem_nil, or_false] at hxy
    simp only [Spec.shipped, List.mem_cons, List.not_mem_nil, or_false] at hmem
    rcases hxy with ⟨rfl, rfl⟩ | ⟨rfl, rfl⟩ | ⟨rfl, rfl⟩ | ⟨rfl, rfl⟩ <;>
    rcases hmem with rfl | rfl | rfl | rfl | rfl | rfl | rfl | rfl | rfl | rfl | rfl | rfl | rfl <;>
    first
      | exact absurd hm (by decide)
      | exact ⟨by decide, by decide⟩
  rw [hc] at he
  rcases List.append_eq_append_iff.1 he with ⟨l, -, hl⟩ | ⟨l, -, hl⟩
  · have : m ∈ y :: after := by rw [hl]; simp
    rcases List.mem_cons.1 this with rfl | this
    · exact key.2 hm
    · exact hlast m this hm
  · cases l with
    | nil => cases hl; exact key.2 hm
    | cons z l =>
      cases hl
      exact key.1 (hpost y (by simp) hu)

/-- Both orders. -/
example : (∃ a m, Config.clientStart
      { mechs := [SCRAM .sha512, PLAIN, SCRAM .sha256], enableCb := false, prefer := defaultPrefer }
      [b!"SCRAM-SHA-512", b!"SCRAM-SHA-256"] = .ok (a, m) ∧ m.name = b!"SCRAM-SHA-256") ∧
    ∃ a m, Config.clientStart
      { mechs := [SCRAM .sha256, PLAIN, SCRAM .sha512], enableCb := false, prefer := defaultPrefer }
      [b!"SCRAM-SHA-512", b!"SCRAM-SHA-256"] = .ok (a, m) ∧ m.name = b!"SCRAM-SHA-512" :=
  ⟨⟨_, _, rfl, rfl⟩, _, _, rfl, rfl⟩

/-- The full set of mechanisms, the greedy server offers PLAIN first. -/
example : ∃ a m, Config.clientStart
      { mechs := Spec.shipped, enableCb := true, prefer := defaultPrefer }
      [b!"PLAIN", b!"SCRAM-SHA-1", b!"SCRAM-SHA-256-PLUS", b!"LOGIN"] = .ok (a, m) ∧
    m.name = b!"SCRAM-SHA-256-PLUS" := ⟨_, _, rfl, rfl⟩

/-- C66: static credentials are used in the documented order: the mechanism used is offered, and none
before it in the documented list is. -/
theorem C66_order (authzid : Option Str) (offered : List Bytes) (a : Auth) (m : Mechanism)
    (h : (Config.withCredentials authzid).clientStart offered = .ok (a, m)) :
    ∃ before after, Spec.documentedOrder = before ++ m.name :: after ∧ m.name ∈ offered ∧
      ∀ n ∈ before, n ∉ offered := by
  have hs : ∀ x ∈ (Config.withCredentials authzid).mechs, x ∈ Spec.shipped := by
    intro x hx
    simp only [Spec.shipped, List.mem_cons, List.not_mem_nil, or_false]
    cases authzid <;>
      simp only [Config.withCredentials, credentialMechs, Option.isSome, if_true, if_false,
        List.mem_cons, List.not_mem_nil, or_false, Bool.false_eq_true] at hx
    · rcases hx with rfl | rfl | rfl | rfl | rfl <;> simp
    · rcases hx with rfl | rfl | rfl | rfl <;> simp
  have hk := shipped_known hs
  obtain ⟨hn, hm⟩ := C06_mechanisms authzid offered a m h
  obtain ⟨pre, post, he, _, h1, h2⟩ := C03_priority _ hk rfl offered a m h
  have use : ∀ x : Mechanism, (x = SCRAM .sha512 ∨ x = SCRAM .sha256 ∨ x = SCRAM .sha1 ∨ x = PLAIN) →
      x.name ∈ offered → Spec.Usable (Config.withCredentials authzid).enableCb offered x := by
    rintro x (rfl | rfl | rfl | rfl) ho
    · exact .inl ho
    · exact .inl ho
    · exact .inl ho
    · exact ho
  have hin : ∀ x : Mechanism, (x = SCRAM .sha512 ∨ x = SCRAM .sha256 ∨ x = SCRAM .sha1 ∨ x = PLAIN) →
      x ∈ (Config.withCredentials authzid).mechs := by
    rintro x (rfl | rfl | rfl | rfl) <;> cases authzid <;>
      simp [Config.withCredentials, credentialMechs]
  obtain ⟨_, hb⟩ := clientStart_best hk rfl h
  -- a mechanism of greater priority that is registered was not offered
  have not : ∀ x : Mechanism,
      (x = SCRAM .sha512 ∨ x = SCRAM .sha256 ∨ x = SCRAM .sha1 ∨ x = PLAIN) →
      m.priority < x.priority → x.name ∉ offered :=
    fun x hx hlt ho => absurd (hb x (hin x hx) (use x hx ho)) (Nat.not_le.2 hlt)
  have n256 := not (SCRAM .sha256) (by simp)
  have n512 := not (SCRAM .sha512) (by simp)
  have n1 := not (SCRAM .sha1) (by simp)
  have np := not PLAIN (by simp)
  rcases hm with ⟨x, rfl, _⟩ | ⟨rfl, _⟩ | ⟨rfl, _⟩
  · cases x
    · refine ⟨[b!"SCRAM-SHA-256", b!"SCRAM-SHA-512"], [b!"PLAIN", b!"LOGIN"], rfl, hn, ?_⟩
      intro n hn
      simp only [List.mem_cons, List.not_mem_nil, or_false] at hn
      rcases hn with rfl | rfl
      · exact n256 (by decide)
      · exact n512 (by decide)
    · exact ⟨[], _, rfl, hn, nofun⟩
    · refine ⟨[b!"SCRAM-SHA-256"], [b!"SCRAM-SHA-1", b!"PLAIN", b!"LOGIN"], rfl, hn, ?_⟩
      intro n hn
      simp only [List.mem_cons, List.not_mem_nil, or_false] at hn
      subst hn
      intro ho
      -- SHA-256 comes after SHA-512 in the registry and has the same priority
      have hm := hin (SCRAM .sha256) (by simp)
      rw [he] at hm
      simp only [List.mem_append, List.mem_cons] at hm
      rcases hm with hm | hm | hm
      · have hpre : pre = [] := by
          cases pre with
          | nil => rfl
          | cons y ys =>
            exfalso
            rw [List.cons_append] at he
            have hnn := congrArg (List.map Mechanism.name) he
            cases authzid <;>
              simp only [Config.withCredentials, credentialMechs, Option.isSome, if_true, if_false,
                Bool.false_eq_true, List.map_cons, List.map_append, List.map_nil] at hnn <;>
              (injection hnn with _ hnn
               have : (SCRAM .sha512).name ∈ ys.map Mechanism.name ++
                  (SCRAM .sha512).name :: post.map Mechanism.name := by simp
               rw [← hnn] at this
               revert this
               decide)
        rw [hpre] at hm
        cases hm
      · exact absurd (congrArg Mechanism.name hm) (by decide)
      · exact absurd (h2 _ hm (use _ (by simp) ho)) (by decide)
  · refine ⟨[b!"SCRAM-SHA-256", b!"SCRAM-SHA-512", b!"SCRAM-SHA-1"], [b!"LOGIN"], rfl, hn, ?_⟩
    intro n hn
    simp only [List.mem_cons, List.not_mem_nil, or_false] at hn
    rcases hn with rfl | rfl | rfl
    · exact n256 (by decide)
    · exact n512 (by decide)
    · exact n1 (by decide)
  · refine ⟨[b!"SCRAM-SHA-256", b!"SCRAM-SHA-512", b!"SCRAM-SHA-1", b!"PLAIN"], [], rfl, hn, ?_⟩
    intro n hn
    simp only [List.mem_cons, List.not_mem_nil, or_false] at hn
    rcases hn with rfl | rfl | rfl | rfl
    · exact n256 (by decide)
    · exact n512 (by decide)
    · exact n1 (by decide)
    · exact np (by decide)

example : (Config.withCredentials none).clientStart
      [b!"LOGIN", b!"PLAIN", b!"SCRAM-SHA-512", b!"SCRAM-SHA-256"] =
    .ok (.scramClient .sha256 true, SCRAM .sha256) := rfl

/-- C66: a client with the default registry uses the first mechanism of `defaultOrder` that is
offered. -/
theorem C66_default_order (c : Config) (hm : c.mechs = builtinMechs) (hc : c.enableCb = false)
    (hp : c.prefer = defaultPrefer) (offered : List Bytes) (a : Auth) (m : Mechanism)
    (h : c.clientStart offered = .ok (a, m)) :
    ∃ before after, Spec.defaultOrder = before ++ m.name :: after ∧ m.name ∈ offered ∧
      ∀ n ∈ before, n ∉ offered := by
  have hk : c.Known := shipped_known fun x hx => by
    rw [hm] at hx
    simp only [builtinMechs, List.mem_cons, List.not_mem_nil, or_false] at hx
    rcases hx with rfl | rfl | rfl | rfl | rfl | rfl | rfl | rfl | rfl <;> simp [Spec.shipped]
  obtain ⟨pre, post, he, hu, h1, h2⟩ := C03_priority c hk hp offered a m h
  rw [hm] at he
  rw [hc] at hu h1 h2
  have use : ∀ x ∈ builtinMechs, x.name ∈ offered → Spec.Usable false offered x := by
    intro x hx ho
    simp only [builtinMechs, List.mem_cons, List.not_mem_nil, or_false] at hx
    rcases hx with rfl | rfl | rfl | rfl | rfl | rfl | rfl | rfl | rfl <;>
      first | exact ho | exact .inl ho
  have ho : m.name ∈ offered := by
    have hx : m ∈ builtinMechs := by rw [he]; simp
    simp only [builtinMechs, List.mem_cons, List.not_mem_nil, or_false] at hx
    rcases hx with rfl | rfl | rfl | rfl | rfl | rfl | rfl | rfl | rfl <;>
      first | exact hu | exact (hu.resolve_right nofun)
  replace h1 : ∀ x ∈ pre, m.priority < x.priority → x.name ∉ offered := fun x hx hlt hxo =>
    absurd (h1 x hx (use x (by rw [he]; simp [hx]) hxo)) (Nat.not_le.2 hlt)
  replace h2 : ∀ x ∈ post, m.priority ≤ x.priority → x.name ∉ offered := fun x hx hle hxo =>
    absurd (h2 x hx (use x (by rw [he]; simp [hx]) hxo)) (Nat.not_lt.2 hle)
  clear hu use hk
  have done : ∀ before after : List Bytes, Spec.defaultOrder = before ++ m.name :: after →
      (∀ n ∈ before, (∃ x ∈ pre, x.name = n ∧ m.priority < x.priority) ∨
        ∃ x ∈ post, x.name = n ∧ m.priority ≤ x.priority) →
      ∃ before after, Spec.defaultOrder = before ++ m.name :: after ∧ m.name ∈ offered ∧
        ∀ n ∈ before, n ∉ offered := fun before after hb hx =>
    ⟨before, after, hb, ho, fun n hn => by
      rcases hx n hn with ⟨x, hx, rfl, hlt⟩ | ⟨x, hx, rfl, hle⟩
      · exact h1 x hx hlt
      · exact h2 x hx hle⟩
  clear h1 h2 ho
  rw [builtinMechs] at he
  rcases pre with _ | ⟨p1, pre⟩
  · cases he
    exact done [b!"SCRAM-SHA-256"] _ rfl (by simp [SCRAM, Hash.scramName, Hash.scramPriority])
  rcases pre with _ | ⟨p2, pre⟩
  · cases he
    exact done [] _ rfl (by simp)
  rcases pre with _ | ⟨p3, pre⟩
  · cases he
    exact done [b!"SCRAM-SHA-256", b!"SCRAM-SHA-512"] _ rfl
      (by simp [SCRAM, Hash.scramName, Hash.scramPriority])
  rcases pre with _ | ⟨p4, pre⟩
  · cases he
    exact done [b!"SCRAM-SHA-256", b!"SCRAM-SHA-512", b!"SCRAM-SHA-1",
      b!"OAUTHBEARER", b!"XOAUTH2"] _ rfl
      (by simp [SCRAM, PLAIN, LOGIN, ANONYMOUS, EXTERNAL, XOAUTH2, OAUTHBEARER, Hash.scramName,
        Hash.scramPriority])
  rcases pre with _ | ⟨p5, pre⟩
  · cases he
    exact done [b!"SCRAM-SHA-256", b!"SCRAM-SHA-512", b!"SCRAM-SHA-1",
      b!"OAUTHBEARER", b!"XOAUTH2", b!"PLAIN"] _ rfl
      (by simp [SCRAM, PLAIN, LOGIN, ANONYMOUS, EXTERNAL, XOAUTH2, OAUTHBEARER, Hash.scramName,
        Hash.scramPriority])
  rcases pre with _ | ⟨p6, pre⟩
  · cases he
    exact done [b!"SCRAM-SHA-256", b!"SCRAM-SHA-512", b!"SCRAM-SHA-1",
      b!"OAUTHBEARER", b!"XOAUTH2", b!"PLAIN", b!"LOGIN", b!"EXTERNAL"] _ rfl
      (by simp [SCRAM, PLAIN, LOGIN, ANONYMOUS, EXTERNAL, XOAUTH2, OAUTHBEARER, Hash.scramName,
        Hash.scramPriority])
  rcases pre with _ | ⟨p7, pre⟩
  · cases he
    exact done [b!"SCRAM-SHA-256", b!"SCRAM-SHA-512", b!"SCRAM-SHA-1",
      b!"OAUTHBEARER", b!"XOAUTH2", b!"PLAIN", b!"LOGIN"] _ rfl
      (by simp [SCRAM, PLAIN, LOGIN, ANONYMOUS, EXTERNAL, XOAUTH2, OAUTHBEARER, Hash.scramName,
        Hash.scramPriority])
  rcases pre with _ | ⟨p8, pre⟩
  · cases he
    exact done [b!"SCRAM-SHA-256", b!"SCRAM-SHA-512", b!"SCRAM-SHA-1", b!"OAUTHBEARER"] _ rfl
      (by simp [SCRAM, PLAIN, LOGIN, ANONYMOUS, EXTERNAL, XOAUTH2, OAUTHBEARER, Hash.scramName,
        Hash.scramPriority])
  rcases pre with _ | ⟨p9, pre⟩
  · cases he
    exact done [b!"SCRAM-SHA-256", b!"SCRAM-SHA-512", b!"SCRAM-SHA-1"] _ rfl
      (by simp [SCRAM, PLAIN, LOGIN, ANONYMOUS, EXTERNAL, XOAUTH2, OAUTHBEARER, Hash.scramName,
        Hash.scramPriority])
  · simp at he

/-- The offer of examples/mechanism_selection.rs. -/
example : ∃ a, (Config.withCredentials none).clientStart
      [b!"LOGIN", b!"PLAIN", b!"GSSAPI", b!"SCRAM-SHA-1", b!"SCRAM-SHA-256"] =
    .ok (a, SCRAM .sha256) := ⟨_, rfl⟩

example : ∃ a, Config.clientStart
      { mechs := builtinMechs, enableCb := false, prefer := defaultPrefer }
      [b!"LOGIN", b!"EXTERNAL", b!"XOAUTH2", b!"PLAIN"] = .ok (a, XOAUTH2) := ⟨_, rfl⟩

/-- C66: the mechanisms of the crate are registered under the names, with the side that goes first and
with the implementations of the specifications, in both roles. -/
theorem C66_registrations (names : List Bytes) :
    (Spec.shipped.map fun m =>
      (m.name, m.first, m.client, m.server.map fun f => f names)) =
    Spec.registrations.map fun r =>
      (r.name, r.first, some (.ok r.client),
        some (.ok (r.server (names.any (· == r.name ++ b!"-PLUS"))))) := rfl

/-- C66: the default registry holds every mechanism of the crate but GSSAPI and the `-PLUS`
mechanisms, each once. -/
theorem C66_default :
    builtinMechs.map (·.name) =
      [b!"SCRAM-SHA-512", b!"SCRAM-SHA-256", b!"SCRAM-SHA-1", b!"PLAIN", b!"LOGIN", b!"ANONYMOUS",
       b!"EXTERNAL", b!"XOAUTH2", b!"OAUTHBEARER"] ∧
    ∀ m, m ∈ builtinMechs ↔ m ∈ Spec.shipped ∧ m.name ≠ b!"GSSAPI" ∧
      ∀ h : Hash, m.name ≠ h.plusName := by
  refine ⟨rfl, fun m => ⟨fun hm => ?_, fun ⟨hm, h1, h2⟩ => ?_⟩⟩
  · simp only [builtinMechs, List.mem_cons, List.not_mem_nil, or_false] at hm
    rcases hm with rfl | rfl | rfl | rfl | rfl | rfl | rfl | rfl | rfl
    all_goals exact ⟨by simp [Spec.shipped], by decide, by intro h; cases h <;> decide⟩
  · simp only [Spec.shipped, List.mem_cons, List.not_mem_nil, or_false] at hm
    rcases hm with rfl | rfl | rfl | rfl | rfl | rfl | rfl | rfl | rfl | rfl | rfl | rfl | rfl
    all_goals first
      | exact absurd rfl h1
      | exact absurd rfl (h2 .sha1)
      | exact absurd rfl (h2 .sha256)
      | exact absurd rfl (h2 .sha512)
      | simp [builtinMechs]

/-- C66: a client with any of the mechanisms of the crate is started or told that there is no shared
mechanism, whatever is offered and whatever the preference. It does not panic. -/
theorem C66_starts (c : Config) (hs : ∀ m ∈ c.mechs, m ∈ Spec.shipped) (offered : List Bytes) :
    (∃ a m, c.clientStart offered = .ok (a, m)) ∨
      c.clientStart offered = .err .noSharedMechanism := by
  have hcl : ∀ m ∈ c.mechs, ∃ a, m.client = some (.ok a) := by
    intro m hm
    have := hs m hm
    simp only [Spec.shipped, List.mem_cons, List.not_mem_nil, or_false] at this
    rcases this with rfl | rfl | rfl | rfl | rfl | rfl | rfl | rfl | rfl | rfl | rfl | rfl | rfl
    all_goals exact ⟨_, rfl⟩
  rw [clientStart_eq c (shipped_known hs)]
  rcases hc : chosen c.prefer
    (c.mechs.filter (fun m => decide (Spec.Usable c.enableCb offered m))) with _ | m
  · exact .inr rfl
  · have hmem := chosen_mem hc
    rw [List.mem_filter] at hmem
    obtain ⟨a, ha⟩ := authFor_ok (cb := c.enableCb) (offered := offered) (hcl m hmem.1)
    exact .inl ⟨a, m, by simp only [ha]⟩

example : ∀ m ∈ builtinMechs, m ∈ Spec.shipped := fun m hm => ((C66_default.2 m).1 hm).1

/-- C66: what each of the crate's mechanisms is worth, next to mechanisms of other crates. -/
theorem C66_priorities : Spec.shipped.map (fun m => (m.name, m.priority)) =
    [(b!"PLAIN", 300), (b!"LOGIN", 200), (b!"EXTERNAL", 100), (b!"ANONYMOUS", 100), (b!"XOAUTH2", 300),
      (b!"OAUTHBEARER", 300), (b!"GSSAPI", 300), (b!"SCRAM-SHA-1", 400), (b!"SCRAM-SHA-256", 600),
      (b!"SCRAM-SHA-512", 600), (b!"SCRAM-SHA-1-PLUS", 500), (b!"SCRAM-SHA-256-PLUS", 700),
      (b!"SCRAM-SHA-512-PLUS", 700)] := rfl

end Rsasl

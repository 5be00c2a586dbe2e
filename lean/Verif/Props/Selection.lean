/-
C02, C03, C04, C05 and the mechanism part of C06: which mechanism a session is started with.
-/
import Verif.Proofs.Selection

namespace Rsasl

/-- All mechanisms of a configuration are ones a registry can hold. -/
def Config.Known (c : Config) : Prop := ∀ m ∈ c.mechs, Spec.Known m

theorem clientStart_eq (c : Config) (hk : c.Known) (offered : List Bytes) :
    c.clientStart offered =
      match chosen c.prefer (c.mechs.filter (fun m => decide (Spec.Usable c.enableCb offered m))) with
      | none => .err .noSharedMechanism
      | some m =>
        match Spec.authFor c.enableCb offered m with
        | .ok a => .ok (a, m)
        | .err e => .err e
        | .panic => .panic := by
  rw [Config.clientStart, Bool.or_false]
  exact registrySelect_eq c.mechs c.enableCb offered c.prefer hk

theorem clientStart_ok {c : Config} (hk : c.Known) {offered : List Bytes} {a : Auth}
    {m : Mechanism} (h : c.clientStart offered = .ok (a, m)) :
    m ∈ c.mechs ∧ Spec.Usable c.enableCb offered m ∧
      chosen c.prefer (c.mechs.filter (fun m => decide (Spec.Usable c.enableCb offered m))) = some m ∧
      Spec.authFor c.enableCb offered m = .ok a := by
  rw [clientStart_eq c hk] at h
  split at h
  · cases h
  · next m' hm' =>
    have hmem := chosen_mem hm'
    rw [List.mem_filter, decide_eq_true_eq] at hmem
    split at h
    · next a' ha' =>
      cases h
      exact ⟨hmem.1, hmem.2, hm', ha'⟩
    · cases h
    · cases h

/-! ## C02 -/

/-- The full statement of C02. -/
def C02 (c : Config) : Prop :=
  ∀ offered a m, c.clientStart offered = .ok (a, m) → m ∈ c.mechs ∧ m.name ∈ offered

/-- C02 does not hold in general: with channel binding enabled and the mechanisms registered by
default, a server that offers only `SCRAM-SHA-256-PLUS` gets a `SCRAM-SHA-256` session. -/
theorem C02_false : ¬ ∀ c : Config, c.Known → C02 c := by
  intro h
  have hk : Config.Known { mechs := builtinMechs, enableCb := true, prefer := defaultPrefer } := by
    intro m hm
    simp only [builtinMechs, List.mem_cons, List.not_mem_nil, or_false] at hm
    rcases hm with rfl | rfl | rfl | rfl | rfl | rfl | rfl | rfl | rfl
    · exact .inr (.inl ⟨_, rfl⟩)
    · exact .inr (.inl ⟨_, rfl⟩)
    · exact .inr (.inl ⟨_, rfl⟩)
    all_goals exact .inl rfl
  have := (h _ hk [b!"SCRAM-SHA-256-PLUS"] (.scramClient .sha256 true) (SCRAM .sha256) rfl).2
  exact absurd this (by decide)

/-- C02, what holds always: the mechanism is a configured one, and its name was offered except
if it is a SCRAM mechanism, channel binding is enabled and its `-PLUS` variant was offered.
Missing: that exception. -/
theorem C02_partial (c : Config) (hk : c.Known) (offered : List Bytes) (a : Auth) (m : Mechanism)
    (h : c.clientStart offered = .ok (a, m)) :
    m ∈ c.mechs ∧ (m.name ∈ offered ∨
      c.enableCb = true ∧ ∃ x : Hash, m = SCRAM x ∧ x.plusName ∈ offered) := by
  obtain ⟨h1, h2, _, _⟩ := clientStart_ok hk h
  refine ⟨h1, ?_⟩
  rcases hk m h1 with hs | ⟨x, rfl⟩ | ⟨x, rfl⟩
  · simp only [Spec.Usable, hs] at h2; exact .inl h2
  · rcases h2 with h2 | ⟨hc, h2⟩
    · exact .inl h2
    · exact .inr ⟨hc, x, rfl, h2⟩
  · exact .inl h2.2

/-- C02 in full for configurations without channel binding. -/
theorem C02_no_channel_binding_partial (c : Config) (hk : c.Known) (hc : c.enableCb = false) :
    C02 c := by
  intro offered a m h
  obtain ⟨h1, h2⟩ := C02_partial c hk offered a m h
  refine ⟨h1, h2.resolve_right ?_⟩
  rw [hc]
  exact fun h => absurd h.1 (by decide)

/-- C02 in full with the default preference, if every SCRAM mechanism is registered together
with its `-PLUS` variant. -/
theorem C02_plus_registered_partial (c : Config) (hk : c.Known) (hp : c.prefer = defaultPrefer)
    (hreg : ∀ x, SCRAM x ∈ c.mechs → SCRAMPLUS x ∈ c.mechs) : C02 c := by
  intro offered a m h
  obtain ⟨h1, h2⟩ := C02_partial c hk offered a m h
  refine ⟨h1, ?_⟩
  rcases h2 with h2 | ⟨hc, x, rfl, hx⟩
  · exact h2
  · exfalso
    obtain ⟨_, _, hch, _⟩ := clientStart_ok hk h
    rw [hp] at hch
    have hplus : SCRAMPLUS x ∈
        c.mechs.filter (fun m => decide (Spec.Usable c.enableCb offered m)) := by
      rw [List.mem_filter, decide_eq_true_eq]
      exact ⟨hreg x h1, hc, hx⟩
    have hlt : (SCRAM x).priority < (SCRAMPLUS x).priority := by cases x <;> decide
    rcases chosen_default (c.mechs.filter (fun m => decide (Spec.Usable c.enableCb offered m)))
      with ⟨hn, _⟩ | ⟨pre, m', post, hs, hl, hpre, hpost⟩
    · rw [hn] at hch; cases hch
    · rw [hs] at hch
      cases hch
      rw [hl] at hplus
      simp only [List.mem_append, List.mem_cons] at hplus
      rcases hplus with hp | hp | hp
      · have := hpre _ hp; omega
      · rw [hp] at hlt; omega
      · have := hpost _ hp; omega

example : Config.clientStart
    { mechs := [SCRAM .sha256, SCRAMPLUS .sha256, PLAIN], enableCb := true,
      prefer := defaultPrefer }
    [b!"PLAIN", b!"SCRAM-SHA-256", b!"SCRAM-SHA-256-PLUS"] =
      .ok (.scramClientPlus .sha256, SCRAMPLUS .sha256) := by rfl

/-! ## C03 -/

/-- C03: with the default preference the selected mechanism is, among the usable ones, a maximum
by priority, and the last registered one of the maxima. -/
theorem C03_priority (c : Config) (hk : c.Known) (hp : c.prefer = defaultPrefer)
    (offered : List Bytes) (a : Auth) (m : Mechanism)
    (h : c.clientStart offered = .ok (a, m)) :
    ∃ before after, c.mechs = before ++ m :: after ∧
      Spec.Usable c.enableCb offered m ∧
      (∀ x ∈ before, Spec.Usable c.enableCb offered x → x.priority ≤ m.priority) ∧
      (∀ x ∈ after, Spec.Usable c.enableCb offered x → x.priority < m.priority) := by
  obtain ⟨_, hu, hch, _⟩ := clientStart_ok hk h
  rw [hp] at hch
  rcases chosen_default (c.mechs.filter (fun m => decide (Spec.Usable c.enableCb offered m)))
    with ⟨hn, _⟩ | ⟨pre, m', post, hs, hl, hpre, hpost⟩
  · rw [hn] at hch; cases hch
  · rw [hs] at hch
    cases hch
    obtain ⟨l₁, l₂, he, h1, h2⟩ := List.filter_eq_append_iff.1 hl
    obtain ⟨l₃, l₄, he', h3, h4, h5⟩ := List.filter_eq_cons_iff.1 h2
    refine ⟨l₁ ++ l₃, l₄, by rw [he, he']; simp, hu, ?_, ?_⟩
    · intro x hx hxu
      rcases List.mem_append.1 hx with hx | hx
      · refine hpre x ?_
        rw [← h1, List.mem_filter]
        exact ⟨hx, by simpa using hxu⟩
      · exact absurd (by simpa using hxu) (h3 x hx)
    · intro x hx hxu
      refine hpost x ?_
      rw [← h5, List.mem_filter]
      exact ⟨hx, by simpa using hxu⟩

/-- C03: neither order nor repetition in the offered list matters, for any preference. -/
theorem C03_offer_order (c : Config) (hk : c.Known) (offered₁ offered₂ : List Bytes)
    (h : ∀ n, n ∈ offered₁ ↔ n ∈ offered₂) :
    c.clientStart offered₁ = c.clientStart offered₂ := by
  have hu : ∀ m, Spec.Usable c.enableCb offered₁ m ↔ Spec.Usable c.enableCb offered₂ m := by
    intro m
    unfold Spec.Usable
    cases m.select <;> simp only [h]
  have ha : ∀ m, Spec.authFor c.enableCb offered₁ m = Spec.authFor c.enableCb offered₂ m := by
    intro m
    unfold Spec.authFor
    cases m.select <;> simp only [h]
  rw [clientStart_eq c hk, clientStart_eq c hk]
  simp only [hu, ha]

example : Config.clientStart { mechs := builtinMechs, enableCb := false, prefer := defaultPrefer }
    [b!"LOGIN", b!"XOAUTH2", b!"PLAIN", b!"PLAIN"] = .ok (.xoauth2, XOAUTH2) := by rfl

/-! ## C04 -/

/-- Every registered mechanism can be started as a client. -/
def Config.AllStart (c : Config) : Prop := ∀ m ∈ c.mechs, ∃ a, m.client = some (.ok a)

theorem authFor_ok {cb : Bool} {offered : List Bytes} {m : Mechanism}
    (h : ∃ a, m.client = some (.ok a)) : ∃ a, Spec.authFor cb offered m = .ok a := by
  obtain ⟨a, ha⟩ := h
  unfold Spec.authFor
  cases m.select with
  | «matches» => exact ⟨a, by simp [ha]⟩
  | scram x => exact ⟨_, rfl⟩
  | scramPlus x => exact ⟨a, by simp [ha]⟩

/-- C04: with the default preference, `NoSharedMechanism` is returned exactly when no registered
mechanism is usable, and a session is started in all other cases. -/
theorem C04_no_shared (c : Config) (hk : c.Known) (hs : c.AllStart) (hp : c.prefer = defaultPrefer)
    (offered : List Bytes) :
    (c.clientStart offered = .err .noSharedMechanism ↔
      ∀ m ∈ c.mechs, ¬ Spec.Usable c.enableCb offered m) ∧
    ((∃ m ∈ c.mechs, Spec.Usable c.enableCb offered m) →
      ∃ a m, c.clientStart offered = .ok (a, m)) := by
  rw [clientStart_eq c hk, hp]
  rcases chosen_default (c.mechs.filter (fun m => decide (Spec.Usable c.enableCb offered m)))
    with ⟨hn, hl⟩ | ⟨pre, m', post, hch, hl, _, _⟩
  · rw [hn]
    rw [List.filter_eq_nil_iff] at hl
    simp only [decide_eq_true_eq] at hl
    exact ⟨⟨fun _ => hl, fun _ => rfl⟩, fun ⟨m, hm, hu⟩ => absurd hu (hl m hm)⟩
  · have hmem : m' ∈ c.mechs.filter (fun m => decide (Spec.Usable c.enableCb offered m)) := by
      rw [hl]; simp
    rw [List.mem_filter, decide_eq_true_eq] at hmem
    obtain ⟨a, ha⟩ := authFor_ok (cb := c.enableCb) (offered := offered) (hs m' hmem.1)
    rw [hch]
    simp only [ha]
    exact ⟨⟨fun h => (nomatch h), fun h => absurd hmem.2 (h m' hmem.1)⟩, fun _ => ⟨a, m', rfl⟩⟩

/-- C04: a preference that always keeps the old choice vetoes every selection. -/
theorem C04_veto (c : Config) (hk : c.Known) (hp : ∀ o m, c.prefer o m = .gt)
    (offered : List Bytes) : c.clientStart offered = .err .noSharedMechanism := by
  rw [clientStart_eq c hk]
  have : ∀ l, chosen c.prefer l = none := by
    intro l
    induction l using List.reverseRecOn with
    | nil => rfl
    | append_singleton l x ih => rw [chosen_concat, ih, hp]
  rw [this]

/-- C04: a preference that always takes the new choice selects the last usable mechanism. -/
theorem C04_last (c : Config) (hk : c.Known) (hs : c.AllStart)
    (hp : ∀ o m, c.prefer o m = .lt) (offered : List Bytes) :
    match c.mechs.filter (fun m => decide (Spec.Usable c.enableCb offered m)) |>.getLast? with
    | none => c.clientStart offered = .err .noSharedMechanism
    | some m => ∃ a, c.clientStart offered = .ok (a, m) := by
  rw [clientStart_eq c hk]
  have hl : ∀ l, chosen c.prefer l = l.getLast? := by
    intro l
    induction l using List.reverseRecOn with
    | nil => rfl
    | append_singleton l x ih => rw [chosen_concat, hp, List.getLast?_concat]
  rw [hl]
  rcases h : (c.mechs.filter (fun m => decide (Spec.Usable c.enableCb offered m))).getLast? with _ | m
  · rfl
  · have hmem := List.mem_of_getLast? h
    rw [List.mem_filter] at hmem
    obtain ⟨a, ha⟩ := authFor_ok (cb := c.enableCb) (offered := offered) (hs m hmem.1)
    exact ⟨a, by simp only [ha]⟩

example : Config.AllStart { mechs := builtinMechs, enableCb := true, prefer := defaultPrefer } := by
  intro m hm
  simp only [builtinMechs, List.mem_cons, List.not_mem_nil, or_false] at hm
  rcases hm with rfl | rfl | rfl | rfl | rfl | rfl | rfl | rfl | rfl <;> exact ⟨_, rfl⟩

example : Config.clientStart { mechs := builtinMechs, enableCb := true, prefer := defaultPrefer }
    [b!"DIGEST-MD5"] = .err .noSharedMechanism := by rfl

/-- C04: starting a client panics only on a usable mechanism that was registered without a client
side, whatever the preference. -/
theorem C04_panic (c : Config) (hk : c.Known) (offered : List Bytes)
    (h : c.clientStart offered = .panic) :
    ∃ m ∈ c.mechs, m.client = none ∧ Spec.Usable c.enableCb offered m := by
  rw [clientStart_eq c hk] at h
  rcases hc : chosen c.prefer
    (c.mechs.filter (fun m => decide (Spec.Usable c.enableCb offered m))) with _ | m
  · rw [hc] at h; cases h
  · have hmem := chosen_mem hc
    rw [List.mem_filter, decide_eq_true_eq] at hmem
    refine ⟨m, hmem.1, ?_, hmem.2⟩
    rw [hc] at h
    simp only at h
    unfold Spec.authFor at h
    rcases hm : m.client with _ | (e | a)
    · rfl
    all_goals
      rw [hm] at h
      cases hs : m.select <;> rw [hs] at h <;> cases h

/-- C04: such a mechanism does make it panic, where the ones without a server side are passed over
by a server. -/
theorem C04_panics (m : Mechanism) (hm : m.select = .matches) (hc : m.client = none)
    (prefer : Prefer) (hp : prefer none m ≠ .gt) (cb : Bool) :
    Config.clientStart { mechs := [m], enableCb := cb, prefer := prefer } [m.name] = .panic := by
  rw [clientStart_eq _ (by intro x hx; cases List.mem_singleton.1 hx; exact .inl hm)]
  have hu : Spec.Usable cb [m.name] m := by
    unfold Spec.Usable; rw [hm]; simp
  have hf : [m].filter (fun m' => decide (Spec.Usable cb [m.name] m')) = [m] := by
    simp [hu]
  have hch : chosen prefer [m] = some m := by
    rw [show [m] = [] ++ [m] from rfl, chosen_concat]
    have h0 : chosen prefer [] = none := rfl
    rw [h0]
    revert hp
    generalize prefer none m = o
    cases o <;> simp
  show (match chosen prefer ([m].filter fun m' => decide (Spec.Usable cb [m.name] m')) with
    | none => _ | some m => _) = _
  rw [hf, hch]
  simp [Spec.authFor, hm, hc]

example : Config.clientStart
    { mechs := [{ PLAIN with client := none }], enableCb := false, prefer := defaultPrefer }
    [b!"PLAIN"] = .panic := by rfl

/-! ## C05 -/

/-- C05: a server session is started exactly for a configured mechanism of the asked name that
has a server side; the first such one in configuration order runs. -/
theorem C05_start (c : Config) (selected : Bytes) (a : Auth) (m : Mechanism) :
    c.serverStart selected = .ok (a, m) ↔
      ∃ before after start, c.mechs = before ++ m :: after ∧ m.name = selected ∧
        m.server = some start ∧ start (c.mechs.map (·.name)) = .ok a ∧
        ∀ x ∈ before, x.name = selected → x.server = none := by
  unfold Config.serverStart Config.getAvailable
  rw [List.find?_filter]
  constructor
  · intro h
    split at h
    · cases h
    · next m' hf =>
      obtain ⟨hp, before, after, he, hb⟩ := List.find?_eq_some_iff_append.1 hf
      split at h
      · cases h
      · next start hst =>
        split at h
        · next a' ha =>
          cases h
          refine ⟨before, after, start, he, ?_, hst, ha, ?_⟩
          · simp at hp; exact hp.2
          · intro x hx hn
            have := hb x hx
            simp [hn] at this
            exact this
        · cases h
  · rintro ⟨before, after, start, he, hn, hst, ha, hb⟩
    have hf : c.mechs.find? (fun a => decide (a.server.isSome = true ∧ (a.name == selected) = true))
        = some m := by
      rw [List.find?_eq_some_iff_append]
      refine ⟨by simp [hst, hn], before, after, he, ?_⟩
      intro x hx
      have := hb x hx
      by_cases hxn : x.name = selected
      · simp [this hxn]
      · simp [hxn]
    rw [hf]
    simp only [hst, ha]

/-- C05: in all other cases `NoSharedMechanism` is returned (unless the mechanism's own start
function fails, which those of the crate never do). -/
theorem C05_no_shared (c : Config) (selected : Bytes)
    (hs : ∀ m ∈ c.mechs, ∀ start, m.server = some start → ∃ a, start (c.mechs.map (·.name)) = .ok a) :
    c.serverStart selected = .err .noSharedMechanism ↔
      ∀ m ∈ c.mechs, m.name = selected → m.server = none := by
  unfold Config.serverStart Config.getAvailable
  rw [List.find?_filter]
  constructor
  · intro h m hm hn
    split at h
    · next hf =>
      rw [List.find?_eq_none] at hf
      have := hf m hm
      simpa [hn] using this
    · next m' hf =>
      have hp := List.find?_some hf
      simp only [decide_eq_true_eq] at hp
      obtain ⟨start, hst⟩ := Option.isSome_iff_exists.1 hp.1
      obtain ⟨a, ha⟩ := hs m' (List.mem_of_find?_eq_some hf) start hst
      simp only [hst, ha] at h
      cases h
  · intro h
    have hf : c.mechs.find? (fun a => decide (a.server.isSome = true ∧ (a.name == selected) = true))
        = none := by
      rw [List.find?_eq_none]
      intro x hx
      by_cases hxn : x.name = selected
      · simp [h x hx hxn]
      · simp [hxn]
    rw [hf]

/-- C05: the mechanisms a server lists are exactly the configured ones with a server side, in
configuration order. -/
theorem C05_available (c : Config) :
    (∀ m, m ∈ c.getAvailable ↔ m ∈ c.mechs ∧ m.server ≠ none) ∧
      c.getAvailable.Sublist c.mechs := by
  refine ⟨fun m => ?_, List.filter_sublist⟩
  rw [Config.getAvailable, List.mem_filter]
  cases m.server <;> simp

/-- C05: every listed mechanism can be started. -/
theorem C05_available_start (c : Config) (m : Mechanism) (hm : m ∈ c.getAvailable)
    (hs : ∀ m ∈ c.mechs, ∀ start, m.server = some start → ∃ a, start (c.mechs.map (·.name)) = .ok a) :
    ∃ a m', c.serverStart m.name = .ok (a, m') ∧ m'.name = m.name := by
  have hm' := ((C05_available c).1 m).1 hm
  rcases h : c.serverStart m.name with ⟨a, m'⟩ | e | _
  · obtain ⟨_, _, _, _, hn, _⟩ := (C05_start c m.name a m').1 h
    exact ⟨a, m', rfl, hn⟩
  · exfalso
    have hne : c.serverStart m.name ≠ .err .noSharedMechanism := fun hh =>
      hm'.2 ((C05_no_shared c m.name hs).1 hh m hm'.1 rfl)
    unfold Config.serverStart at h hne
    split at h
    · next hf => simp [hf] at hne
    · next m'' hf =>
      split at h
      · next hsrv => simp [hf, hsrv] at hne
      · next f hsrv =>
        have hmem : m'' ∈ c.mechs := (List.mem_filter.1 (List.mem_of_find?_eq_some hf)).1
        obtain ⟨a, ha⟩ := hs m'' hmem f hsrv
        rw [ha] at h; cases h
  · exfalso
    unfold Config.serverStart at h
    split at h
    · cases h
    · split at h
      · cases h
      · split at h <;> cases h

example : Config.serverStart
    { mechs := [PLAIN, SCRAM .sha1, SCRAMPLUS .sha1], enableCb := false, prefer := defaultPrefer }
    (b!"SCRAM-SHA-1") = .ok (.scramServer .sha1 true, SCRAM .sha1) := by
  rfl

/-! ## C06, mechanisms -/

/-- C06: a client built from credentials only ever runs an offered SCRAM (without `-PLUS`), PLAIN
or LOGIN mechanism, and LOGIN only if no authorization id was given. -/
theorem C06_mechanisms (authzid : Option Str) (offered : List Bytes) (a : Auth) (m : Mechanism)
    (h : (Config.withCredentials authzid).clientStart offered = .ok (a, m)) :
    m.name ∈ offered ∧
      ((∃ x, m = SCRAM x ∧ a = .scramClient x true) ∨ (m = PLAIN ∧ a = .plain) ∨
        (m = LOGIN ∧ a = .login ∧ authzid = none)) := by
  have hk : (Config.withCredentials authzid).Known := by
    intro m hm
    cases authzid <;>
      simp only [Config.withCredentials, credentialMechs, Option.isSome, if_true, if_false,
        List.mem_cons, List.not_mem_nil, or_false, Bool.false_eq_true] at hm
    · rcases hm with rfl | rfl | rfl | rfl | rfl
      · exact .inr (.inl ⟨_, rfl⟩)
      · exact .inr (.inl ⟨_, rfl⟩)
      · exact .inr (.inl ⟨_, rfl⟩)
      · exact .inl rfl
      · exact .inl rfl
    · rcases hm with rfl | rfl | rfl | rfl
      · exact .inr (.inl ⟨_, rfl⟩)
      · exact .inr (.inl ⟨_, rfl⟩)
      · exact .inr (.inl ⟨_, rfl⟩)
      · exact .inl rfl
  obtain ⟨hm, hn⟩ := C02_no_channel_binding_partial _ hk rfl offered a m h
  obtain ⟨_, _, _, ha⟩ := clientStart_ok hk h
  refine ⟨hn, ?_⟩
  cases authzid <;>
    simp only [Config.withCredentials, credentialMechs, Option.isSome, if_true, if_false,
      List.mem_cons, List.not_mem_nil, or_false, Bool.false_eq_true] at hm
  · rcases hm with rfl | rfl | rfl | rfl | rfl <;> cases ha
    · exact .inl ⟨_, rfl, rfl⟩
    · exact .inl ⟨_, rfl, rfl⟩
    · exact .inl ⟨_, rfl, rfl⟩
    · exact .inr (.inl ⟨rfl, rfl⟩)
    · exact .inr (.inr ⟨rfl, rfl, rfl⟩)
  · rcases hm with rfl | rfl | rfl | rfl <;> cases ha
    · exact .inl ⟨_, rfl, rfl⟩
    · exact .inl ⟨_, rfl, rfl⟩
    · exact .inl ⟨_, rfl, rfl⟩
    · exact .inr (.inl ⟨rfl, rfl⟩)

example : (Config.withCredentials none).clientStart [b!"LOGIN"] = .ok (.login, LOGIN) := by rfl
example : (Config.withCredentials (some (c!"admin"))).clientStart [b!"LOGIN"]
    = .err .noSharedMechanism := by rfl

end Rsasl

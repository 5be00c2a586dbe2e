/-
C120: how the selection of the client depends on the offer of the server.
-/
import Verif.Spec.Ranking
import Verif.Props.Selection

namespace Rsasl

/-! ## The fold with a ranking preference -/

theorem chosen_ranked {f : Option Mechanism → Nat} {prefer : Prefer}
    (hf : Spec.RankedBy f prefer) (l : List Mechanism) :
    (chosen prefer l = none ∧ ∀ x ∈ l, f (some x) < f none) ∨
    ∃ pre m post, chosen prefer l = some m ∧ l = pre ++ m :: post ∧ f none ≤ f (some m) ∧
      (∀ x ∈ pre, f (some x) ≤ f (some m)) ∧ ∀ x ∈ post, f (some x) < f (some m) := by
  induction l using List.reverseRecOn with
  | nil => exact .inl ⟨rfl, by simp⟩
  | append_singleton l x ih =>
    rw [chosen_concat]
    rcases ih with ⟨hn, hl⟩ | ⟨pre, m, post, hs, rfl, h0, h1, h2⟩
    · rw [hn]
      split
      · next hg =>
        refine .inl ⟨rfl, fun y hy => ?_⟩
        rcases List.mem_append.1 hy with hy | hy
        · exact hl y hy
        · rw [List.mem_singleton.1 hy]; exact (hf _ _).1 hg
      · next hg =>
        have hle : f none ≤ f (some x) := Nat.not_lt.1 fun h => hg ((hf _ _).2 h)
        refine .inr ⟨l, x, [], rfl, rfl, hle, fun y hy => ?_, by simp⟩
        have := hl y hy
        omega
    · rw [hs]
      right
      split
      · next hg =>
        refine ⟨pre, m, post ++ [x], rfl, by simp, h0, h1, fun y hy => ?_⟩
        rcases List.mem_append.1 hy with hy | hy
        · exact h2 y hy
        · rw [List.mem_singleton.1 hy]; exact (hf _ _).1 hg
      · next hg =>
        have hle : f (some m) ≤ f (some x) := Nat.not_lt.1 fun h => hg ((hf _ _).2 h)
        refine ⟨pre ++ m :: post, x, [], rfl, rfl, by omega, fun y hy => ?_, by simp⟩
        simp only [List.mem_append, List.mem_cons] at hy
        rcases hy with hy | rfl | hy
        · have := h1 y hy; omega
        · exact hle
        · have := h2 y hy; omega

theorem foldl_keeps {f : Option Mechanism → Nat} {prefer : Prefer}
    (hf : Spec.RankedBy f prefer) (m : Mechanism) (post : List Mechanism)
    (h : ∀ x ∈ post, f (some x) < f (some m)) :
    post.foldl (fun acc m => match prefer acc m with | .gt => acc | _ => some m) (some m) =
      some m := by
  induction post with
  | nil => rfl
  | cons x xs ih =>
    have hx := (hf (some m) x).2 (h x (by simp))
    rw [List.foldl_cons, hx]
    exact ih fun y hy => h y (by simp [hy])

/-- The last of the highest ranked ones is chosen. -/
theorem chosen_of_last {f : Option Mechanism → Nat} {prefer : Prefer}
    (hf : Spec.RankedBy f prefer) (pre : List Mechanism) (m : Mechanism) (post : List Mechanism)
    (h0 : f none ≤ f (some m)) (h1 : ∀ x ∈ pre, f (some x) ≤ f (some m))
    (h2 : ∀ x ∈ post, f (some x) < f (some m)) :
    chosen prefer (pre ++ m :: post) = some m := by
  have hpre : chosen prefer (pre ++ [m]) = some m := by
    rw [chosen_concat]
    have hle : f (chosen prefer pre) ≤ f (some m) := by
      rcases hc : chosen prefer pre with _ | y
      · exact h0
      · exact h1 y (chosen_mem hc)
    split
    · next hg => exact absurd ((hf _ _).1 hg) (by omega)
    · rfl
  have : pre ++ m :: post = (pre ++ [m]) ++ post := by simp
  rw [this]
  unfold chosen at hpre ⊢
  rw [List.foldl_append, hpre]
  exact foldl_keeps hf m post h2

/-! ## Usable mechanisms and offers -/

theorem usable_mono {cb : Bool} {offered offered' : List Bytes} {m : Mechanism}
    (hs : offered ⊆ offered') (h : Spec.Usable cb offered m) : Spec.Usable cb offered' m := by
  unfold Spec.Usable at h ⊢
  split at h
  · exact hs h
  · exact h.imp (fun h => hs h) (fun h => ⟨h.1, hs h.2⟩)
  · exact ⟨h.1, hs h.2⟩

theorem usable_named {cb : Bool} {offered offered' : List Bytes} {m : Mechanism}
    (h : Spec.Usable cb offered m) (hn : m.name ∈ offered') : Spec.Usable cb offered' m := by
  unfold Spec.Usable at h ⊢
  split at h
  · exact hn
  · exact .inl hn
  · exact ⟨h.1, hn⟩

/-- The same mechanism with another offer: the same implementation, except for what SCRAM is
told about the `-PLUS` variant. -/
theorem authFor_other {cb : Bool} {offered : List Bytes} (offered' : List Bytes) {m : Mechanism}
    (hk : Spec.Known m) {a : Auth} (h : Spec.authFor cb offered m = .ok a) :
    ∃ a', Spec.authFor cb offered' m = .ok a' ∧
      (a' ≠ a ↔ Spec.FlagChanges cb offered offered' m) := by
  rcases hk with hs | ⟨x, rfl⟩ | ⟨x, rfl⟩
  · refine ⟨a, ?_, ?_⟩
    · rw [← h]; simp only [Spec.authFor, hs]
    · constructor
      · intro h; exact absurd rfl h
      · rintro ⟨x, rfl, _⟩; cases hs
  · refine ⟨_, rfl, ?_⟩
    cases h
    constructor
    · intro hne
      refine ⟨x, rfl, ?_⟩
      cases cb with
      | false => exact absurd rfl hne
      | true =>
        refine ⟨rfl, fun hiff => hne ?_⟩
        simp [hiff]
    · rintro ⟨y, hy, rfl, hne⟩ heq
      have hxy : x = y := SelectKind.scram.inj (congrArg Mechanism.select hy)
      subst hxy
      apply hne
      simpa using heq.symm
  · refine ⟨a, h, ?_⟩
    constructor
    · intro h; exact absurd rfl h
    · rintro ⟨y, hy, _⟩
      have := congrArg Mechanism.select hy
      cases this

/-! ## C120 -/

/-- The full statement of C120 for a configuration: names taken out of the offer that are not
that of the chosen mechanism do not change which mechanism is chosen. -/
def C120 (c : Config) : Prop :=
  ∀ offered offered' a m, c.clientStart offered = .ok (a, m) → offered' ⊆ offered →
    m.name ∈ offered' → ∃ a', c.clientStart offered' = .ok (a', m)

/-- C120 for every preference that ranks mechanisms: it may be cut from the offer whatever is
not the name of the chosen mechanism. The client side is also started in the same way, except
exactly if a SCRAM mechanism was chosen with channel binding enabled and its `-PLUS` variant was
cut. Missing: preferences that are no ranking, see `C120_false`. -/
theorem C120_cut_partial (c : Config) (hk : c.Known) (f : Option Mechanism → Nat)
    (hf : Spec.RankedBy f c.prefer) (offered offered' : List Bytes) (a : Auth) (m : Mechanism)
    (h : c.clientStart offered = .ok (a, m)) (hs : offered' ⊆ offered)
    (hn : m.name ∈ offered') :
    ∃ a', c.clientStart offered' = .ok (a', m) ∧
      (a' ≠ a ↔ Spec.FlagChanges c.enableCb offered offered' m) := by
  obtain ⟨h1, h2, h3, h4⟩ := clientStart_ok hk h
  obtain ⟨a', ha', hd⟩ := authFor_other offered' (hk m h1) h4
  refine ⟨a', ?_, hd⟩
  have hu := usable_named h2 hn
  rcases chosen_ranked hf
      (c.mechs.filter (fun m => decide (Spec.Usable c.enableCb offered m)))
    with ⟨hn, _⟩ | ⟨pre, m', post, hc, hl, r0, r1, r2⟩
  · rw [hn] at h3; cases h3
  · rw [hc] at h3
    cases h3
    have hcut : c.mechs.filter (fun m => decide (Spec.Usable c.enableCb offered' m)) =
        (c.mechs.filter (fun m => decide (Spec.Usable c.enableCb offered m))).filter
          (fun m => decide (Spec.Usable c.enableCb offered' m)) := by
      rw [List.filter_filter]
      apply List.filter_congr
      intro x _
      by_cases hx : Spec.Usable c.enableCb offered' x
      · simp [hx, usable_mono hs hx]
      · simp [hx]
    rw [clientStart_eq c hk, hcut, hl, List.filter_append,
      List.filter_cons_of_pos (by simpa using hu),
      chosen_of_last hf _ m _ r0 (fun x hx => r1 x (List.mem_filter.1 hx).1)
        (fun x hx => r2 x (List.mem_filter.1 hx).1)]
    simp only [ha']

/-- The full statement of C120 fails: a preference may go round in circles. This one prefers
LOGIN to PLAIN, EXTERNAL to LOGIN and PLAIN to EXTERNAL; once LOGIN is cut, PLAIN is chosen
instead of EXTERNAL. -/
theorem C120_false : ¬ ∀ c : Config, c.Known → C120 c := by
  intro h
  let prefer : Prefer := fun held m =>
    match held with
    | none => .lt
    | some o => if o.priority = 300 ∧ m.priority = 100 then .gt else .lt
  have hk : Config.Known { mechs := [PLAIN, LOGIN, EXTERNAL], enableCb := false, prefer } := by
    intro m hm
    simp only [List.mem_cons, List.not_mem_nil, or_false] at hm
    rcases hm with rfl | rfl | rfl <;> exact .inl rfl
  obtain ⟨a', ha'⟩ := h _ hk [b!"PLAIN", b!"LOGIN", b!"EXTERNAL"] [b!"PLAIN", b!"EXTERNAL"]
    .external EXTERNAL rfl (by decide) (by decide)
  have hp : Config.clientStart { mechs := [PLAIN, LOGIN, EXTERNAL], enableCb := false, prefer }
      [b!"PLAIN", b!"EXTERNAL"] = .ok (.plain, PLAIN) := rfl
  rw [hp] at ha'
  injection ha' with ha'
  have hm : PLAIN.priority = EXTERNAL.priority := congrArg (fun p => p.2.priority) ha'
  exact absurd hm (by decide)

/-- C120, more is never worse: whatever else is offered, the mechanism chosen then ranks at least
as high. -/
theorem C120_more_partial (c : Config) (hk : c.Known) (hstart : c.AllStart)
    (f : Option Mechanism → Nat) (hf : Spec.RankedBy f c.prefer) (offered offered' : List Bytes)
    (a : Auth) (m : Mechanism) (h : c.clientStart offered = .ok (a, m))
    (hs : offered ⊆ offered') :
    ∃ a' m', c.clientStart offered' = .ok (a', m') ∧ f (some m) ≤ f (some m') := by
  obtain ⟨h1, h2, h3, h4⟩ := clientStart_ok hk h
  have hmem : m ∈ c.mechs.filter (fun m => decide (Spec.Usable c.enableCb offered' m)) := by
    rw [List.mem_filter, decide_eq_true_eq]
    exact ⟨h1, usable_mono hs h2⟩
  have h0 : f none ≤ f (some m) := by
    rcases chosen_ranked hf
        (c.mechs.filter (fun m => decide (Spec.Usable c.enableCb offered m)))
      with ⟨hn, _⟩ | ⟨_, m', _, hc, _, r0, _⟩
    · rw [hn] at h3; cases h3
    · rw [hc] at h3; cases h3; exact r0
  rcases chosen_ranked hf
      (c.mechs.filter (fun m => decide (Spec.Usable c.enableCb offered' m)))
    with ⟨_, hl⟩ | ⟨pre, m', post, hc, hl, r0, r1, r2⟩
  · exact absurd (hl m hmem) (by omega)
  · have hm' := (List.mem_filter.1 (chosen_mem hc)).1
    obtain ⟨a', ha'⟩ : ∃ a', Spec.authFor c.enableCb offered' m' = .ok a' := by
      obtain ⟨a', ha'⟩ := hstart m' hm'
      unfold Spec.authFor
      split
      · exact ⟨_, rfl⟩
      · rw [ha']; exact ⟨_, rfl⟩
    refine ⟨a', m', ?_, ?_⟩
    · rw [clientStart_eq c hk, hc]
      simp only [ha']
    · rw [hl] at hmem
      simp only [List.mem_append, List.mem_cons] at hmem
      rcases hmem with hm | rfl | hm
      · exact r1 m hm
      · exact Nat.le_refl _
      · exact Nat.le_of_lt (r2 m hm)

/-- C120, names nobody knows: with any preference, two offers that agree on the names some
registered mechanism could look at give the same result, whatever it is, in whatever order and
however often the names are offered. -/
theorem C120_unknown (c : Config) (hk : c.Known) (offered offered' : List Bytes)
    (h : ∀ n, Spec.Concerns c.mechs n → (n ∈ offered ↔ n ∈ offered')) :
    c.clientStart offered = c.clientStart offered' := by
  have hname : ∀ m ∈ c.mechs, (m.name ∈ offered ↔ m.name ∈ offered') :=
    fun m hm => h _ ⟨m, hm, .inl rfl⟩
  have hplus : ∀ m ∈ c.mechs, ∀ x, m.select = .scram x →
      (x.plusName ∈ offered ↔ x.plusName ∈ offered') := by
    intro m hm x hx
    rcases hk m hm with hs | ⟨y, rfl⟩ | ⟨y, rfl⟩
    · rw [hs] at hx; cases hx
    · cases hx; exact h _ ⟨_, hm, .inr ⟨_, rfl, rfl⟩⟩
    · cases hx
  have hfil : c.mechs.filter (fun m => decide (Spec.Usable c.enableCb offered m)) =
      c.mechs.filter (fun m => decide (Spec.Usable c.enableCb offered' m)) := by
    apply List.filter_congr
    intro m hm
    apply decide_eq_decide.2
    unfold Spec.Usable
    split
    · exact hname m hm
    · next x hx => rw [hname m hm, hplus m hm x hx]
    · rw [hname m hm]
  rw [clientStart_eq c hk, clientStart_eq c hk, hfil]
  split
  · rfl
  · next m hc =>
    have hm := (List.mem_filter.1 (chosen_mem hc)).1
    have : Spec.authFor c.enableCb offered m = Spec.authFor c.enableCb offered' m := by
      unfold Spec.authFor
      split
      · next x hx => simp only [hplus m hm x hx]
      · rfl
    rw [this]

/-- The default preference is a ranking, the one by priority. -/
theorem C120_default : Spec.RankedBy Spec.byPriority defaultPrefer := by
  intro held m
  cases held with
  | none =>
    constructor
    · intro h; cases h
    · intro h; exact absurd h (Nat.not_lt_zero _)
  | some o => exact Nat.compare_eq_gt

/-! ### Non-trivial cases -/

/-- The mechanisms registered by default, with channel binding. -/
def offersConfig : Config := { mechs := builtinMechs, enableCb := true, prefer := defaultPrefer }

theorem offersConfig_known : offersConfig.Known := by
  intro m hm
  simp only [offersConfig, builtinMechs, List.mem_cons, List.not_mem_nil, or_false] at hm
  rcases hm with rfl | rfl | rfl | rfl | rfl | rfl | rfl | rfl | rfl
  · exact .inr (.inl ⟨_, rfl⟩)
  · exact .inr (.inl ⟨_, rfl⟩)
  · exact .inr (.inl ⟨_, rfl⟩)
  all_goals exact .inl rfl

/-- Cutting PLAIN changes nothing. -/
example : ∃ a', offersConfig.clientStart [b!"SCRAM-SHA-256"] = .ok (a', SCRAM .sha256) ∧
    (a' ≠ .scramClient .sha256 false ↔
      Spec.FlagChanges true [b!"PLAIN", b!"SCRAM-SHA-256"] [b!"SCRAM-SHA-256"] (SCRAM .sha256)) :=
  C120_cut_partial offersConfig offersConfig_known _ C120_default [b!"PLAIN", b!"SCRAM-SHA-256"]
    [b!"SCRAM-SHA-256"] (.scramClient .sha256 false) (SCRAM .sha256) rfl (by decide) (by decide)

/-- Cutting the `-PLUS` variant is seen by the client. -/
example : offersConfig.clientStart [b!"SCRAM-SHA-256", b!"SCRAM-SHA-256-PLUS"] =
      .ok (.scramClient .sha256 true, SCRAM .sha256) ∧
    offersConfig.clientStart [b!"SCRAM-SHA-256"] =
      .ok (.scramClient .sha256 false, SCRAM .sha256) ∧
    Spec.FlagChanges true [b!"SCRAM-SHA-256", b!"SCRAM-SHA-256-PLUS"] [b!"SCRAM-SHA-256"]
      (SCRAM .sha256) :=
  ⟨rfl, rfl, .sha256, rfl, rfl, by decide⟩

/-- With SCRAM offered besides PLAIN, something at least as good as PLAIN is chosen. -/
example : ∃ a' m', offersConfig.clientStart [b!"SCRAM-SHA-1", b!"PLAIN"] = .ok (a', m') ∧
    Spec.byPriority (some PLAIN) ≤ Spec.byPriority (some m') :=
  C120_more_partial offersConfig offersConfig_known
    (by
      intro m hm
      simp only [offersConfig, builtinMechs, List.mem_cons, List.not_mem_nil, or_false] at hm
      rcases hm with rfl | rfl | rfl | rfl | rfl | rfl | rfl | rfl | rfl <;> exact ⟨_, rfl⟩)
    _ C120_default [b!"PLAIN"] [b!"SCRAM-SHA-1", b!"PLAIN"] .plain PLAIN rfl (by decide)

/-- A name the client does not know, and another order. -/
example : offersConfig.clientStart [b!"NTLM", b!"PLAIN", b!"LOGIN"] =
    offersConfig.clientStart [b!"LOGIN", b!"PLAIN"] :=
  C120_unknown offersConfig offersConfig_known _ _ (by
    intro n hn
    have : n ≠ b!"NTLM" := by
      rintro rfl
      obtain ⟨m, hm, hx⟩ := hn
      simp only [offersConfig, builtinMechs, List.mem_cons, List.not_mem_nil, or_false] at hm
      rcases hx with hx | ⟨x, rfl, hx⟩
      · rcases hm with rfl | rfl | rfl | rfl | rfl | rfl | rfl | rfl | rfl <;>
          exact absurd hx (by decide)
      · cases x <;> exact absurd hx (by decide)
    simp only [List.mem_cons, List.not_mem_nil, or_false, this, false_or]
    exact Or.comm)

end Rsasl

/-
C124: a mechanism that the preference rejects might as well not be registered.
-/
import Verif.Props.Selection

namespace Rsasl

/-- Mechanisms that are rejected whatever is held drop out of the fold. -/
theorem chosen_rejected {prefer : Prefer} {keep : Mechanism → Bool}
    (h : ∀ m, keep m = false → ∀ held, prefer held m = .gt) (l : List Mechanism) :
    chosen prefer l = chosen prefer (l.filter keep) := by
  induction l using List.reverseRecOn with
  | nil => rfl
  | append_singleton l x ih =>
    rw [chosen_concat, List.filter_append]
    cases hx : keep x with
    | false => rw [h x hx, List.filter_cons_of_neg (by simp [hx]), List.filter_nil,
        List.append_nil, ih]
    | true => rw [List.filter_cons_of_pos hx, List.filter_nil, chosen_concat, ih]

/-! ## C124 -/

/-- C124: "If `b` is not acceptable and should not be used, an implementation MUST return
`Ordering::Greater`" (src/callback.rs:104-105). With mechanisms that the preference so rejects, a client starts, or fails,
as if they were not registered, whatever the preference says of the others. -/
theorem C124 (c : Config) (hk : c.Known) (keep : Mechanism → Bool)
    (h : ∀ m, keep m = false → ∀ held, c.prefer held m = .gt) (offered : List Bytes) :
    c.clientStart offered =
      ({ c with mechs := c.mechs.filter keep } : Config).clientStart offered := by
  have hk' : Config.Known { c with mechs := c.mechs.filter keep } :=
    fun m hm => hk m (List.mem_filter.1 hm).1
  have hcomm : (c.mechs.filter (fun m => decide (Spec.Usable c.enableCb offered m))).filter keep =
      (c.mechs.filter keep).filter (fun m => decide (Spec.Usable c.enableCb offered m)) := by
    rw [List.filter_filter, List.filter_filter]
    apply List.filter_congr
    intro x _
    exact Bool.and_comm _ _
  rw [clientStart_eq c hk, clientStart_eq _ hk', chosen_rejected h, hcomm]

/-- C124: so such a mechanism is never started, whatever is offered. -/
theorem C124_never (c : Config) (hk : c.Known) (keep : Mechanism → Bool)
    (h : ∀ m, keep m = false → ∀ held, c.prefer held m = .gt) (offered : List Bytes) (a : Auth)
    (m : Mechanism) (hs : c.clientStart offered = .ok (a, m)) : keep m = true := by
  rw [C124 c hk keep h] at hs
  have hk' : Config.Known { c with mechs := c.mechs.filter keep } :=
    fun m hm => hk m (List.mem_filter.1 hm).1
  exact (List.mem_filter.1 (clientStart_ok hk' hs).1).2

/-- C124: and if a mechanism that is never rejected can be used, the client does start something. -/
theorem C124_accepted (c : Config) (hk : c.Known) (hstart : c.AllStart) (m : Mechanism)
    (hm : m ∈ c.mechs) (offered : List Bytes) (hu : Spec.Usable c.enableCb offered m)
    (h : ∀ held, c.prefer held m ≠ .gt) : ∃ a m', c.clientStart offered = .ok (a, m') := by
  have hmem : m ∈ c.mechs.filter (fun m => decide (Spec.Usable c.enableCb offered m)) := by
    rw [List.mem_filter, decide_eq_true_eq]
    exact ⟨hm, hu⟩
  have hsome : ∀ l : List Mechanism, m ∈ l → ∃ m', chosen c.prefer l = some m' := by
    intro l
    induction l using List.reverseRecOn with
    | nil => nofun
    | append_singleton l x ih =>
      intro hl
      rw [chosen_concat]
      split
      · next hg =>
        rcases List.mem_append.1 hl with hl | hl
        · exact ih hl
        · rw [← List.mem_singleton.1 hl] at hg
          exact absurd hg (h _)
      · exact ⟨x, rfl⟩
  obtain ⟨m', hc⟩ := hsome _ hmem
  obtain ⟨a', ha'⟩ : ∃ a', Spec.authFor c.enableCb offered m' = .ok a' := by
    obtain ⟨a', ha'⟩ := hstart m' (List.mem_filter.1 (chosen_mem hc)).1
    unfold Spec.authFor
    split
    · exact ⟨_, rfl⟩
    · rw [ha']; exact ⟨_, rfl⟩
  refine ⟨a', m', ?_⟩
  rw [clientStart_eq c hk, hc]
  simp only [ha']

/-! ### Non-trivial cases -/

/-- Takes the last mechanism with a priority above 300, the one of PLAIN. -/
def noPasswords : Prefer := fun _ m => if m.priority ≤ 300 then .gt else .lt

theorem vetoConfig_known : Config.Known ⟨[PLAIN, SCRAM .sha1, LOGIN], false, noPasswords⟩ := by
  intro m hm
  simp only [List.mem_cons, List.not_mem_nil, or_false] at hm
  rcases hm with rfl | rfl | rfl
  · exact .inl rfl
  · exact .inr (.inl ⟨_, rfl⟩)
  · exact .inl rfl

theorem noPasswords_rejects (m : Mechanism) (h : decide (300 < m.priority) = false)
    (held : Option Mechanism) : noPasswords held m = .gt := by
  have : m.priority ≤ 300 := by simpa using h
  simp [noPasswords, this]

example (offered : List Bytes) :
    (⟨[PLAIN, SCRAM .sha1, LOGIN], false, noPasswords⟩ : Config).clientStart offered =
      (⟨[SCRAM .sha1], false, noPasswords⟩ : Config).clientStart offered :=
  C124 ⟨[PLAIN, SCRAM .sha1, LOGIN], false, noPasswords⟩ vetoConfig_known
    (fun m => decide (300 < m.priority)) noPasswords_rejects offered

/-- Nothing is started with a server that only has PLAIN and LOGIN. -/
example : (⟨[PLAIN, SCRAM .sha1, LOGIN], false, noPasswords⟩ : Config).clientStart
    [b!"PLAIN", b!"LOGIN"] = .err .noSharedMechanism := rfl

example : ∃ a m', (⟨[PLAIN, SCRAM .sha1, LOGIN], false, noPasswords⟩ : Config).clientStart
    [b!"PLAIN", b!"SCRAM-SHA-1"] = .ok (a, m') :=
  C124_accepted ⟨[PLAIN, SCRAM .sha1, LOGIN], false, noPasswords⟩ vetoConfig_known
    (by intro m hm
        simp only [List.mem_cons, List.not_mem_nil, or_false] at hm
        rcases hm with rfl | rfl | rfl <;> exact ⟨_, rfl⟩)
    (SCRAM .sha1) (by simp) _ (by decide) (by intro held; exact nofun)

end Rsasl

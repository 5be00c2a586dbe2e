/-
C122: how what is started depends on what else is registered.
-/
import Verif.Props.Offers
import Verif.Props.Negotiation

namespace Rsasl

open Spec

/-- What is chosen among `l` ranks as high as anything in it, and at least as high as nothing. -/
theorem chosen_best {f : Option Mechanism → Nat} {prefer : Prefer} (hf : RankedBy f prefer)
    {l : List Mechanism} {m : Mechanism} (h : chosen prefer l = some m) :
    f none ≤ f (some m) ∧ ∀ x ∈ l, f (some x) ≤ f (some m) := by
  rcases chosen_ranked hf l with ⟨hn, _⟩ | ⟨pre, m', post, hs, rfl, h0, h1, h2⟩
  · rw [hn] at h; cases h
  · rw [hs] at h
    cases h
    refine ⟨h0, fun x hx => ?_⟩
    rcases List.mem_append.1 hx with hx | hx
    · exact h1 x hx
    · rcases List.mem_cons.1 hx with rfl | hx
      · exact Nat.le_refl _
      · exact Nat.le_of_lt (h2 x hx)

/-- Something is chosen among `l` if something in it ranks at least as high as nothing. -/
theorem chosen_some {f : Option Mechanism → Nat} {prefer : Prefer} (hf : RankedBy f prefer)
    {l : List Mechanism} {x : Mechanism} (hx : x ∈ l) (h : f none ≤ f (some x)) :
    ∃ m, chosen prefer l = some m := by
  rcases chosen_ranked hf l with ⟨_, hl⟩ | ⟨_, m, _, hs, _⟩
  · exact absurd (hl x hx) (by omega)
  · exact ⟨m, hs⟩

/-! ## C122 -/

/-- C122, more is never worse: a client with more mechanisms, or with the same ones in another
order, starts one that ranks at least as high. -/
theorem C122_more (c c' : Config) (hk : c'.Known) (hstart : c'.AllStart)
    (f : Option Mechanism → Nat) (hf : RankedBy f c.prefer) (hp : c'.prefer = c.prefer)
    (hcb : c'.enableCb = c.enableCb) (hsub : c.mechs ⊆ c'.mechs) (offered : List Bytes)
    (a : Auth) (m : Mechanism) (h : c.clientStart offered = .ok (a, m)) :
    ∃ a' m', c'.clientStart offered = .ok (a', m') ∧ f (some m) ≤ f (some m') := by
  have hkc : c.Known := fun m hm => hk m (hsub hm)
  obtain ⟨h1, h2, h3, -⟩ := clientStart_ok hkc h
  have hmem : m ∈ c'.mechs.filter (fun m => decide (Usable c'.enableCb offered m)) := by
    rw [List.mem_filter, decide_eq_true_eq, hcb]
    exact ⟨hsub h1, h2⟩
  have hf' : RankedBy f c'.prefer := by rw [hp]; exact hf
  obtain ⟨m', hc⟩ := chosen_some hf' hmem (chosen_best hf h3).1
  have hm' := (List.mem_filter.1 (chosen_mem hc)).1
  obtain ⟨a', ha'⟩ : ∃ a', authFor c'.enableCb offered m' = .ok a' := by
    obtain ⟨a', ha'⟩ := hstart m' hm'
    unfold authFor
    split
    · exact ⟨_, rfl⟩
    · rw [ha']; exact ⟨_, rfl⟩
  refine ⟨a', m', ?_, (chosen_best hf' hc).2 m hmem⟩
  rw [clientStart_eq c' hk, hc]
  simp only [ha']

/-- C122, order and repetitions: two clients with the same mechanisms, in whatever order and
however often, start mechanisms of the same rank, and in the same way the same one if no two
different ones of that rank can be used. -/
theorem C122_order (c c' : Config) (hk : c.Known) (hstart : c.AllStart)
    (f : Option Mechanism → Nat) (hf : RankedBy f c.prefer) (hp : c'.prefer = c.prefer)
    (hcb : c'.enableCb = c.enableCb) (hsame : ∀ m, m ∈ c.mechs ↔ m ∈ c'.mechs)
    (offered : List Bytes) (a : Auth) (m : Mechanism) (h : c.clientStart offered = .ok (a, m)) :
    ∃ a' m', c'.clientStart offered = .ok (a', m') ∧ f (some m') = f (some m) ∧
      ((∀ x ∈ c.mechs, Usable c.enableCb offered x → f (some x) = f (some m) → x = m) →
        a' = a ∧ m' = m) := by
  have hk' : c'.Known := fun m hm => hk m ((hsame m).2 hm)
  have hstart' : c'.AllStart := fun m hm => hstart m ((hsame m).2 hm)
  have hf' : RankedBy f c'.prefer := by rw [hp]; exact hf
  obtain ⟨a', m', h', hle⟩ := C122_more c c' hk' hstart' f hf hp hcb (fun m hm => (hsame m).1 hm)
    offered a m h
  obtain ⟨a'', m'', h'', hle'⟩ := C122_more c' c hk hstart f hf' hp.symm hcb.symm
    (fun m hm => (hsame m).2 hm) offered a' m' h'
  rw [h] at h''
  cases h''
  have heq : f (some m') = f (some m) := by omega
  refine ⟨a', m', h', heq, fun hu => ?_⟩
  obtain ⟨h1, h2, -, h4⟩ := clientStart_ok hk' h'
  have hm : m' = m := hu m' ((hsame m').2 h1) (by rw [← hcb]; exact h2) heq
  subst hm
  obtain ⟨-, -, -, h4'⟩ := clientStart_ok hk h
  rw [hcb, h4'] at h4
  cases h4
  exact ⟨rfl, rfl⟩

/-- C122, mechanisms not used: taking away any but the one that is started changes nothing. -/
theorem C122_unused (c : Config) (hk : c.Known) (f : Option Mechanism → Nat)
    (hf : RankedBy f c.prefer) (offered : List Bytes) (a : Auth) (m : Mechanism)
    (h : c.clientStart offered = .ok (a, m)) (keep : Mechanism → Bool) (hm : keep m = true) :
    ({ c with mechs := c.mechs.filter keep } : Config).clientStart offered = .ok (a, m) := by
  obtain ⟨h1, h2, h3, h4⟩ := clientStart_ok hk h
  have hk' : Config.Known { c with mechs := c.mechs.filter keep } :=
    fun m hm => hk m (List.mem_filter.1 hm).1
  rcases chosen_ranked hf (c.mechs.filter (fun m => decide (Usable c.enableCb offered m)))
    with ⟨hn, _⟩ | ⟨pre, m', post, hc, hl, r0, r1, r2⟩
  · rw [hn] at h3; cases h3
  · rw [hc] at h3
    cases h3
    have hcut : (c.mechs.filter keep).filter (fun m => decide (Usable c.enableCb offered m)) =
        (c.mechs.filter (fun m => decide (Usable c.enableCb offered m))).filter keep := by
      rw [List.filter_filter, List.filter_filter]
      apply List.filter_congr
      intro x _
      exact Bool.and_comm _ _
    rw [clientStart_eq _ hk']
    dsimp only
    rw [hcut, hl, List.filter_append, List.filter_cons_of_pos hm,
      chosen_of_last hf _ m _ r0 (fun x hx => r1 x (List.mem_filter.1 hx).1)
        (fun x hx => r2 x (List.mem_filter.1 hx).1)]
    simp only [h4]

/-- C122, servers: over the mechanisms of the crate, what a server starts for a name depends on
nothing but whether it has the mechanism of that name, and for SCRAM whether it has the `-PLUS`
variant as well. -/
theorem C122_server (sc sc' : Config) (hs : ∀ m ∈ sc.mechs, m ∈ shipped)
    (hs' : ∀ m ∈ sc'.mechs, m ∈ shipped) (m : Mechanism) (hm : m ∈ shipped)
    (hsame : m ∈ sc.mechs ↔ m ∈ sc'.mechs)
    (hplus : ∀ x, m = SCRAM x → (SCRAMPLUS x ∈ sc.mechs ↔ SCRAMPLUS x ∈ sc'.mechs)) :
    sc.serverStart m.name = sc'.serverStart m.name := by
  have hno : ∀ c : Config, (∀ m ∈ c.mechs, m ∈ shipped) → m ∉ c.mechs →
      c.serverStart m.name = .err .noSharedMechanism := by
    intro c hc hn
    rw [C05_no_shared]
    · intro m' hm' he
      rw [shipped_name (hc m' hm') hm he] at hm'
      exact absurd hm' hn
    · intro m' hm' start hst
      obtain ⟨f, hf, hf'⟩ := shipped_server (hc m' hm')
      rw [hst] at hf
      cases hf
      exact hf' _
  by_cases hin : m ∈ sc.mechs
  · obtain ⟨g, hg, hg'⟩ := shipped_server hm
    obtain ⟨b, hb⟩ := hg' (sc.mechs.map (·.name))
    obtain ⟨b', hb'⟩ := hg' (sc'.mechs.map (·.name))
    rw [serverStart_shipped hs hin hg hb, serverStart_shipped hs' (hsame.1 hin) hg hb']
    have hscram : ∀ x, m = SCRAM x → b = b' := by
      rintro x rfl
      cases hg
      cases hb
      cases hb'
      have : (sc.mechs.map (·.name)).any (· == x.plusName) =
          (sc'.mechs.map (·.name)).any (· == x.plusName) := by
        rw [Bool.eq_iff_iff, canCb_iff hs, canCb_iff hs']
        exact hplus x rfl
      rw [this]
    have hbb : b = b' := by
      simp only [shipped, List.mem_cons, List.not_mem_nil, or_false] at hm
      rcases hm with rfl | rfl | rfl | rfl | rfl | rfl | rfl | rfl | rfl | rfl | rfl | rfl | rfl
      case inr.inr.inr.inr.inr.inr.inr.inl => exact hscram _ rfl
      case inr.inr.inr.inr.inr.inr.inr.inr.inl => exact hscram _ rfl
      case inr.inr.inr.inr.inr.inr.inr.inr.inr.inl => exact hscram _ rfl
      all_goals
        cases hg
        cases hb
        cases hb'
        rfl
    rw [hbb]
  · rw [hno sc hs hin, hno sc' hs' fun h => hin (hsame.2 h)]

/-- C122, ties: where two mechanisms have the same rank the order does matter. -/
theorem C122_tie :
    (⟨[SCRAM .sha512, SCRAM .sha256], false, defaultPrefer⟩ : Config).clientStart
        [b!"SCRAM-SHA-256", b!"SCRAM-SHA-512"] = .ok (.scramClient .sha256 true, SCRAM .sha256) ∧
    (⟨[SCRAM .sha256, SCRAM .sha512], false, defaultPrefer⟩ : Config).clientStart
        [b!"SCRAM-SHA-256", b!"SCRAM-SHA-512"] = .ok (.scramClient .sha512 true, SCRAM .sha512) :=
  ⟨rfl, rfl⟩

/-! ### Non-trivial cases -/

/-- LOGIN and PLAIN, in the other order. -/
example : ∃ a' m', (⟨[LOGIN, PLAIN], false, defaultPrefer⟩ : Config).clientStart
      [b!"LOGIN", b!"PLAIN"] = .ok (a', m') ∧ byPriority (some m') = byPriority (some PLAIN) ∧
      ((∀ x ∈ [PLAIN, LOGIN], Usable false [b!"LOGIN", b!"PLAIN"] x →
        byPriority (some x) = byPriority (some PLAIN) → x = PLAIN) → a' = .plain ∧ m' = PLAIN) :=
  C122_order ⟨[PLAIN, LOGIN], false, defaultPrefer⟩ ⟨[LOGIN, PLAIN], false, defaultPrefer⟩
    (by intro m hm
        simp only [List.mem_cons, List.not_mem_nil, or_false] at hm
        rcases hm with rfl | rfl <;> exact .inl rfl)
    (by intro m hm
        simp only [List.mem_cons, List.not_mem_nil, or_false] at hm
        rcases hm with rfl | rfl <;> exact ⟨_, rfl⟩)
    _ C120_default rfl rfl (by intro m; simp only [List.mem_cons, List.not_mem_nil, or_false]; exact Or.comm)
    _ .plain PLAIN rfl

/-- And there is no tie. -/
example : ∀ x ∈ [PLAIN, LOGIN], Usable false [b!"LOGIN", b!"PLAIN"] x →
    byPriority (some x) = byPriority (some PLAIN) → x = PLAIN := by
  intro x hx _ hp
  simp only [List.mem_cons, List.not_mem_nil, or_false] at hx
  rcases hx with rfl | rfl
  · rfl
  · exact absurd hp (by decide)

/-- Without LOGIN. -/
example : (⟨[PLAIN, LOGIN].filter (fun m => m.priority == 300), false, defaultPrefer⟩ : Config).clientStart
    [b!"LOGIN", b!"PLAIN"] = .ok (.plain, PLAIN) :=
  C122_unused ⟨[PLAIN, LOGIN], false, defaultPrefer⟩
    (by intro m hm
        simp only [List.mem_cons, List.not_mem_nil, or_false] at hm
        rcases hm with rfl | rfl <;> exact .inl rfl)
    _ C120_default _ .plain PLAIN rfl (fun m => m.priority == 300) rfl

/-- A server that also has PLAIN. -/
example : (⟨[SCRAM .sha1], false, defaultPrefer⟩ : Config).serverStart (b!"SCRAM-SHA-1") =
    (⟨[PLAIN, SCRAM .sha1], false, defaultPrefer⟩ : Config).serverStart (b!"SCRAM-SHA-1") :=
  C122_server ⟨[SCRAM .sha1], false, defaultPrefer⟩ ⟨[PLAIN, SCRAM .sha1], false, defaultPrefer⟩
    (by intro m hm; rw [List.mem_singleton.1 hm]; exact scram_shipped _)
    (by intro m hm
        simp only [List.mem_cons, List.not_mem_nil, or_false] at hm
        rcases hm with rfl | rfl
        · simp [shipped]
        · exact scram_shipped _)
    (SCRAM .sha1) (scram_shipped _) (by simp) (by
      intro x _
      constructor
      · intro h
        have := congrArg Mechanism.select (List.mem_singleton.1 h)
        cases this
      · intro h
        rcases List.mem_cons.1 h with h | h
        · have := congrArg Mechanism.select h
          cases this
        · have := congrArg Mechanism.select (List.mem_singleton.1 h)
          cases this)

end Rsasl

/-
Lemmas on mechanism selection.
-/
import Mathlib.Data.List.Induction
import Verif.Spec.Selection

namespace Rsasl

/-- All offers run over one selection. -/
def runOffers (offered : List Bytes) (s : Selection) : Selection :=
  offered.foldl (fun s o => s.select o) s

theorem offerAll_eq (offered : List Bytes) (sels : List Selection) :
    offerAll offered sels = sels.map (runOffers offered) := by
  unfold offerAll
  induction offered generalizing sels with
  | nil => simp [show runOffers [] = id from rfl]
  | cons o os ih =>
    rw [List.foldl_cons, ih, List.map_map]
    rfl

theorem runOffers_done (offered : List Bytes) (m : Mechanism) :
    runOffers offered (.done m) = .done m := by
  induction offered with
  | nil => rfl
  | cons o os ih => exact ih

theorem runOffers_matches (offered : List Bytes) (m : Mechanism) :
    runOffers offered (.nothing (.matches m)) =
      if m.name ∈ offered then .done m else .nothing (.matches m) := by
  induction offered with
  | nil => rfl
  | cons o os ih =>
    rw [runOffers, List.foldl_cons]
    by_cases h : o = m.name
    · subst h
      simp only [Selection.select, Selector.select, if_true]
      rw [if_pos (List.mem_cons_self ..)]
      exact runOffers_done os m
    · simp only [Selection.select, Selector.select, if_neg h]
      refine Eq.trans ih ?_
      simp [Ne.symm h]

theorem scramName_ne_plusName (h : Hash) : h.scramName ≠ h.plusName := by
  cases h <;> decide

/-- State of a SCRAM selector after an offer list. -/
def selAfter (h : Hash) (offered : List Bytes) (s : SelState) : SelState :=
  if s = .plus ∨ h.plusName ∈ offered then .plus
  else if s = .bare ∨ h.scramName ∈ offered then .bare
  else .no

theorem runOffers_scram (offered : List Bytes) (h : Hash) (s : SelState) :
    runOffers offered (.nothing (.scram h s)) = .nothing (.scram h (selAfter h offered s)) := by
  induction offered generalizing s with
  | nil => cases s <;> rfl
  | cons o os ih =>
    rw [runOffers, List.foldl_cons]
    have hne := scramName_ne_plusName h
    by_cases h1 : o = (SCRAM h).name
    · simp only [Selection.select, Selector.select, if_pos h1]
      have : o = h.scramName := h1
      subst this
      refine (ih _).trans ?_
      congr 2
      cases s <;> simp [selAfter, Ne.symm hne]
    · by_cases h2 : o = (SCRAMPLUS h).name
      · simp only [Selection.select, Selector.select, if_neg h1, if_pos h2]
        have : o = h.plusName := h2
        subst this
        refine (ih _).trans ?_
        congr 2
        simp [selAfter]
      · simp only [Selection.select, Selector.select, if_neg h1, if_neg h2]
        refine (ih _).trans ?_
        have h1' : h.scramName ≠ o := fun e => h1 e.symm
        have h2' : h.plusName ≠ o := fun e => h2 e.symm
        congr 2
        simp [selAfter, h1', h2']

/-- The candidate a registered mechanism contributes. -/
def candidate (cb : Bool) (offered : List Bytes) (m : Mechanism) : Option (Selection × Mechanism) :=
  ((m.selection cb).map (runOffers offered)).bind (fun s => s.doneMech.map (fun m => (s, m)))

theorem candidates_eq (cb : Bool) (offered : List Bytes) (mechs : List Mechanism) :
    candidates (offerAll offered (mechs.filterMap (fun m => m.selection cb))) =
      mechs.filterMap (candidate cb offered) := by
  rw [offerAll_eq, candidates, List.map_filterMap, List.filterMap_filterMap]
  rfl

theorem candidate_usable {cb : Bool} {offered : List Bytes} {m : Mechanism} (hk : Spec.Known m)
    (hu : Spec.Usable cb offered m) :
    ∃ s, candidate cb offered m = some (s, m) ∧ s.finalize = Spec.authFor cb offered m := by
  rcases hk with hk | ⟨h, rfl⟩ | ⟨h, rfl⟩
  · simp only [Spec.Usable, hk] at hu
    refine ⟨.done m, ?_, ?_⟩
    · simp [candidate, Mechanism.selection, hk, runOffers_matches, hu, Selection.doneMech]
    · simp only [Selection.finalize, Spec.authFor, hk]
      rcases m.client with _ | (e | a) <;> rfl
  · change h.scramName ∈ offered ∨ (cb = true ∧ h.plusName ∈ offered) at hu
    cases cb with
    | false =>
      have hu : (SCRAM h).name ∈ offered := by simpa [SCRAM] using hu
      refine ⟨.done (SCRAM h), ?_, ?_⟩
      · simp only [candidate, Mechanism.selection, SCRAM, Option.map_some, Option.bind_some]
        have := runOffers_matches offered (SCRAM h)
        rw [if_pos hu] at this
        simp only [SCRAM] at this
        simp [this, Selection.doneMech]
      · simp [Selection.finalize, Spec.authFor, SCRAM, unwrapStart]
    | true =>
      refine ⟨.nothing (.scram h (selAfter h offered .no)), ?_, ?_⟩
      · simp only [candidate, Mechanism.selection, SCRAM, if_true, Option.map_some,
          Option.bind_some, runOffers_scram]
        simp only [selAfter]
        rcases hu with hu | ⟨_, hu⟩
        · by_cases hp : h.plusName ∈ offered <;>
            simp [hu, hp, Selection.doneMech, Selector.done, SCRAM]
        · simp [hu, Selection.doneMech, Selector.done, SCRAM]
      · simp only [Selection.finalize, Spec.authFor, SCRAM, selAfter]
        by_cases hp : h.plusName ∈ offered
        · simp [hp, Selector.finalize]
        · have : h.scramName ∈ offered := by
            rcases hu with hu | hu
            · exact hu
            · exact absurd hu.2 hp
          simp [hp, this, Selector.finalize]
  · change cb = true ∧ (SCRAMPLUS h).name ∈ offered at hu
    obtain ⟨rfl, hu⟩ := hu
    refine ⟨.done (SCRAMPLUS h), ?_, ?_⟩
    · have := runOffers_matches offered (SCRAMPLUS h)
      rw [if_pos hu] at this
      simp only [SCRAMPLUS] at this
      simp [candidate, Mechanism.selection, SCRAMPLUS, this, Selection.doneMech]
    · simp [Selection.finalize, Spec.authFor, SCRAMPLUS, unwrapStart]

theorem candidate_unusable {cb : Bool} {offered : List Bytes} {m : Mechanism} (hk : Spec.Known m)
    (hu : ¬ Spec.Usable cb offered m) : candidate cb offered m = none := by
  rcases hk with hk | ⟨h, rfl⟩ | ⟨h, rfl⟩
  · simp only [Spec.Usable, hk] at hu
    simp [candidate, Mechanism.selection, hk, runOffers_matches, hu, Selection.doneMech,
      Selector.done]
  · change ¬(h.scramName ∈ offered ∨ (cb = true ∧ h.plusName ∈ offered)) at hu
    cases cb with
    | false =>
      have hu : (SCRAM h).name ∉ offered := by simpa [SCRAM] using hu
      have := runOffers_matches offered (SCRAM h)
      rw [if_neg hu] at this
      simp only [SCRAM] at this
      simp [candidate, Mechanism.selection, SCRAM, this, Selection.doneMech, Selector.done]
    | true =>
      simp only [not_or, true_and] at hu
      simp [candidate, Mechanism.selection, SCRAM, runOffers_scram, selAfter, hu.1, hu.2,
        Selection.doneMech, Selector.done]
  · change ¬(cb = true ∧ (SCRAMPLUS h).name ∈ offered) at hu
    cases cb with
    | false => simp [candidate, Mechanism.selection, SCRAMPLUS]
    | true =>
      have hu : (SCRAMPLUS h).name ∉ offered := by simpa using hu
      have := runOffers_matches offered (SCRAMPLUS h)
      rw [if_neg hu] at this
      simp only [SCRAMPLUS] at this
      simp [candidate, Mechanism.selection, SCRAMPLUS, this, Selection.doneMech, Selector.done]

/-- The list the fold runs over: the usable mechanisms in registry order, each with a selector
that finalizes to the right implementation. -/
theorem candidates_spec (cb : Bool) (offered : List Bytes) (mechs : List Mechanism)
    (hk : ∀ m ∈ mechs, Spec.Known m) :
    ∃ l : List (Selection × Mechanism),
      candidates (offerAll offered (mechs.filterMap (fun m => m.selection cb))) = l ∧
      l.map (·.2) = mechs.filter (fun m => decide (Spec.Usable cb offered m)) ∧
      ∀ sm ∈ l, sm.1.finalize = Spec.authFor cb offered sm.2 := by
  rw [candidates_eq]
  refine ⟨_, rfl, ?_⟩
  induction mechs with
  | nil => simp
  | cons m ms ih =>
    obtain ⟨ih1, ih2⟩ := ih (fun x hx => hk x (List.mem_cons_of_mem _ hx))
    by_cases hu : Spec.Usable cb offered m
    · obtain ⟨s, hs, hf⟩ := candidate_usable (hk m (List.mem_cons_self ..)) hu
      rw [List.filterMap_cons_some hs, List.filter_cons_of_pos (by simpa using hu)]
      refine ⟨by simp [ih1], ?_⟩
      intro sm hsm
      rcases List.mem_cons.1 hsm with rfl | hsm
      · exact hf
      · exact ih2 sm hsm
    · rw [List.filterMap_cons_none (candidate_unusable (hk m (List.mem_cons_self ..)) hu),
        List.filter_cons_of_neg (by simpa using hu)]
      exact ⟨ih1, ih2⟩

/-! ## The fold -/

/-- Result of the fold in terms of mechanisms only. -/
def chosen (prefer : Prefer) (l : List Mechanism) : Option Mechanism :=
  l.foldl (fun acc m => match prefer acc m with | .gt => acc | _ => some m) none

theorem fold_chosen (prefer : Prefer) (l : List (Selection × Mechanism)) :
    (l.foldl (foldStep prefer) none).map (·.2) = chosen prefer (l.map (·.2)) ∧
      ∀ sm, l.foldl (foldStep prefer) none = some sm → sm ∈ l := by
  suffices H : ∀ (l : List (Selection × Mechanism)) (acc : Option (Selection × Mechanism)),
      (l.foldl (foldStep prefer) acc).map (·.2) =
        (l.map (·.2)).foldl (fun acc m => match prefer acc m with | .gt => acc | _ => some m)
          (acc.map (·.2)) ∧
      ∀ sm, l.foldl (foldStep prefer) acc = some sm → sm ∈ l ∨ acc = some sm by
    obtain ⟨h1, h2⟩ := H l none
    exact ⟨h1, fun sm h => (h2 sm h).elim id (fun h => by cases h)⟩
  intro l
  induction l with
  | nil => intro acc; exact ⟨rfl, fun sm h => .inr h⟩
  | cons x xs ih =>
    intro acc
    obtain ⟨h1, h2⟩ := ih (foldStep prefer acc x)
    refine ⟨?_, ?_⟩
    · rw [List.foldl_cons, h1, List.map_cons, List.foldl_cons]
      congr 1
      unfold foldStep
      cases hp : prefer (acc.map (·.2)) x.2 <;> rfl
    · intro sm h
      rcases h2 sm h with h | h
      · exact .inl (List.mem_cons_of_mem _ h)
      · unfold foldStep at h
        cases hp : prefer (acc.map (·.2)) x.2 <;> simp only [hp] at h
        · cases h; exact .inl (List.mem_cons_self ..)
        · cases h; exact .inl (List.mem_cons_self ..)
        · exact .inr h

theorem chosen_concat (prefer : Prefer) (l : List Mechanism) (m : Mechanism) :
    chosen prefer (l ++ [m]) =
      match prefer (chosen prefer l) m with | .gt => chosen prefer l | _ => some m := by
  simp [chosen, List.foldl_append]

/-- `Registry::select` in terms of usable mechanisms. -/
theorem registrySelect_eq (mechs : List Mechanism) (cb : Bool) (offered : List Bytes)
    (prefer : Prefer) (hk : ∀ m ∈ mechs, Spec.Known m) :
    registrySelect mechs cb offered prefer =
      match chosen prefer (mechs.filter (fun m => decide (Spec.Usable cb offered m))) with
      | none => .err .noSharedMechanism
      | some m =>
        match Spec.authFor cb offered m with
        | .ok a => .ok (a, m)
        | .err e => .err e
        | .panic => .panic := by
  obtain ⟨l, hl, hm, hf⟩ := candidates_spec cb offered mechs hk
  obtain ⟨h1, h2⟩ := fold_chosen prefer l
  unfold registrySelect
  simp only [hl]
  rw [← hm, ← h1]
  rcases hr : l.foldl (foldStep prefer) none with _ | ⟨s, m⟩
  · rfl
  · simp only [Option.map_some]
    rw [← hf (s, m) (h2 _ hr)]
    rfl

theorem chosen_mem {prefer : Prefer} {l : List Mechanism} {m : Mechanism}
    (h : chosen prefer l = some m) : m ∈ l := by
  induction l using List.reverseRecOn with
  | nil => cases h
  | append_singleton l x ih =>
    rw [chosen_concat] at h
    split at h
    · exact List.mem_append_left _ (ih h)
    · cases h; simp

/-- Default preference: last of the maxima. -/
theorem chosen_default (l : List Mechanism) :
    (chosen defaultPrefer l = none ∧ l = []) ∨
    ∃ pre m post, chosen defaultPrefer l = some m ∧ l = pre ++ m :: post ∧
      (∀ x ∈ pre, x.priority ≤ m.priority) ∧ ∀ x ∈ post, x.priority < m.priority := by
  induction l using List.reverseRecOn with
  | nil => exact .inl ⟨rfl, rfl⟩
  | append_singleton l x ih =>
    right
    rw [chosen_concat]
    rcases ih with ⟨hn, rfl⟩ | ⟨pre, m, post, hs, rfl, h1, h2⟩
    · rw [hn]
      exact ⟨[], x, [], rfl, rfl, by simp, by simp⟩
    · rw [hs]
      simp only [defaultPrefer]
      rcases hc : compare m.priority x.priority with _ | _ | _
      · have : m.priority < x.priority := Nat.compare_eq_lt.1 hc
        refine ⟨pre ++ m :: post, x, [], rfl, by simp, ?_, by simp⟩
        intro y hy
        simp only [List.mem_append, List.mem_cons] at hy
        rcases hy with hy | rfl | hy
        · have := h1 y hy; omega
        · omega
        · have := h2 y hy; omega
      · have : m.priority = x.priority := Nat.compare_eq_eq.1 hc
        refine ⟨pre ++ m :: post, x, [], rfl, by simp, ?_, by simp⟩
        intro y hy
        simp only [List.mem_append, List.mem_cons] at hy
        rcases hy with hy | rfl | hy
        · have := h1 y hy; omega
        · omega
        · have := h2 y hy; omega
      · have : x.priority < m.priority := Nat.compare_eq_gt.1 hc
        refine ⟨pre, m, post ++ [x], rfl, by simp, h1, ?_⟩
        intro y hy
        simp only [List.mem_append, List.mem_singleton] at hy
        rcases hy with hy | rfl
        · exact h2 y hy
        · exact this

end Rsasl

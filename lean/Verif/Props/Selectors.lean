/-
C99: selection with selectors of any kind.
-/
import Verif.Spec.Selectors
import Verif.Props.Selection

namespace Rsasl

open Spec Selectors

/-! ## What is picked -/

/-- The selection after these offers. -/
def shown (offered : List Bytes) (s : Selectors.Selection) : Selectors.Selection :=
  offered.foldl (fun s o => s.select o) s

theorem offerAll_shown (offered : List Bytes) (l : List Selectors.Selection) :
    Selectors.offerAll offered l = l.map (shown offered) := by
  induction offered generalizing l with
  | nil => exact (List.map_id _).symm
  | cons o offered ih =>
    show Selectors.offerAll offered (l.map _) = _
    rw [ih, List.map_map]
    rfl

theorem shown_done (offered : List Bytes) (m : Mechanism) : shown offered (.done m) = .done m := by
  induction offered with
  | nil => rfl
  | cons o offered ih => exact ih

/-- What a selection picks, computed. -/
def pick (offered : List Bytes) (s : Selectors.Selection) : Option (Mechanism × Start Auth) :=
  (shown offered s).askDone.map fun x => (x.2, x.1.finalize)

theorem picks_iff {s : Selectors.Selection} {offered : List Bytes} {m : Mechanism} {r : Start Auth} :
    SelPicks s offered m r ↔ pick offered s = some (m, r) := by
  constructor
  · intro h
    induction h with
    | given m offered => simp only [pick, shown_done]; rfl
    | @named s o offered m st h =>
      have : shown (o :: offered) (.nothing s) = shown offered (.done m) := by
        show shown offered (Selectors.Selection.select o (.nothing s)) = _
        simp only [Selectors.Selection.select, h]
      simp only [pick, this, shown_done]
      rfl
    | @next s o offered m r st h _ ih =>
      have : shown (o :: offered) (.nothing s) = shown offered (.nothing { s with st := st }) := by
        show shown offered (Selectors.Selection.select o (.nothing s)) = _
        simp only [Selectors.Selection.select, h]
      simp only [pick, this]
      exact ih
    | @last s m st h =>
      show (Selectors.Selection.askDone (.nothing s)).map _ = _
      simp only [Selectors.Selection.askDone, h]
      rfl
  · induction offered generalizing s with
    | nil =>
      intro h
      cases s with
      | done m' =>
        cases h
        exact .given _ _
      | nothing s =>
        rcases hd : s.done s.st with ⟨_ | m', st⟩
        · simp [pick, shown, Selectors.Selection.askDone, hd] at h
        · have : pick [] (.nothing s) = some (m', s.finalize st) := by
            simp [pick, shown, Selectors.Selection.askDone, hd, Selectors.Selection.finalize]
          rw [this] at h
          cases h
          exact .last hd
    | cons o offered ih =>
      intro h
      cases s with
      | done m' =>
        simp only [pick, shown_done] at h
        cases h
        exact .given _ _
      | nothing s =>
        have hp : pick (o :: offered) (.nothing s) =
          pick offered (Selectors.Selection.select o (.nothing s)) := rfl
        rw [hp] at h
        rcases hd : s.select o s.st with ⟨_ | m', st⟩
        · simp only [Selectors.Selection.select, hd] at h
          exact .next hd (ih h)
        · simp only [Selectors.Selection.select, hd] at h
          simp only [pick, shown_done] at h
          cases h
          exact .named hd

/-- The fold over what was picked. -/
def bestPick (prefer : Prefer) (acc : Option (Mechanism × Start Auth)) (l : List (Mechanism × Start Auth)) :
    Option (Mechanism × Start Auth) :=
  l.foldl (fun acc x => match prefer (acc.map (·.1)) x.1 with | .gt => acc | _ => some x) acc

theorem select_eq (mechs : List (Bool → Option Selectors.Selection)) (cb : Bool) (offered : List Bytes)
    (prefer : Prefer) :
    Selectors.select mechs cb offered prefer =
      match bestPick prefer none ((mechs.filterMap (fun m => m cb)).filterMap (pick offered)) with
      | none => .err .noSharedMechanism
      | some (m, r) => startedAs m r := by
  have fold : ∀ (l : List (Selectors.Selection × Mechanism)) (acc : Option (Selectors.Selection × Mechanism)),
      (l.foldl (Selectors.foldStep prefer) acc).map (fun x => (x.2, x.1.finalize)) =
        bestPick prefer (acc.map fun x => (x.2, x.1.finalize)) (l.map fun x => (x.2, x.1.finalize)) := by
    intro l
    induction l with
    | nil => exact fun _ => rfl
    | cons x l ih =>
      intro acc
      rw [List.foldl_cons, ih]
      simp only [bestPick, List.map_cons, List.foldl_cons, Option.map_map]
      congr 1
      unfold Selectors.foldStep
      simp only [Function.comp_def]
      cases prefer (acc.map (·.2)) x.2 <;> rfl
  have e : (mechs.filterMap (fun m => m cb)).filterMap (pick offered) =
      ((Selectors.offerAll offered (mechs.filterMap (fun m => m cb))).filterMap
        Selectors.Selection.askDone).map (fun x => (x.2, x.1.finalize)) := by
    rw [offerAll_shown, List.filterMap_map, List.map_filterMap]
    rfl
  rw [e]
  have := fold ((Selectors.offerAll offered (mechs.filterMap (fun m => m cb))).filterMap
    Selectors.Selection.askDone) none
  rw [Option.map_none] at this
  rw [← this]
  unfold Selectors.select
  simp only []
  generalize List.foldl (Selectors.foldStep prefer) none _ = x
  rcases x with _ | ⟨s, m⟩
  · rfl
  · rfl

theorem bestPick_mem {prefer : Prefer} {l : List (Mechanism × Start Auth)} {x : Mechanism × Start Auth}
    (h : bestPick prefer none l = some x) : x ∈ l := by
  induction l using List.reverseRecOn with
  | nil => cases h
  | append_singleton l y ih =>
    simp only [bestPick, List.foldl_append, List.foldl_cons, List.foldl_nil] at h
    split at h
    · exact List.mem_append_left _ (ih h)
    · cases h; simp

theorem bestPick_default (l : List (Mechanism × Start Auth)) :
    (bestPick defaultPrefer none l = none ∧ l = []) ∨
    ∃ pre x post, bestPick defaultPrefer none l = some x ∧ l = pre ++ x :: post ∧
      (∀ y ∈ pre, y.1.priority ≤ x.1.priority) ∧ ∀ y ∈ post, y.1.priority < x.1.priority := by
  induction l using List.reverseRecOn with
  | nil => exact .inl ⟨rfl, rfl⟩
  | append_singleton l y ih =>
    right
    have e : bestPick defaultPrefer none (l ++ [y]) =
        match defaultPrefer ((bestPick defaultPrefer none l).map (·.1)) y.1 with
        | .gt => bestPick defaultPrefer none l
        | _ => some y := by
      simp only [bestPick, List.foldl_append, List.foldl_cons, List.foldl_nil]
    rw [e]
    rcases ih with ⟨hn, rfl⟩ | ⟨pre, x, post, hs, rfl, h1, h2⟩
    · rw [hn]
      exact ⟨[], y, [], rfl, rfl, by simp, by simp⟩
    · rw [hs]
      simp only [Option.map_some, defaultPrefer]
      have later : x.1.priority ≤ y.1.priority → ∃ pre' x' post', some y = some x' ∧
          pre ++ x :: post ++ [y] = pre' ++ x' :: post' ∧
          (∀ z ∈ pre', z.1.priority ≤ x'.1.priority) ∧ ∀ z ∈ post', z.1.priority < x'.1.priority := by
        intro hle
        refine ⟨pre ++ x :: post, y, [], rfl, rfl, fun z hz => ?_, by simp⟩
        simp only [List.mem_append, List.mem_cons] at hz
        rcases hz with hz | rfl | hz
        · have := h1 z hz; omega
        · omega
        · have := h2 z hz; omega
      rcases hc : compare x.1.priority y.1.priority with _ | _ | _
      · exact later (Nat.le_of_lt (Nat.compare_eq_lt.1 hc))
      · exact later (Nat.le_of_eq (Nat.compare_eq_eq.1 hc))
      · have : y.1.priority < x.1.priority := Nat.compare_eq_gt.1 hc
        refine ⟨pre, x, post ++ [y], rfl, by simp, h1, fun z hz => ?_⟩
        simp only [List.mem_append, List.mem_singleton] at hz
        rcases hz with hz | rfl
        · exact h2 z hz
        · exact this

/-! ## C99 -/

/-- C99: on the mechanisms of `Model/Registry` this is the selection defined there. -/
theorem C99_refines (mechs : List Mechanism) (cb : Bool) (offered : List Bytes) (prefer : Prefer) :
    Selectors.select (mechs.map fun m cb => (m.selection cb).map Selectors.Selection.of) cb offered prefer =
      registrySelect mechs cb offered prefer := by
  have hsel : ∀ (o : Bytes) (s : Rsasl.Selection),
      (Selectors.Selection.of s).select o = .of (s.select o) := by
    intro o s
    cases s with
    | done m => rfl
    | nothing s =>
      simp only [Selectors.Selection.of, Selectors.Selection.select, Sel.ofSelector, Rsasl.Selection.select]
      rcases s.select o with ⟨_ | m, s'⟩ <;> rfl
  have hall : ∀ (offered : List Bytes) (l : List Rsasl.Selection),
      Selectors.offerAll offered (l.map Selectors.Selection.of) =
        (Rsasl.offerAll offered l).map Selectors.Selection.of := by
    intro offered
    induction offered with
    | nil => exact fun _ => rfl
    | cons o offered ih =>
      intro l
      show Selectors.offerAll offered ((l.map Selectors.Selection.of).map _) = _
      rw [List.map_map, show (Selectors.Selection.select o ∘ Selectors.Selection.of) =
        Selectors.Selection.of ∘ Rsasl.Selection.select o from funext (hsel o), ← List.map_map, ih]
      rfl
  have hfin : ∀ s : Rsasl.Selection, (Selectors.Selection.of s).finalize = s.finalize := fun s => by
    cases s <;> rfl
  have hdone : ∀ s : Rsasl.Selection, (Selectors.Selection.of s).askDone =
      (s.doneMech.map fun m => (s, m)).map fun x => (.of x.1, x.2) := by
    intro s
    cases s with
    | done m => rfl
    | nothing s =>
      simp only [Selectors.Selection.of, Selectors.Selection.askDone, Sel.ofSelector,
        Rsasl.Selection.doneMech]
      rcases s.done with _ | m <;> rfl
  have hfold : ∀ (l : List (Rsasl.Selection × Mechanism)) (acc : Option (Rsasl.Selection × Mechanism)),
      (l.map fun x => (Selectors.Selection.of x.1, x.2)).foldl (Selectors.foldStep prefer)
        (acc.map fun x => (.of x.1, x.2)) =
      (l.foldl (Rsasl.foldStep prefer) acc).map fun x => (.of x.1, x.2) := by
    intro l
    induction l with
    | nil => exact fun _ => rfl
    | cons x l ih =>
      intro acc
      rw [List.map_cons, List.foldl_cons, List.foldl_cons, ← ih]
      congr 1
      unfold Selectors.foldStep Rsasl.foldStep
      rw [Option.map_map]
      simp only [Function.comp_def]
      cases prefer (acc.map (·.2)) x.2 <;> rfl
  have hl : (Selectors.offerAll offered ((mechs.map fun m cb => (m.selection cb).map
      Selectors.Selection.of).filterMap fun m => m cb)).filterMap Selectors.Selection.askDone =
      (candidates (Rsasl.offerAll offered (mechs.filterMap fun m => m.selection cb))).map
        fun x => (Selectors.Selection.of x.1, x.2) := by
    have e : ((mechs.map fun m cb => (m.selection cb).map Selectors.Selection.of).filterMap
        fun m => m cb) = (mechs.filterMap fun m => m.selection cb).map Selectors.Selection.of := by
      rw [List.filterMap_map, List.map_filterMap]
      rfl
    rw [e, hall, List.filterMap_map]
    unfold candidates
    rw [List.map_filterMap]
    exact congrArg (fun f => List.filterMap f _) (funext hdone)
  have hf := hfold (candidates (Rsasl.offerAll offered (mechs.filterMap fun m => m.selection cb))) none
  rw [Option.map_none, ← hl] at hf
  unfold Selectors.select registrySelect
  simp only []
  rw [hf]
  generalize List.foldl (Rsasl.foldStep prefer) none _ = x
  rcases x with _ | ⟨s, m⟩
  · rfl
  · simp only [Option.map_some, hfin]
    rcases s.finalize with _ | _ | _ <;> rfl

/-- C99: whatever the selectors and the preference, the mechanism used was picked by one of the
selectors, and is started as that one says. -/
theorem C99_picked (mechs : List (Bool → Option Selectors.Selection)) (cb : Bool) (offered : List Bytes)
    (prefer : Prefer) :
    Selectors.select mechs cb offered prefer = .err .noSharedMechanism ∨
    ∃ f ∈ mechs, ∃ s m r, f cb = some s ∧ SelPicks s offered m r ∧
      Selectors.select mechs cb offered prefer = startedAs m r := by
  rw [select_eq]
  rcases h : bestPick prefer none ((mechs.filterMap (fun m => m cb)).filterMap (pick offered)) with
    _ | ⟨m, r⟩
  · exact .inl (by simp only [h])
  · obtain ⟨s, hs, hp⟩ := List.mem_filterMap.1 (bestPick_mem h)
    obtain ⟨f, hf, hfs⟩ := List.mem_filterMap.1 hs
    exact .inr ⟨f, hf, s, m, r, hfs, picks_iff.2 hp, by simp only [h]⟩

/-- C99: with the default preference it is the pick with the highest priority, the last of them; if
nothing is picked, there is no shared mechanism. -/
theorem C99_default (mechs : List (Bool → Option Selectors.Selection)) (cb : Bool) (offered : List Bytes) :
    (Selectors.select mechs cb offered defaultPrefer = .err .noSharedMechanism ∧
      ∀ f ∈ mechs, ∀ s m r, f cb = some s → ¬ SelPicks s offered m r) ∨
    ∃ before f after s m r, mechs = before ++ f :: after ∧ f cb = some s ∧ SelPicks s offered m r ∧
      (∀ f' ∈ before, ∀ s' m' r', f' cb = some s' → SelPicks s' offered m' r' → m'.priority ≤ m.priority) ∧
      (∀ f' ∈ after, ∀ s' m' r', f' cb = some s' → SelPicks s' offered m' r' → m'.priority < m.priority) ∧
      Selectors.select mechs cb offered defaultPrefer = startedAs m r := by
  rw [select_eq]
  have mem : ∀ {l : List (Bool → Option Selectors.Selection)} {f s m r}, f ∈ l → f cb = some s →
      SelPicks s offered m r → (m, r) ∈ (l.filterMap (fun m => m cb)).filterMap (pick offered) :=
    fun hf hs hp => List.mem_filterMap.2 ⟨_, List.mem_filterMap.2 ⟨_, hf, hs⟩, picks_iff.1 hp⟩
  rcases bestPick_default ((mechs.filterMap (fun m => m cb)).filterMap (pick offered)) with
    ⟨hn, hl⟩ | ⟨pre, ⟨m, r⟩, post, hs, hl, h1, h2⟩
  · rw [hn]
    refine .inl ⟨rfl, fun f hf s m r hs hp => ?_⟩
    have := mem hf hs hp
    rw [hl] at this
    cases this
  · rw [hs]
    rw [List.filterMap_filterMap] at hl
    obtain ⟨l1, l2, e, h3, h4⟩ := List.filterMap_eq_append_iff.1 hl
    obtain ⟨l3, f, l4, e', h5, h6, h7⟩ := List.filterMap_eq_cons_iff.1 h4
    obtain ⟨s, hf, hp⟩ := Option.bind_eq_some_iff.1 h6
    refine .inr ⟨l1 ++ l3, f, l4, s, m, r, by rw [e, e', List.append_assoc], hf, picks_iff.2 hp, ?_, ?_, rfl⟩
    · intro f' hf' s' m' r' hs' hp'
      rcases List.mem_append.1 hf' with hf' | hf'
      · have := mem hf' hs' hp'
        rw [List.filterMap_filterMap, h3] at this
        exact h1 _ this
      · have := h5 f' hf'
        rw [hs', Option.bind_some, picks_iff.1 hp'] at this
        cases this
    · intro f' hf' s' m' r' hs' hp'
      have := mem hf' hs' hp'
      rw [List.filterMap_filterMap, h7] at this
      exact h2 _ this

/-- C99: nothing but what is picked counts: if the selectors of two registries, in their order, pick
the same from two offers, then the same is selected, by any preference. -/
theorem C99_only_picks (mechs mechs' : List (Bool → Option Selectors.Selection)) (cb cb' : Bool)
    (offered offered' : List Bytes) (prefer : Prefer)
    (h : List.Forall₂ (fun f f' => ∀ m r, (∃ s, f cb = some s ∧ SelPicks s offered m r) ↔
      ∃ s, f' cb' = some s ∧ SelPicks s offered' m r) mechs mechs') :
    Selectors.select mechs cb offered prefer = Selectors.select mechs' cb' offered' prefer := by
  have : (mechs.filterMap (fun m => m cb)).filterMap (pick offered) =
      (mechs'.filterMap (fun m => m cb')).filterMap (pick offered') := by
    rw [List.filterMap_filterMap, List.filterMap_filterMap]
    induction h with
    | nil => rfl
    | @cons f f' l l' hf _ ih =>
      have e : (f cb).bind (pick offered) = (f' cb').bind (pick offered') := by
        apply Option.ext
        rintro ⟨m, r⟩
        rw [Option.bind_eq_some_iff, Option.bind_eq_some_iff]
        simpa only [picks_iff] using hf m r
      rw [List.filterMap_cons, List.filterMap_cons, e, ih]
  rw [select_eq, select_eq, this]

/-- C99: if all selectors are honest, the mechanism used was offered. -/
theorem C99_honest (mechs : List (Bool → Option Selectors.Selection)) (cb : Bool) (offered : List Bytes)
    (prefer : Prefer) (hh : ∀ f ∈ mechs, ∀ s, f cb = some s → Honest s) (a : Auth) (m : Mechanism)
    (h : Selectors.select mechs cb offered prefer = .ok (a, m)) : m.name ∈ offered := by
  rcases C99_picked mechs cb offered prefer with he | ⟨f, hf, s, m', r, hs, hp, he⟩
  · rw [h] at he; cases he
  · rw [h] at he
    cases r with
    | ok a' =>
      cases he
      exact hh f hf s hs _ _ _ hp
    | err e => cases he
    | panic => cases he

theorem picks_matches {m m' : Mechanism} {offered : List Bytes} {r : Start Auth} :
    SelPicks (.of (.nothing (.matches m))) offered m' r ↔
      m' = m ∧ m.name ∈ offered ∧ r = unwrapStart m.client := by
  induction offered with
  | nil =>
    constructor
    · intro h
      cases h with
      | last h => cases h
    · intro h
      cases h.2.1
  | cons o offered ih =>
    by_cases ho : o = m.name
    · constructor
      · intro h
        cases h with
        | named h =>
          simp only [Sel.ofSelector, Selector.select, ho, if_true, Prod.mk.injEq, Option.some.injEq] at h
          obtain ⟨rfl, -⟩ := h
          exact ⟨rfl, by simp [ho], rfl⟩
        | next h hp =>
          simp only [Sel.ofSelector, Selector.select, ho, if_true] at h
          cases h
      · rintro ⟨rfl, -, rfl⟩
        refine .named (st := .matches m') ?_
        simp [Sel.ofSelector, Selector.select, ho]
    · constructor
      · intro h
        cases h with
        | named h =>
          simp only [Sel.ofSelector, Selector.select, ho, if_false] at h
          cases h
        | next h hp =>
          simp only [Sel.ofSelector, Selector.select, ho, if_false] at h
          cases h
          obtain ⟨h1, h2, h3⟩ := ih.1 hp
          exact ⟨h1, List.mem_cons_of_mem _ h2, h3⟩
      · rintro ⟨h1, h2, h3⟩
        refine .next (st := .matches m) ?_ (ih.2 ⟨h1, ?_, h3⟩)
        · simp [Sel.ofSelector, Selector.select, ho]
        · rcases List.mem_cons.1 h2 with h2 | h2
          · exact absurd h2.symm ho
          · exact h2

/-- C99: `Matches` picks its mechanism exactly if that was offered; it is honest. -/
theorem C99_matches (m : Mechanism) :
    Honest (.of (.nothing (.matches m))) ∧ ∀ offered m' r,
      (SelPicks (.of (.nothing (.matches m))) offered m' r ↔
        m' = m ∧ m.name ∈ offered ∧ r = unwrapStart m.client) :=
  ⟨fun _ _ _ h => by
    obtain ⟨rfl, h, -⟩ := picks_matches.1 h
    exact h, fun _ _ _ => picks_matches⟩

/-- C99: the selector of a SCRAM mechanism with channel bindings is not. -/
theorem C99_scram_dishonest (h : Hash) : ¬ Honest (.of (.nothing (.scram h .no))) := by
  intro hh
  have hp : SelPicks (.of (.nothing (.scram h .no))) [h.plusName] (SCRAM h) (.ok (.scramClient h true)) := by
    rw [picks_iff]
    cases h <;> rfl
  have := hh _ _ _ hp
  cases h <;> revert this <;> decide +kernel

/-! ## Concrete cases -/

/-- A selector that takes a mechanism for any name with a prefix, and remembers how many it saw. -/
def prefixSel (p : Bytes) (m : Mechanism) : Sel where
  S := Nat
  st := 0
  select name n := if p.isPrefixOf name then (some m, n) else (none, n + 1)
  done n := (none, n)
  finalize _ := .panic

example : SelPicks (.nothing (prefixSel (b!"SCRAM-") PLAIN)) [b!"LOGIN", b!"SCRAM-SHA-1"] PLAIN
    (.ok .plain) :=
  .next (st := (1 : Nat)) rfl (.named (st := (1 : Nat)) rfl)

/-- Next to the crate's LOGIN. -/
example : Selectors.select [fun _ => some (.nothing (prefixSel (b!"SCRAM-") PLAIN)),
      fun cb => (LOGIN.selection cb).map .of] false [b!"LOGIN", b!"SCRAM-SHA-1"] defaultPrefer =
    .ok (.plain, PLAIN) := by rfl

/-- It is not honest. -/
example : ¬ Honest (.nothing (prefixSel (b!"SCRAM-") PLAIN)) := fun h => by
  have := h [b!"SCRAM-SHA-1"] _ _ (.named (s := prefixSel (b!"SCRAM-") PLAIN) (st := (0 : Nat)) rfl)
  revert this
  decide

end Rsasl

/-
C100: what `Debug` shows of a configuration.
-/
import Verif.Model.Shown
import Verif.Spec.Shown
import Verif.Props.Text
import Verif.Props.Selection
import Verif.Spec.Display

namespace Rsasl

open Spec Shown

/-! ## Texts that can be read back -/

/-- The text of a mechanism with this name. -/
def mechLine (n : Str) (c s : Bool) : Str :=
  c!"Mechanism { name: " ++ (c!"MECHANISM(" ++ n ++ c!")") ++ c!", has client: " ++ Shown.bool c ++
    c!", has server: " ++ Shown.bool s ++ c!", .. }"

theorem Spec.Named.text {m : Mechanism} (h : Named m) :
    ∃ n, MechText n ∧ Str.bytes n = m.name ∧
      Shown.mechanism m = .text (mechLine n m.client.isSome m.server.isSome) := by
  obtain ⟨n, -, -, hd, hb, -, -, hm⟩ := C88_mechname m.name m.name h
  exact ⟨n, hm, hb, by simp only [Shown.mechanism, hd]; rfl⟩

theorem split_inj {α : Type} {a : α} {x y u v : List α} (hx : a ∉ x) (hy : a ∉ y)
    (h : x ++ a :: u = y ++ a :: v) : x = y ∧ u = v := by
  induction x generalizing y with
  | nil =>
    cases y with
    | nil => exact ⟨rfl, (List.cons.inj h).2⟩
    | cons b y => exact absurd (List.cons.inj h).1 fun e => hy (by simp [e])
  | cons c x ih =>
    cases y with
    | nil => exact absurd (List.cons.inj h).1.symm fun e => hx (by simp [e])
    | cons b y =>
      obtain ⟨rfl, h'⟩ := List.cons.inj h
      obtain ⟨rfl, rfl⟩ := ih (fun e => hx (List.mem_cons_of_mem _ e))
        (fun e => hy (List.mem_cons_of_mem _ e)) h'
      exact ⟨rfl, rfl⟩

theorem bool_inj {b c : Bool} {u v : Str} (h : Shown.bool b ++ u = Shown.bool c ++ v) : b = c ∧ u = v := by
  cases b <;> cases c
  · exact ⟨rfl, List.append_cancel_left h⟩
  · exact absurd (List.cons.inj h).1 (by decide)
  · exact absurd (List.cons.inj h).1 (by decide)
  · exact ⟨rfl, List.append_cancel_left h⟩

theorem mechText_paren {n : Str} (h : MechText n) : ')' ∉ n := fun hn => by
  have := h.2 _ hn
  revert this
  unfold MechChar
  decide

theorem mechLine_inj {n n' : Str} {c c' s s' : Bool} {u v : Str} (hn : MechText n) (hn' : MechText n')
    (h : mechLine n c s ++ u = mechLine n' c' s' ++ v) : n = n' ∧ c = c' ∧ s = s' ∧ u = v := by
  simp only [mechLine, List.append_assoc] at h
  obtain ⟨rfl, h1⟩ := split_inj (mechText_paren hn) (mechText_paren hn')
    (List.append_cancel_left (List.append_cancel_left h))
  obtain ⟨rfl, h2⟩ := bool_inj (List.append_cancel_left (as := c!", has client: ") h1)
  obtain ⟨rfl, h3⟩ := bool_inj (List.append_cancel_left h2)
  exact ⟨rfl, rfl, rfl, List.append_cancel_left h3⟩

theorem seen_eq {m m' : Mechanism} {n n' : Str} (h : Str.bytes n = m.name) (h' : Str.bytes n' = m'.name) :
    seen m = seen m' ↔ n = n' ∧ m.client.isSome = m'.client.isSome ∧ m.server.isSome = m'.server.isSome := by
  unfold seen
  rw [Prod.mk.injEq, Prod.mk.injEq, ← h, ← h']
  exact and_congr_left fun _ => ⟨Str.bytes_injective, congrArg _⟩

theorem line_append' {s t : Str} (hs : OneLine s) (ht : OneLine t) : OneLine (s ++ t) := fun c hc =>
  (List.mem_append.1 hc).elim (hs c) (ht c)

theorem mechLine_line {n : Str} (hn : MechText n) (c s : Bool) : OneLine (mechLine n c s) := by
  have hc : OneLine n := by
    intro x hx
    have := hn.2 x hx
    unfold MechChar at this
    exact (by decide : ∀ x ∈ c!"ABCDEFGHIJKLMNOPQRSTUVWXYZ0123456789-_", Visible x) x this
  have hb : ∀ b, OneLine (Shown.bool b) := by decide
  unfold mechLine
  refine line_append' (line_append' (line_append' (line_append' (line_append' (line_append' ?_ (line_append'
    (line_append' ?_ hc) ?_)) ?_) (hb c)) ?_) (hb s)) ?_ <;> decide

theorem others_cons {m : Mechanism} {ms : List Mechanism} {s t : Str} (hm : Shown.mechanism m = .text s)
    (ht : others ms = .text t) : others (m :: ms) = .text (c!", " ++ s ++ t) := by
  simp only [others, hm, ht]

theorem mechanisms_cons {m : Mechanism} {ms : List Mechanism} {s t : Str} (hm : Shown.mechanism m = .text s)
    (ht : others ms = .text t) : mechanisms (m :: ms) = .text (c!"[" ++ s ++ t ++ c!"]") := by
  simp only [mechanisms, hm, ht]

theorem others_text {ms : List Mechanism} (h : ∀ m ∈ ms, Named m) :
    ∃ t, others ms = .text t ∧ OneLine t := by
  induction ms with
  | nil => exact ⟨[], rfl, nofun⟩
  | cons m ms ih =>
    obtain ⟨t, ht, hl⟩ := ih fun m hm => h m (List.mem_cons_of_mem _ hm)
    obtain ⟨n, hn, -, e⟩ := (h m (by simp)).text
    exact ⟨_, others_cons e ht, line_append' (line_append' (by decide) (mechLine_line hn _ _)) hl⟩

/-- The texts of the entries after the first one, and a rest that begins in another way. -/
theorem others_inj {ms ms' : List Mechanism} (h : ∀ m ∈ ms, Named m) (h' : ∀ m ∈ ms', Named m) :
    ∃ t t', others ms = .text t ∧ others ms' = .text t' ∧ ∀ u v,
      (t ++ ']' :: u = t' ++ ']' :: v ↔ ms.map seen = ms'.map seen ∧ u = v) := by
  induction ms generalizing ms' with
  | nil =>
    cases ms' with
    | nil => exact ⟨[], [], rfl, rfl, fun u v => by simp⟩
    | cons m' ms' =>
      obtain ⟨n', -, -, e⟩ := (h' m' (by simp)).text
      obtain ⟨t', ht', -⟩ := others_text fun m hm => h' m (List.mem_cons_of_mem _ hm)
      refine ⟨[], _, rfl, others_cons e ht', fun u v => ?_⟩
      constructor
      · intro h
        exact absurd (List.cons.inj h).1 (by decide)
      · intro h
        cases h.1
  | cons m ms ih =>
    obtain ⟨n, hn, hb, e⟩ := (h m (by simp)).text
    have hms := fun m hm => h m (List.mem_cons_of_mem _ hm)
    cases ms' with
    | nil =>
      obtain ⟨t, _, ht, _, _⟩ := ih (ms' := []) hms nofun
      refine ⟨_, [], others_cons e ht, rfl, fun u v => ?_⟩
      constructor
      · intro h
        exact absurd (List.cons.inj h).1 (by decide)
      · intro h
        cases h.1
    | cons m' ms' =>
      obtain ⟨n', hn', hb', e'⟩ := (h' m' (by simp)).text
      obtain ⟨t, t', ht, ht', hi⟩ := ih hms fun m hm => h' m (List.mem_cons_of_mem _ hm)
      refine ⟨_, _, others_cons e ht, others_cons e' ht', fun u v => ?_⟩
      rw [List.map_cons, List.map_cons, List.cons.injEq, seen_eq hb hb', and_assoc, ← hi]
      simp only [List.append_assoc]
      constructor
      · intro h
        obtain ⟨h1, h2, h3, h4⟩ := mechLine_inj hn hn' (List.append_cancel_left h)
        exact ⟨⟨h1, h2, h3⟩, h4⟩
      · rintro ⟨⟨rfl, h2, h3⟩, h4⟩
        rw [h2, h3, h4]

theorem mechanisms_inj {ms ms' : List Mechanism} (h : ∀ m ∈ ms, Named m) (h' : ∀ m ∈ ms', Named m) :
    ∃ t t', mechanisms ms = .text t ∧ mechanisms ms' = .text t' ∧ ∀ u v,
      (t ++ u = t' ++ v ↔ ms.map seen = ms'.map seen ∧ u = v) := by
  cases ms with
  | nil =>
    cases ms' with
    | nil => exact ⟨_, _, rfl, rfl, fun u v => by simp⟩
    | cons m' ms' =>
      obtain ⟨n', -, -, e⟩ := (h' m' (by simp)).text
      obtain ⟨_, t', _, ht', -⟩ := others_inj (ms := []) (ms' := ms') nofun
        fun m hm => h' m (List.mem_cons_of_mem _ hm)
      refine ⟨_, _, rfl, mechanisms_cons e ht', fun u v => ?_⟩
      constructor
      · intro h
        exact absurd (List.cons.inj (List.cons.inj h).2).1 (by decide)
      · intro h
        cases h.1
  | cons m ms =>
    obtain ⟨n, hn, hb, e⟩ := (h m (by simp)).text
    have hms := fun m hm => h m (List.mem_cons_of_mem _ hm)
    cases ms' with
    | nil =>
      obtain ⟨t, _, ht, _, _⟩ := others_inj (ms' := []) hms nofun
      refine ⟨_, _, mechanisms_cons e ht, rfl, fun u v => ?_⟩
      constructor
      · intro h
        exact absurd (List.cons.inj (List.cons.inj h).2).1 (by decide)
      · intro h
        cases h.1
    | cons m' ms' =>
      obtain ⟨n', hn', hb', e'⟩ := (h' m' (by simp)).text
      obtain ⟨t, t', ht, ht', hi⟩ := others_inj hms fun m hm => h' m (List.mem_cons_of_mem _ hm)
      refine ⟨_, _, mechanisms_cons e ht, mechanisms_cons e' ht', fun u v => ?_⟩
      rw [List.map_cons, List.map_cons, List.cons.injEq, seen_eq hb hb', and_assoc, ← hi]
      simp only [List.append_assoc]
      constructor
      · intro h
        obtain ⟨h1, h2, h3, h4⟩ := mechLine_inj hn hn' (List.append_cancel_left h)
        exact ⟨⟨h1, h2, h3⟩, h4⟩
      · rintro ⟨⟨rfl, h2, h3⟩, h4⟩
        rw [h2, h3, show (c!"]" ++ u) = ']' :: u from rfl, h4]
        rfl

/-! ## C100 -/

/-- C100: `Debug` of a configuration says which mechanisms it has, by name and sides, and nothing else: two of them
look the same exactly if they have the same ones, whatever their callbacks are. -/
theorem C100_config (callback callback' : List Event → SessionData → Provider → CbProg)
    (validate validate' : List Event → SessionData → Provider → ValProg) (enable enable' : Bool)
    (prefer prefer' : Prefer) (ms ms' : List Mechanism) (h : ∀ m ∈ ms, Named m) (h' : ∀ m ∈ ms', Named m) :
    (Inner.new callback validate enable prefer ms).debug ≠ .undefined ∧
    ((Inner.new callback validate enable prefer ms).debug =
      (Inner.new callback' validate' enable' prefer' ms').debug ↔ ms.map seen = ms'.map seen) := by
  obtain ⟨t, t', ht, ht', hi⟩ := mechanisms_inj h h'
  simp only [Inner.debug, Inner.new, registry, ht, ht', mapText, ne_eq, reduceCtorEq, not_false_eq_true,
    true_and, Unchecked.text.injEq, List.append_assoc]
  constructor
  · intro h
    have h := List.append_cancel_left (List.append_cancel_left (List.append_cancel_left
      (List.append_cancel_left h)))
    exact ((hi _ _).1 h).1
  · intro h
    rw [(hi _ _).2 ⟨h, rfl⟩]

/-- C100: so it says nothing about the credentials in it but whether there is an authorization id. -/
theorem C100_credentials (on : Build) (authzid authzid' : Option Str) (authid authid' password password' : Str)
    (h : authzid.isSome = authzid'.isSome) :
    (Inner.withCredentials on authzid authid password).debug =
      (Inner.withCredentials on authzid' authid' password').debug := by
  simp only [Inner.withCredentials, Inner.debug, Inner.new, h]

/-- C100: though what is shown is what was configured: such a configuration is one without channel bindings. -/
theorem C100_credentials_config (on : Build) (authzid : Option Str) (authid password : Str) :
    .ok (Inner.withCredentials on authzid authid password).config = on.withCredentials authzid ∧
    (Inner.withCredentials on authzid authid password).config.enableCb = false := ⟨rfl, rfl⟩

/-- C100: nor does what is made of the configuration, a context. -/
theorem C100_sasl (i i' : Inner) (cb : Str) (h : i.debug = i'.debug) : Shown.sasl i cb = Shown.sasl i' cb := by
  simp only [Shown.sasl, h]

/-- C100: and `Debug` of the data of a session says which mechanism it is, and which side. -/
theorem C100_session (m m' : Mechanism) (s s' : Side) (h : Named m) (h' : Named m') :
    Shown.sessionData m s = Shown.sessionData m' s' ↔ seen m = seen m' ∧ s = s' := by
  obtain ⟨n, hn, hb, e⟩ := h.text
  obtain ⟨n', hn', hb', e'⟩ := h'.text
  simp only [Shown.sessionData, e, e', mapText, Unchecked.text.injEq, List.append_assoc, seen_eq hb hb']
  constructor
  · intro h
    obtain ⟨h1, h2, h3, h4⟩ := mechLine_inj hn hn' (List.append_cancel_left h)
    refine ⟨⟨h1, h2, h3⟩, ?_⟩
    cases s <;> cases s' <;> first | rfl | exact absurd h4 (by decide)
  · rintro ⟨⟨rfl, h2, h3⟩, rfl⟩
    rw [h2, h3]

/-- C100: each of these texts is one line, without control characters. -/
theorem C100_line (i : Inner) (h : ∀ m ∈ i.mechs, Named m) :
    ∃ t, i.debug = .text t ∧ OneLine t ∧ ∀ cb, OneLine cb → ∃ t', Shown.sasl i cb = .text t' ∧ OneLine t' := by
  obtain ⟨l, hl, hll⟩ : ∃ l, mechanisms i.mechs = .text l ∧ OneLine l := by
    rcases hm : i.mechs with _ | ⟨m, ms⟩
    · exact ⟨_, rfl, by decide⟩
    · obtain ⟨t, ht, htl⟩ := others_text fun m' hm' => h m' (hm ▸ List.mem_cons_of_mem _ hm')
      obtain ⟨n, hn, -, e⟩ := (h m (by simp [hm])).text
      refine ⟨_, mechanisms_cons e ht, ?_⟩
      exact line_append' (line_append' (line_append' (by decide) (mechLine_line hn _ _)) htl) (by decide)
  have hr : registry i.mechs = .text (c!"Registry { static_mechanisms: " ++ l ++ c!" }") := by
    simp only [registry, hl, mapText]
  have hrl : OneLine (c!"Registry { static_mechanisms: " ++ l ++ c!" }") :=
    line_append' (line_append' (by decide) hll) (by decide)
  have hb : ∀ b, OneLine (Shown.bool b) := by decide
  have hd : ∃ t, i.debug = .text t ∧ OneLine t := by
    refine ⟨_, by simp only [Inner.debug, hr, mapText]; rfl, ?_⟩
    exact line_append' (line_append' (line_append' (line_append' (by decide) (hb i.cb)) (by decide)) hrl)
      (by decide)
  obtain ⟨t, ht, htl⟩ := hd
  refine ⟨t, ht, htl, fun cb hcb => ⟨_, by simp only [Shown.sasl, ht, mapText]; rfl, ?_⟩⟩
  exact line_append' (line_append' (line_append' (line_append' (by decide) htl) (by decide)) hcb) (by decide)

/-- C100: the mechanisms of the crate are so named, in every build. -/
theorem C100_shipped (on : Build) (authzid : Bool) :
    (∀ m ∈ on.credentials authzid, Named m) ∧ (∀ m ∈ on.array builtin, Named m) := by
  have key : (∀ x ∈ credAuthzid, x.2.name ∈ constNames) ∧ (∀ x ∈ cred, x.2.name ∈ constNames) ∧
      ∀ x ∈ builtin, x.2.name ∈ constNames := by decide +kernel
  have sub : ∀ l : List (Feature × Mechanism), (∀ x ∈ l, x.2.name ∈ constNames) → ∀ m ∈ on.array l, Named m := by
    intro l hl m hm
    unfold Build.array at hm
    obtain ⟨x, hx, rfl⟩ := List.mem_map.1 hm
    exact C88_constants _ (hl x (List.mem_filter.1 hx).1)
  refine ⟨?_, sub _ key.2.2⟩
  unfold Build.credentials
  cases authzid
  · exact sub _ key.2.1
  · exact sub _ key.1

/-- C100: with LOGIN in the build, it does say whether there is an authorization id. -/
theorem C100_authzid (on : Build) (hon : on .login = true) (authzid authzid' : Option Str)
    (authid authid' password password' : Str) :
    (Inner.withCredentials on authzid authid password).debug =
      (Inner.withCredentials on authzid' authid' password').debug ↔ authzid.isSome = authzid'.isSome := by
  refine ⟨fun h => ?_, C100_credentials on _ _ _ _ _ _⟩
  have h := (C100_config _ _ _ _ _ _ _ _ _ _ (C100_shipped on _).1 (C100_shipped on _).1).2.1 h
  have len : ∀ b, (on.credentials b).length = (on.credentials true).length + if b then 0 else 1 := by
    intro b
    cases b
    · have : cred = credAuthzid ++ [(.login, LOGIN)] := rfl
      simp [Build.credentials, Build.array, this, List.filter_append, hon]
    · rfl
  have := congrArg List.length h
  rw [List.length_map, List.length_map, len, len authzid'.isSome] at this
  revert this
  cases authzid.isSome <;> cases authzid'.isSome <;> simp

/-- C100: what it says about channel bindings is not so. The text is always that there are none; here of two
configurations whose clients start differently. -/
theorem C100_channel_binding_untold :
    ¬ ∀ callback validate prefer ms enable offered, (∀ m ∈ ms, Named m) →
      (Inner.new callback validate enable prefer ms).debug =
        (Inner.new callback validate false prefer ms).debug →
      (Inner.new callback validate enable prefer ms).config.clientStart offered =
        (Inner.new callback validate false prefer ms).config.clientStart offered := by
  intro h
  have hn : ∀ m ∈ [SCRAM .sha256], Named m := by
    intro m hm
    rw [List.mem_singleton.1 hm]
    exact C88_constants _ (by decide +kernel)
  have := h (fun _ _ _ => .ret (.ok ())) (fun _ _ _ => .ret (.ok ())) defaultPrefer [SCRAM .sha256] true
    [b!"SCRAM-SHA-256-PLUS"] hn rfl
  revert this
  exact fun h => nomatch h

/-! ## Names that are no text -/

theorem mechanism_undefined (m : Mechanism) : Shown.mechanism m = .undefined ↔ ∀ s, m.name ≠ Str.bytes s := by
  have hu := fun s => unchecked_eq_text (b := m.name) (s := s)
  unfold Shown.mechanism Mechname.debug Mechname.asStr
  cases h : unchecked m.name with
  | text s => exact ⟨nofun, fun hn => absurd ((hu s).1 h) (hn s)⟩
  | undefined => exact ⟨(fun _ s hs => nomatch ((hu s).2 hs).symm.trans h), fun _ => rfl⟩

theorem others_undefined (ms : List Mechanism) :
    Shown.others ms = .undefined ↔ ∃ m ∈ ms, Shown.mechanism m = .undefined := by
  induction ms with
  | nil => exact ⟨nofun, fun ⟨_, h, _⟩ => nomatch h⟩
  | cons m ms ih =>
    rw [Shown.others]
    cases h1 : Shown.mechanism m <;> cases h2 : Shown.others ms <;> rw [h2] at ih <;> simpa [h1] using ih

theorem mechanisms_undefined (ms : List Mechanism) :
    Shown.mechanisms ms = .undefined ↔ ∃ m ∈ ms, Shown.mechanism m = .undefined := by
  cases ms with
  | nil => exact ⟨nofun, fun ⟨_, h, _⟩ => nomatch h⟩
  | cons m ms =>
    have ih := others_undefined ms
    rw [Shown.mechanisms]
    cases h1 : Shown.mechanism m <;> cases h2 : Shown.others ms <;> rw [h2] at ih <;> simpa [h1] using ih

theorem mapText_undefined (f : Str → Str) (t : Unchecked) : Shown.mapText f t = .undefined ↔ t = .undefined := by
  cases t
  · exact ⟨nofun, nofun⟩
  · exact Iff.rfl

/-- C100: exactly when there is nothing that may be shown: with a mechanism registered under a name that is no text, `Debug`
of a configuration, of a context made of it and of the data of a session is undefined behaviour. -/
theorem C100_undefined (i : Inner) (cb : Str) (m : Mechanism) (s : Side) :
    (i.debug = .undefined ↔ ∃ m ∈ i.mechs, ∀ s, m.name ≠ Str.bytes s) ∧
    (Shown.sasl i cb = .undefined ↔ ∃ m ∈ i.mechs, ∀ s, m.name ≠ Str.bytes s) ∧
    (Shown.sessionData m s = .undefined ↔ ∀ s, m.name ≠ Str.bytes s) := by
  have h : i.debug = .undefined ↔ ∃ m ∈ i.mechs, ∀ s, m.name ≠ Str.bytes s := by
    simp only [Inner.debug, registry, mapText_undefined, mechanisms_undefined, mechanism_undefined]
  refine ⟨h, ?_, ?_⟩
  · rw [Shown.sasl, mapText_undefined, h]
  · rw [Shown.sessionData, mapText_undefined, mechanism_undefined]

example : (Inner.new (fun _ _ _ => .ret (.ok ())) (fun _ _ _ => .ret (.ok ())) true defaultPrefer
    [PLAIN, { EXTERNAL with name := [0xff] }]).debug = .undefined := by
  decide +kernel

/-! ## Concrete cases -/

set_option maxRecDepth 20000 in
example : (Inner.new (fun _ _ _ => .ret (.ok ())) (fun _ _ _ => .ret (.ok ())) true defaultPrefer
      [PLAIN, { EXTERNAL with server := none }]).debug =
    .text (c!"SASLConfig { channel_binding: false, mechanisms: Registry { static_mechanisms: [Mechanism { name: MECHANISM(PLAIN), has client: true, has server: true, .. }, Mechanism { name: MECHANISM(EXTERNAL), has client: true, has server: false, .. }] }, .. }") := by
  decide +kernel

/-- Without the restriction on names the text says less: two registries, one text. -/
example : mechanisms [{ PLAIN with name := b!"A), has client: true, has server: true, .. }, Mechanism { name: MECHANISM(B" }] =
    mechanisms [{ PLAIN with name := b!"A" }, { PLAIN with name := b!"B" }] := by
  decide +kernel

end Rsasl

/-
C47: two sessions do not influence each other.
-/
import Verif.Proofs.Draws
import Verif.Spec.Reads
import Verif.Spec.Examples

namespace Rsasl

variable {S α : Type}

/-! ## Specification -/

/-- Two sessions and the one random number generator they draw from. -/
structure Pair (S T : Type) where
  a : Session S
  b : Session T
  rng : Nat → Nat

/-- A call on the first (`inl`) or the second session (`inr`). -/
def Pair.perform (m₁ m₂ : Mech) (e₁ e₂ : Env) (p : Pair m₁.S m₂.S) :
    Op ⊕ Op → (Answer ⊕ Answer) × Pair m₁.S m₂.S
  | .inl op =>
    let (r, a) := Session.perform m₁ e₁ { p.a with rng := p.rng } op
    (.inl r, { p with a := a, rng := a.rng })
  | .inr op =>
    let (r, b) := Session.perform m₂ e₂ { p.b with rng := p.rng } op
    (.inr r, { p with b := b, rng := b.rng })

/-- Calls in any order. -/
def Pair.performAll (m₁ m₂ : Mech) (e₁ e₂ : Env) : Pair m₁.S m₂.S → List (Op ⊕ Op) →
    List (Answer ⊕ Answer) × Pair m₁.S m₂.S
  | p, [] => ([], p)
  | p, op :: ops =>
    let (r, p) := p.perform m₁ m₂ e₁ e₂ op
    let (rs, p) := Pair.performAll m₁ m₂ e₁ e₂ p ops
    (r :: rs, p)

/-- The third list is made of the first two, each in its order. -/
inductive Spec.Interleaves {A : Type} : List A → List A → List A → Prop where
  | nil : Interleaves [] [] []
  | left (x as bs cs) (h : Interleaves as bs cs) : Interleaves (x :: as) bs (x :: cs)
  | right (x as bs cs) (h : Interleaves as bs cs) : Interleaves as (x :: bs) (x :: cs)

/-- The stream starts with the list. -/
def Spec.StartsWith (rng : Nat → Nat) (l : List Nat) : Prop :=
  ∀ i (h : i < l.length), rng i = l[i]

/-- What is for the first session, or for the second. -/
def Spec.lefts {A B : Type} (l : List (A ⊕ B)) : List A := l.filterMap Sum.getLeft?
def Spec.rights {A B : Type} (l : List (A ⊕ B)) : List B := l.filterMap Sum.getRight?

/-! ## Proofs -/

open Spec

theorem Interleaves.append_left {A : Type} {as bs cs : List A} (l : List A)
    (h : Interleaves as bs cs) : Interleaves (l ++ as) bs (l ++ cs) := by
  induction l with
  | nil => exact h
  | cons x l ih => exact .left _ _ _ _ ih

theorem Interleaves.append_right {A : Type} {as bs cs : List A} (l : List A)
    (h : Interleaves as bs cs) : Interleaves as (l ++ bs) (l ++ cs) := by
  induction l with
  | nil => exact h
  | cons x l ih => exact .right _ _ _ _ ih

/-- The call makes `k` draws and depends on no others. -/
def CallDraws (m : Mech) (env : Env) (ses : Session m.S) (op : Op) (k : Nat) : Prop :=
  ∀ rng, (∀ i < k, rng i = ses.rng i) →
    Session.perform m env { ses with rng := rng } op =
      ((ses.perform m env op).1, { (ses.perform m env op).2 with rng := fun i => rng (i + k) })

theorem Draws.exec {m : M S α} (h : Draws m) (ses : Session S) (sched : List WResp) :
    ∃ k, ∀ rng, (∀ i < k, rng i = ses.rng i) →
      Session.exec { ses with rng := rng } m sched =
        ((ses.exec m sched).1, { (ses.exec m sched).2 with rng := fun i => rng (i + k) }) := by
  obtain ⟨k, hk⟩ := h ses.st ⟨⟨[], sched⟩, ses.rng, ses.slot, ses.log⟩
  refine ⟨k, fun rng h => ?_⟩
  have := hk rng h
  unfold Session.exec
  simp only at this ⊢
  rw [this]

theorem builtin_callDraws {deps : Deps} {st : Started}
    (h : Spec.BuiltinServer deps st ∨ Spec.BuiltinClient deps st) (env : Env)
    (ses : Session st.mech.S) (op : Op) : ∃ k, CallDraws st.mech env ses op k := by
  obtain ⟨h1, h2, h3⟩ := builtin_code h env
  have hstep : ∀ c : Call, ∃ k, ∀ rng, (∀ i < k, rng i = ses.rng i) →
      Session.step st.mech env { ses with rng := rng } c =
        ((ses.step st.mech env c).1,
          { (ses.step st.mech env c).2 with rng := fun i => rng (i + k) }) :=
    fun c => (h1 c.input).draws.exec ses c.sched
  cases op with
  | step c =>
    obtain ⟨k, hk⟩ := hstep c
    exact ⟨k, fun rng h => by simp only [Session.perform, hk rng h]⟩
  | encode i sched =>
    obtain ⟨k, hk⟩ := (h2 i).draws.exec ses sched
    exact ⟨k, fun rng h => by simp only [Session.perform, Session.encode, hk rng h]⟩
  | decode i sched =>
    obtain ⟨k, hk⟩ := (h3 i).draws.exec ses sched
    exact ⟨k, fun rng h => by simp only [Session.perform, Session.decode, hk rng h]⟩
  | validation => exact ⟨0, fun rng h => rfl⟩
  | step64 c =>
    unfold CallDraws Session.perform
    dsimp only
    unfold Session.step64
    cases hc : c.input with
    | none =>
      obtain ⟨k, hk⟩ := hstep c
      refine ⟨k, fun rng h => ?_⟩
      simp only [hk rng h]
    | some t =>
      dsimp only
      cases Base64.decode t with
      | none => exact ⟨0, fun rng h => rfl⟩
      | some b =>
        obtain ⟨k, hk⟩ := hstep { c with input := some b }
        refine ⟨k, fun rng h => ?_⟩
        simp only [hk rng h]

/-- The general form, for any two mechanisms with that property. -/
theorem interleaving {m₁ m₂ : Mech} {e₁ e₂ : Env}
    (h1 : ∀ ses op, ∃ k, CallDraws m₁ e₁ ses op k) (h2 : ∀ ses op, ∃ k, CallDraws m₂ e₂ ses op k)
    (p : Pair m₁.S m₂.S) (ops : List (Op ⊕ Op)) :
    ∃ n das dbs, Interleaves das dbs ((List.range n).map p.rng) ∧
      (p.performAll m₁ m₂ e₁ e₂ ops).2.rng = (fun i => p.rng (i + n)) ∧
      (∀ rng, StartsWith rng das →
        Session.performAll m₁ e₁ { p.a with rng := rng } (lefts ops) =
          (lefts (p.performAll m₁ m₂ e₁ e₂ ops).1,
            { (p.performAll m₁ m₂ e₁ e₂ ops).2.a with rng := fun i => rng (i + das.length) })) ∧
      (∀ rng, StartsWith rng dbs →
        Session.performAll m₂ e₂ { p.b with rng := rng } (rights ops) =
          (rights (p.performAll m₁ m₂ e₁ e₂ ops).1,
            { (p.performAll m₁ m₂ e₁ e₂ ops).2.b with rng := fun i => rng (i + dbs.length) })) := by
  have hsplit : ∀ (rng : Nat → Nat) k n, (List.range (k + n)).map rng =
      (List.range k).map rng ++ (List.range n).map (fun i => rng (i + k)) := by
    intro rng k n
    rw [List.range_add, List.map_append, List.map_map]
    congr 1
    exact List.map_congr_left fun i _ => by simp [Nat.add_comm]
  have hstart : ∀ (rng rng' : Nat → Nat) k ds, StartsWith rng ((List.range k).map rng' ++ ds) →
      (∀ i < k, rng i = rng' i) ∧ StartsWith (fun i => rng (i + k)) ds := by
    intro rng rng' k ds h
    constructor
    · intro i hi
      rw [h i (by simp; omega)]
      rw [List.getElem_append_left (by simpa using hi)]
      simp
    · intro i hi
      show rng (i + k) = _
      rw [h (i + k) (by simp; omega)]
      rw [List.getElem_append_right (by simp)]
      simp
  induction ops generalizing p with
  | nil => exact ⟨0, [], [], .nil, rfl, fun _ _ => rfl, fun _ _ => rfl⟩
  | cons op ops ih =>
    cases op with
    | inl op =>
      obtain ⟨k, hk⟩ := h1 { p.a with rng := p.rng } op
      have hr := congrArg (fun x => x.2.rng) (hk p.rng fun _ _ => rfl)
      simp only at hr
      rcases hx : Session.perform m₁ e₁ { p.a with rng := p.rng } op with ⟨r, x⟩
      rw [hx] at hr
      simp only at hr
      have hp : p.perform m₁ m₂ e₁ e₂ (.inl op) = (.inl r, { p with a := x, rng := x.rng }) := by
        simp only [Pair.perform, hx]
      obtain ⟨q, hq, hqa, hqb, hqr⟩ : ∃ q : Pair m₁.S m₂.S, q = { p with a := x, rng := x.rng } ∧
          q.a = x ∧ q.b = p.b ∧ q.rng = fun i => p.rng (i + k) := ⟨_, rfl, rfl, rfl, hr⟩
      rw [← hq] at hp
      obtain ⟨n, das, dbs, h3, h4, h5, h6⟩ := ih q
      rw [hqr] at h3
      have hall : p.performAll m₁ m₂ e₁ e₂ (.inl op :: ops) =
          (.inl r :: (q.performAll m₁ m₂ e₁ e₂ ops).1, (q.performAll m₁ m₂ e₁ e₂ ops).2) := by
        simp only [Pair.performAll, hp]
      have hlen : ∀ rng : Nat → Nat,
          (fun i => rng (i + ((List.range k).map p.rng ++ das).length)) =
            fun i => (fun i => rng (i + k)) (i + das.length) := by
        intro rng
        funext i
        simp only [List.length_append, List.length_map, List.length_range]
        congr 1
        omega
      refine ⟨k + n, (List.range k).map p.rng ++ das, dbs, ?_, ?_, ?_, ?_⟩
      · rw [hsplit]; exact Interleaves.append_left _ h3
      · rw [hall, h4, hqr]
        funext i
        simp only
        congr 1
        omega
      · intro rng hrng
        obtain ⟨h7, h8⟩ := hstart _ _ _ _ hrng
        have h9 := hk rng h7
        rw [hx] at h9
        have h10 := h5 _ h8
        rw [hqa] at h10
        have h11 : Session.perform m₁ e₁ { p.a with rng := rng } op =
            (r, { x with rng := fun i => rng (i + k) }) := h9
        show Session.performAll m₁ e₁ { p.a with rng := rng } (op :: lefts ops) = _
        simp only [Session.performAll, h11, h10, hall, hlen]
        congr 2
      · intro rng hrng
        have h7 := h6 rng hrng
        rw [hqb] at h7
        rw [hall]
        exact h7
    | inr op =>
      obtain ⟨k, hk⟩ := h2 { p.b with rng := p.rng } op
      have hr := congrArg (fun x => x.2.rng) (hk p.rng fun _ _ => rfl)
      simp only at hr
      rcases hx : Session.perform m₂ e₂ { p.b with rng := p.rng } op with ⟨r, x⟩
      rw [hx] at hr
      simp only at hr
      have hp : p.perform m₁ m₂ e₁ e₂ (.inr op) = (.inr r, { p with b := x, rng := x.rng }) := by
        simp only [Pair.perform, hx]
      obtain ⟨q, hq, hqb, hqa, hqr⟩ : ∃ q : Pair m₁.S m₂.S, q = { p with b := x, rng := x.rng } ∧
          q.b = x ∧ q.a = p.a ∧ q.rng = fun i => p.rng (i + k) := ⟨_, rfl, rfl, rfl, hr⟩
      rw [← hq] at hp
      obtain ⟨n, das, dbs, h3, h4, h5, h6⟩ := ih q
      rw [hqr] at h3
      have hall : p.performAll m₁ m₂ e₁ e₂ (.inr op :: ops) =
          (.inr r :: (q.performAll m₁ m₂ e₁ e₂ ops).1, (q.performAll m₁ m₂ e₁ e₂ ops).2) := by
        simp only [Pair.performAll, hp]
      have hlen : ∀ rng : Nat → Nat,
          (fun i => rng (i + ((List.range k).map p.rng ++ dbs).length)) =
            fun i => (fun i => rng (i + k)) (i + dbs.length) := by
        intro rng
        funext i
        simp only [List.length_append, List.length_map, List.length_range]
        congr 1
        omega
      refine ⟨k + n, das, (List.range k).map p.rng ++ dbs, ?_, ?_, ?_, ?_⟩
      · rw [hsplit]; exact Interleaves.append_right _ h3
      · rw [hall, h4, hqr]
        funext i
        simp only
        congr 1
        omega
      · intro rng hrng
        have h7 := h5 rng hrng
        rw [hqa] at h7
        rw [hall]
        exact h7
      · intro rng hrng
        obtain ⟨h7, h8⟩ := hstart _ _ _ _ hrng
        have h9 := hk rng h7
        rw [hx] at h9
        have h10 := h6 _ h8
        rw [hqb] at h10
        have h11 : Session.perform m₂ e₂ { p.b with rng := rng } op =
            (r, { x with rng := fun i => rng (i + k) }) := h9
        show Session.performAll m₂ e₂ { p.b with rng := rng } (op :: rights ops) = _
        simp only [Session.performAll, h11, h10, hall, hlen]
        congr 2

/-- C47: two sessions of built-in mechanisms, called in any order, drawing from one random number
generator. The numbers drawn are split between them; each session, run alone on a stream beginning
with the numbers it got, gives the same answers and ends in the same state. -/
theorem C47_interleaving {deps₁ deps₂ : Deps} {st₁ st₂ : Started}
    (h1 : BuiltinServer deps₁ st₁ ∨ BuiltinClient deps₁ st₁)
    (h2 : BuiltinServer deps₂ st₂ ∨ BuiltinClient deps₂ st₂) (e₁ e₂ : Env)
    (p : Pair st₁.mech.S st₂.mech.S) (ops : List (Op ⊕ Op)) :
    ∃ n das dbs, Interleaves das dbs ((List.range n).map p.rng) ∧
      (∀ rng, StartsWith rng das →
        Session.performAll st₁.mech e₁ { p.a with rng := rng } (lefts ops) =
          (lefts (p.performAll st₁.mech st₂.mech e₁ e₂ ops).1,
            { (p.performAll st₁.mech st₂.mech e₁ e₂ ops).2.a with
              rng := fun i => rng (i + das.length) })) ∧
      (∀ rng, StartsWith rng dbs →
        Session.performAll st₂.mech e₂ { p.b with rng := rng } (rights ops) =
          (rights (p.performAll st₁.mech st₂.mech e₁ e₂ ops).1,
            { (p.performAll st₁.mech st₂.mech e₁ e₂ ops).2.b with
              rng := fun i => rng (i + dbs.length) })) := by
  obtain ⟨n, das, dbs, h3, -, h4, h5⟩ := interleaving (builtin_callDraws h1 e₁)
    (builtin_callDraws h2 e₂) p ops
  exact ⟨n, das, dbs, h3, h4, h5⟩

/-- Two SCRAM clients taking their first steps in turn: the first gets the first nonce, the second
the next. -/
def interleavingPair : Pair Scram.CS Scram.CS :=
  ⟨{ st := Scram.clientNew true, rng := fun _ => 0 }, { st := Scram.clientNew true, rng := fun _ => 0 },
    fun i => i % 7⟩

def interleavingRun : List (Answer ⊕ Answer) × Pair Scram.CS Scram.CS :=
  interleavingPair.performAll (Scram.client toyDigest) (Scram.client toyDigest)
    (exampleEnv [⟨.authId, c!"ann"⟩]) (exampleEnv [⟨.authId, c!"bob"⟩])
    [.inr (.step ⟨none, []⟩), .inl (.step ⟨none, []⟩), .inl .validation]

example : interleavingRun.1.length = 3 ∧ interleavingRun.2.rng 0 = 48 % 7 ∧
    (lefts interleavingRun.1).length = 2 := ⟨rfl, rfl, rfl⟩

example : BuiltinClient toyDeps ⟨Scram.client toyDigest, Scram.clientNew true⟩ :=
  ⟨.scramClient .sha1 true, rfl⟩

end Rsasl

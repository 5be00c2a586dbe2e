/-
What mechanisms may do at each of their turns, and what that makes of conversations.
-/
import Verif.Spec.Turns

namespace Rsasl

open Spec

/-- The results a step may have. -/
structure Turn where
  running : Bool := false
  yes : Bool := false
  no : Bool := false
  /-- `Running` comes with bytes -/
  loud : Bool := false
  /-- `Finished(No)` needs empty input -/
  empty : Bool := false

/-- From the state `s` on, as long as they are `Running`, the steps have the results of the list. -/
def Plays (m : Mech) (env : Env) : List Turn → m.S → Prop
  | [], _ => True
  | t :: ts, s => ∀ input (w : World), w.wr.out = [] → ∀ st, (m.step env input s w).1 = .ok st →
    match st with
    | .running => t.running = true ∧ (t.loud = true → (m.step env input s w).2.2.wr.out ≠ []) ∧
        Plays m env ts (m.step env input s w).2.1
    | .finished .yes => t.yes = true
    | .finished .no => t.no = true ∧ (t.empty = true → ∀ i, input = some i → i = [])

/-- The ways a conversation of two such mechanisms can end within `n` turns; `said`: the input is not
empty. -/
def ends (who : Side) : Nat → List Turn → List Turn → Bool → Bool → List Ending
  | 0, _, _, _, _ => [.unfinished]
  | _ + 1, [], _, _, _ =>
    [.unfinished, .failed .client, .failed .server, .both, .waiting .client, .waiting .server,
      .stray .client, .stray .server]
  | n + 1, t :: ts, us, said, done =>
    .failed who ::
      ((if t.running then
          if done then [.stray who] else ends (other who) n us ts t.loud false
        else []) ++
       (if t.yes then if done then [.stray who] else ends (other who) n us ts false true else []) ++
       (if t.no && !(t.empty && said) then
          if done then [.both] else [.waiting (other who)] else []))

theorem takeTurns_ends (ws : List (List WResp)) : ∀ (who : Side) (input : Option Bytes) (a b : Party)
    (said done : Bool) (ts us : List Turn), Plays a.mech a.env ts a.ses.st →
    (done = false → Plays b.mech b.env us b.ses.st) →
    (said = true → ∃ i, input = some i ∧ i ≠ []) →
    takeTurns who ws input a b done ∈ ends who ws.length ts us said done := by
  induction ws with
  | nil => intro who input a b said done ts us _ _ _; exact List.mem_singleton.2 rfl
  | cons w ws ih =>
    intro who input a b said done ts us ha hb hs
    cases ts with
    | nil =>
      show _ ∈ [Ending.unfinished, .failed .client, .failed .server, .both, .waiting .client,
        .waiting .server, .stray .client, .stray .server]
      generalize takeTurns who (w :: ws) input a b done = x
      rcases x with _ | (_ | _) | _ | (_ | _) | (_ | _) <;> decide
    | cons t ts =>
      have ha := ha input { wr := ⟨[], w⟩, rng := a.ses.rng, slot := a.ses.slot, log := a.ses.log } rfl
      show takeTurns who (w :: ws) input a b done ∈ Ending.failed who :: _
      unfold takeTurns
      have hr : (a.step ⟨input, w⟩).1.res = (a.mech.step a.env input a.ses.st
        { wr := ⟨[], w⟩, rng := a.ses.rng, slot := a.ses.slot, log := a.ses.log }).1 := rfl
      dsimp only
      rw [hr]
      rcases h : (a.mech.step a.env input a.ses.st
        { wr := ⟨[], w⟩, rng := a.ses.rng, slot := a.ses.slot, log := a.ses.log }).1 with
        (_ | (_ | _)) | e | _
      · obtain ⟨h1, h2, h3⟩ := ha _ h
        rw [if_pos h1]
        refine List.mem_cons_of_mem _ (List.mem_append_left _ (List.mem_append_left _ ?_))
        cases done with
        | true => exact List.mem_singleton.2 rfl
        | false =>
          refine ih (other who) _ b (a.step ⟨input, w⟩).2 t.loud false us ts (hb rfl) (fun _ => h3) ?_
          intro hl
          exact ⟨_, rfl, h2 hl⟩
      · have h1 : t.yes = true := ha _ h
        rw [if_pos h1]
        refine List.mem_cons_of_mem _ (List.mem_append_left _ (List.mem_append_right _ ?_))
        cases done with
        | true => exact List.mem_singleton.2 rfl
        | false =>
          exact ih (other who) _ b (a.step ⟨input, w⟩).2 false true us ts (hb rfl) nofun nofun
      · obtain ⟨h1, h2⟩ := ha _ h
        have h3 : (t.no && !(t.empty && said)) = true := by
          rw [h1]
          cases he : t.empty with
          | false => rfl
          | true =>
            cases said with
            | false => rfl
            | true =>
              obtain ⟨i, hi, hne⟩ := hs rfl
              exact absurd (h2 he i hi) hne
        rw [if_pos h3]
        refine List.mem_cons_of_mem _ (List.mem_append_right _ ?_)
        cases done with
        | true => exact List.mem_singleton.2 rfl
        | false => exact List.mem_singleton.2 rfl
      · exact List.mem_cons_self ..
      · exact List.mem_cons_self ..

end Rsasl

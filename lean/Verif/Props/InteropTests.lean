/-
C97: the tests of the interop crate and its server understand each other.
-/
import Verif.Spec.InteropTests
import Verif.Props.Interop
import Verif.Props.EndToEnd
import Verif.Props.Text
import Verif.Props.Contacts

namespace Rsasl

open Spec Interop

/-! ## Dialogues -/

theorem sent_append (a b : List Str) : sent (a ++ b) = sent a ++ sent b := by
  simp [sent, asLines]

theorem sent_cons (l : Str) (b : List Str) : sent (l :: b) = Str.bytes l ++ 10 :: sent b := by
  simp [sent, asLines]

theorem Spec.ReadAsLine.bytes {l : Str} (h : ReadAsLine l) : (10 : UInt8) ∉ Str.bytes l := by
  rw [mem_bytes_ascii (by decide)]
  exact h.1

/-- The first line of a text can be read off. -/
theorem first_line {l l' : Bytes} {r r' : Bytes} (h : (10 : UInt8) ∉ l) (h' : (10 : UInt8) ∉ l')
    (e : l ++ 10 :: r = l' ++ 10 :: r') : l = l' ∧ r = r' := by
  induction l generalizing l' with
  | nil =>
    cases l' with
    | nil => exact ⟨rfl, (List.cons.inj e).2⟩
    | cons x l' => exact absurd (List.cons.inj e).1 (by rintro rfl; simp at h')
  | cons x l ih =>
    cases l' with
    | nil => exact absurd (List.cons.inj e).1 (by rintro rfl; simp at h)
    | cons y l' =>
      obtain ⟨rfl, e'⟩ := List.cons.inj e
      obtain ⟨rfl, hr⟩ := ih (l' := l') (fun hm => h (by simp [hm])) (fun hm => h' (by simp [hm])) e'
      exact ⟨rfl, hr⟩

/-- Of two sequences of lines with a common continuation one begins the other. -/
theorem sent_prefix {a b : List Str} {r : Bytes} (ha : ∀ l ∈ a, ReadAsLine l) (hb : ∀ l ∈ b, ReadAsLine l)
    (h : sent a <+: r) (h' : sent b <+: r) : a <+: b ∨ b <+: a := by
  induction a generalizing b r with
  | nil => exact .inl (List.nil_prefix)
  | cons x a ih =>
    cases b with
    | nil => exact .inr (List.nil_prefix)
    | cons y b =>
      obtain ⟨t, rfl⟩ := h
      obtain ⟨t', e⟩ := h'
      rw [sent_cons, sent_cons, List.append_assoc, List.append_assoc, List.cons_append, List.cons_append] at e
      obtain ⟨e1, e2⟩ := first_line (Spec.ReadAsLine.bytes (hb y (by simp))) (Spec.ReadAsLine.bytes (ha x (by simp))) e
      obtain rfl := Str.bytes_injective e1
      rcases ih (fun l hl => ha l (by simp [hl])) (fun l hl => hb l (by simp [hl]))
        (List.prefix_append (sent a) t) ⟨t', e2⟩ with h | h
      · exact .inl (List.cons_prefix_cons.2 ⟨rfl, h⟩)
      · exact .inr (List.cons_prefix_cons.2 ⟨rfl, h⟩)

/-- A program that only adds to what it has written. -/
def Appends (f : List Line → Bytes) : Prop := ∀ ls more, f ls <+: f (ls ++ more)

theorem Appends.of_prefix {f : List Line → Bytes} (h : Appends f) {a b : List Str} (hab : a <+: b) :
    f (a.map some) <+: f (b.map some) := by
  obtain ⟨t, rfl⟩ := hab
  rw [List.map_append]
  exact h _ _

theorem Spec.Dialogue.lines {F G : List Line → Bytes} {ss cs : List Str} (h : Dialogue F G ss cs) :
    (∀ l ∈ ss, ReadAsLine l) ∧ ∀ l ∈ cs, ReadAsLine l := by
  induction h with
  | start => exact ⟨nofun, nofun⟩
  | server _ hl _ ih =>
    refine ⟨fun l h => ?_, ih.2⟩
    rcases List.mem_append.1 h with h | h
    · exact ih.1 l h
    · rwa [List.mem_singleton.1 h]
  | client _ hl _ ih =>
    refine ⟨ih.1, fun l h => ?_⟩
    rcases List.mem_append.1 h with h | h
    · exact ih.2 l h
    · rwa [List.mem_singleton.1 h]

theorem Spec.Dialogue.said {F G : List Line → Bytes} (hF : Appends F) (hG : Appends G) {ss cs : List Str}
    (h : Dialogue F G ss cs) : sent ss <+: F (cs.map some) ∧ sent cs <+: G (ss.map some) := by
  induction h with
  | start => exact ⟨List.nil_prefix, List.nil_prefix⟩
  | server _ _ hs ih => exact ⟨hs, ih.2.trans (hG.of_prefix (List.prefix_append _ _))⟩
  | client _ _ hs ih => exact ⟨ih.1.trans (hF.of_prefix (List.prefix_append _ _)), hs⟩

/-- C97: it does not matter in which order the two programs run: what they say in one order they have
said, or go on to say, in every other. -/
theorem C97_order {F G : List Line → Bytes} (hF : Appends F) (hG : Appends G) {ss cs ss' cs' : List Str}
    (h : Dialogue F G ss cs) (h' : Dialogue F G ss' cs') (hs : Stuck F G ss' cs') :
    ss <+: ss' ∧ cs <+: cs' := by
  induction h with
  | start => exact ⟨List.nil_prefix, List.nil_prefix⟩
  | @server ss cs l hd hl hsaid ih =>
    obtain ⟨h1, h2⟩ := ih
    refine ⟨?_, h2⟩
    have hp := hsaid.trans (hF.of_prefix h2)
    rcases sent_prefix (Dialogue.server hd hl hsaid).lines.1 h'.lines.1 hp (h'.said hF hG).1 with h | h
    · exact h
    · by_cases he : ss' = ss ++ [l]
      · exact he ▸ List.prefix_refl _
      have hss : ss' = ss := by
        obtain ⟨t, ht⟩ := h
        obtain ⟨u, rfl⟩ := h1
        rw [List.append_assoc, List.append_cancel_left_eq] at ht
        cases u with
        | nil => simp
        | cons x u =>
          obtain ⟨rfl, hu⟩ := List.cons.inj ht
          obtain ⟨rfl, rfl⟩ := List.append_eq_nil_iff.1 hu
          exact absurd rfl he
      subst hss
      have := (hs _ _ (.server h' hl hp) (List.prefix_append _ _) (List.prefix_refl _)).1
      exact absurd (congrArg List.length this) (by simp)
  | @client ss cs l hd hl hsaid ih =>
    obtain ⟨h1, h2⟩ := ih
    refine ⟨h1, ?_⟩
    have hp := hsaid.trans (hG.of_prefix h1)
    rcases sent_prefix (Dialogue.client hd hl hsaid).lines.2 h'.lines.2 hp (h'.said hF hG).2 with h | h
    · exact h
    · by_cases he : cs' = cs ++ [l]
      · exact he ▸ List.prefix_refl _
      have hcs : cs' = cs := by
        obtain ⟨t, ht⟩ := h
        obtain ⟨u, rfl⟩ := h2
        rw [List.append_assoc, List.append_cancel_left_eq] at ht
        cases u with
        | nil => simp
        | cons x u =>
          obtain ⟨rfl, hu⟩ := List.cons.inj ht
          obtain ⟨rfl, rfl⟩ := List.append_eq_nil_iff.1 hu
          exact absurd rfl he
      subst hcs
      have := (hs _ _ (.client h' hl hp) (List.prefix_refl _) (List.prefix_append _ _)).2
      exact absurd (congrArg List.length this) (by simp)

/-- Programs that have said what they write have no more to say. -/
theorem stuck_of_said {F G : List Line → Bytes} (hF : Appends F) (hG : Appends G) {ss cs : List Str}
    (h : Dialogue F G ss cs) (hs : F (cs.map some) = sent ss) (hc : G (ss.map some) = sent cs) :
    ∀ {ss' cs'}, Dialogue F G ss' cs' → ss' <+: ss ∧ cs' <+: cs := by
  have short : ∀ {a b : List Str}, (∀ l ∈ a, ReadAsLine l) → (∀ l ∈ b, ReadAsLine l) → sent a <+: sent b →
      a <+: b := by
    intro a b ha hb h
    rcases sent_prefix ha hb h (List.prefix_refl _) with h' | ⟨t, rfl⟩
    · exact h'
    · rw [sent_append] at h
      have hl := h.length_le
      cases t with
      | nil => simp
      | cons x t => rw [List.length_append, sent_cons, List.length_append, List.length_cons] at hl; omega
  intro ss' cs' h'
  induction h' with
  | start => exact ⟨List.nil_prefix, List.nil_prefix⟩
  | server hd hl hsaid ih =>
    refine ⟨short (Dialogue.server hd hl hsaid).lines.1 h.lines.1 ?_, ih.2⟩
    exact hs ▸ hsaid.trans (hF.of_prefix ih.2)
  | client hd hl hsaid ih =>
    refine ⟨ih.1, short (Dialogue.client hd hl hsaid).lines.2 h.lines.2 ?_⟩
    exact hc ▸ hsaid.trans (hG.of_prefix ih.1)

/-- A dialogue can go on as one of the programs that are left does. -/
theorem Spec.Dialogue.after {F G F' G' : List Line → Bytes} {ss0 cs0 ss cs : List Str}
    (h0 : Dialogue F G ss0 cs0) (h : Dialogue F' G' ss cs)
    (hF : ∀ ls, F (cs0.map some ++ ls) = sent ss0 ++ F' ls)
    (hG : ∀ ls, G (ss0.map some ++ ls) = sent cs0 ++ G' ls) :
    Dialogue F G (ss0 ++ ss) (cs0 ++ cs) := by
  induction h with
  | start => simpa using h0
  | server _ hl hs ih =>
    rw [← List.append_assoc]
    refine .server ih hl ?_
    rw [List.append_assoc, sent_append, List.map_append, hF]
    exact List.prefix_append_right_inj _ |>.2 hs
  | client _ hl hs ih =>
    rw [← List.append_assoc]
    refine .client ih hl ?_
    rw [List.append_assoc, sent_append, List.map_append, hG]
    exact List.prefix_append_right_inj _ |>.2 hs

/-! ## The two programs only add to what they have written -/

theorem serveLoop_append (m : Mech) (env : Env) (errText : SessionError → Bytes) (lines : List Line)
    (ses : Session m.S) (input : Option Bytes) (buffer out : Bytes) :
    serveLoop m env errText lines ses input buffer out =
      ⟨out ++ (serveLoop m env errText lines ses input buffer []).out,
        (serveLoop m env errText lines ses input buffer []).res⟩ := by
  induction lines generalizing ses input buffer out with
  | nil =>
    rw [serveLoop_eq, serveLoop_eq (out := [])]
    rcases (ses.step64 m env ⟨input, []⟩).1.res with s | e | _
    · rcases s with _ | _ | _ <;> simp [State.isRunning, State.hasSentMessage]
    · simp
    · simp
  | cons line lines ih =>
    rw [serveLoop_eq, serveLoop_eq (out := [])]
    rcases (ses.step64 m env ⟨input, []⟩).1.res with s | e | _
    · rcases line with _ | line
      · rcases s with _ | _ | _ <;> simp [State.isRunning, State.hasSentMessage]
      · rcases s with _ | _ | _
        · simp only [State.isRunning, State.hasSentMessage, if_true, List.nil_append]
          rw [ih, ih (out := _ ++ b!"\n")]
          simp
        · simp [State.isRunning, State.hasSentMessage]
        · simp [State.isRunning, State.hasSentMessage]
    · simp
    · simp

theorem serveLoop_appends (m : Mech) (env : Env) (errText : SessionError → Bytes) (ses : Session m.S)
    (input : Option Bytes) (buffer out : Bytes) :
    Appends fun lines => (serveLoop m env errText lines ses input buffer out).out := by
  intro lines more
  induction lines generalizing ses input buffer out with
  | nil =>
    simp only [List.nil_append]
    rw [serveLoop_eq, serveLoop_eq (lines := more)]
    rcases (ses.step64 m env ⟨input, []⟩).1.res with s | e | _
    · simp only
      split
      rotate_left
      · exact List.prefix_refl _
      · skip
        rcases more with _ | ⟨_ | line, more⟩
        · exact List.prefix_refl _
        · exact List.prefix_refl _
        · simp only
          rw [serveLoop_append]
          exact List.prefix_append _ _
    · exact List.prefix_refl _
    · exact List.prefix_refl _
  | cons line lines ih =>
    simp only [List.cons_append]
    rw [serveLoop_eq, serveLoop_eq (lines := line :: (lines ++ more))]
    rcases (ses.step64 m env ⟨input, []⟩).1.res with s | e | _
    · simp only
      split
      rotate_left
      · exact List.prefix_refl _
      · rcases line with _ | line
        · exact List.prefix_refl _
        · exact ih _ _ _ _
    · exact List.prefix_refl _
    · exact List.prefix_refl _

theorem handleClient_appends (deps : Deps) (cfg : Config) (vars : Vars) (errText : SessionError → Bytes)
    (rng : Nat → Nat) : Appends fun lines => (handleClient deps cfg vars errText rng lines).out := by
  intro lines more
  rcases lines with _ | ⟨_ | hello, lines⟩
  · have : ∀ ls, offerLine (cfg.getAvailable.map (·.name)) <+:
        (handleClient deps cfg vars errText rng ls).out := by
      intro ls
      unfold handleClient
      simp only
      repeat' split
      all_goals first
        | exact List.prefix_refl _
        | exact List.prefix_append _ _
        | (rw [serveLoop_append]; exact List.prefix_append _ _)
        | (rw [serveLoop_append, List.append_assoc]; exact List.prefix_append _ _)
    exact this _
  · exact List.prefix_refl _
  · simp only [List.cons_append]
    unfold handleClient
    simp only
    split
    · exact List.prefix_refl _
    split
    · exact List.prefix_refl _
    split
    · exact List.prefix_refl _
    · exact List.prefix_refl _
    split
    · exact List.prefix_refl _
    split
    · exact serveLoop_appends _ _ _ _ _ _ _ _ _
    split
    · exact serveLoop_appends _ _ _ _ _ _ _ _ _
    · rcases lines with _ | ⟨_ | line, lines⟩
      · simp only [List.nil_append]
        rcases more with _ | ⟨_ | line, more⟩
        · exact List.prefix_refl _
        · exact List.prefix_refl _
        · simp only
          rw [serveLoop_append]
          exact List.prefix_append _ _
      · exact List.prefix_refl _
      · exact serveLoop_appends _ _ _ _ _ _ _ _ _

theorem testLoop_append (m : Mech) (env : Env) (lines : List Line) (ses : Session m.S) (state : State)
    (out : Bytes) :
    testLoop m env lines ses state out =
      ⟨out ++ (testLoop m env lines ses state []).sent, (testLoop m env lines ses state []).res⟩ := by
  induction lines generalizing ses state out with
  | nil => simp [testLoop]
  | cons line lines ih =>
    rcases line with _ | line
    · simp [testLoop]
    · unfold testLoop
      split
      · rcases ses.step64 m env ⟨some (Str.bytes line), []⟩ with ⟨⟨s | e | _, o⟩, ses'⟩
        · simp only [List.nil_append]
          split
          · rw [ih, ih (out := if s.hasSentMessage = true then o ++ b!"\n" else b!"-\n")]
            simp
          · simp
        · simp
        · simp
      · simp

theorem testLoop_appends (m : Mech) (env : Env) (ses : Session m.S) (state : State) (out : Bytes) :
    Appends fun lines => (testLoop m env lines ses state out).sent := by
  intro lines more
  induction lines generalizing ses state out with
  | nil =>
    simp only [List.nil_append]
    rw [testLoop_append (lines := more)]
    simp [testLoop]
  | cons line lines ih =>
    simp only [List.cons_append]
    rcases line with _ | line
    · simp [testLoop]
    · unfold testLoop
      split
      · rcases ses.step64 m env ⟨some (Str.bytes line), []⟩ with ⟨⟨s | e | _, o⟩, ses'⟩
        · simp only
          split
          · exact ih _ _ _
          · exact List.prefix_refl _
        · exact List.prefix_refl _
        · exact List.prefix_refl _
      · exact List.prefix_refl _

theorem testClient_appends (deps : Deps) (cfg : Config) (env : Mechanism → Env) (rng : Nat → Nat)
    (mechanism : Bytes) : Appends fun lines => (testClient deps cfg env rng mechanism lines).sent := by
  intro lines more
  rcases lines with _ | ⟨_ | mechs, lines⟩
  · exact List.nil_prefix
  · exact List.prefix_refl _
  · simp only [List.cons_append]
    simp only [testClient]
    repeat' split
    all_goals first
      | exact List.prefix_refl _
      | exact testLoop_appends _ _ _ _ _ _ _

/-! ## Texts -/

theorem encode_ascii {x : UInt8} {b : Bytes} (h : x ∈ Base64.encode b) :
    x.toNat < 128 ∧ Char.ofNat x.toNat ∉ whiteSpace := by
  rcases Base64.mem_encode h with ⟨n, hn, rfl⟩ | rfl
  · have : ∀ n : Fin 64, (Base64.sym n.val).toNat < 128 ∧
        Char.ofNat (Base64.sym n.val).toNat ∉ whiteSpace := by decide +kernel
    exact this ⟨n, hn⟩
  · decide +kernel

/-- The text of a message. -/
def text (b : Bytes) : Str := Scram.asciiStr (Base64.encode b)

theorem text_bytes (b : Bytes) : Str.bytes (text b) = Base64.encode b :=
  bytes_ascii fun _ h => (encode_ascii h).1

theorem text_space (b : Bytes) : ∀ c ∈ text b, c ∉ whiteSpace := by
  intro c h
  obtain ⟨x, hx, rfl⟩ := List.mem_map.1 h
  exact (encode_ascii hx).2

theorem readAsLine_of_space {s : Str} (h : ∀ c ∈ s, c ∉ whiteSpace) : ReadAsLine s :=
  ⟨fun hm => h _ hm (by decide), fun hl => h _ (List.mem_of_getLast? hl) (by decide)⟩

theorem text_line (b : Bytes) : ReadAsLine (text b) := readAsLine_of_space (text_space b)

theorem text_utf8 (b : Bytes) (s : Str) : fromUtf8 (Base64.encode b ++ Str.bytes s) = some (text b ++ s) := by
  rw [← text_bytes, ← Str.bytes_append, fromUtf8_bytes]

/-! ## Two sessions and the lines between them -/

/-- The server while it waits for a line. -/
def serverWaits (m : Mech) (env : Env) (errText : SessionError → Bytes) (ses : Session m.S) :
    List Line → Run
  | some line :: lines => serveLoop m env errText lines ses (some (Str.bytes line)) [] []
  | _ => ⟨[], .failed⟩

section
variable {mc ms : Mech} {ce se : Env} {errText : SessionError → Bytes}

theorem serve_running {s s' : Session ms.S} {input : Option Bytes} {o : Bytes} (lines : List Line)
    (h : s.step ms se ⟨input, []⟩ = (⟨.ok .running, o⟩, s')) :
    serveLoop ms se errText lines s (input.map Base64.encode) [] [] =
      ⟨sent [text o] ++ (serverWaits ms se errText s' lines).out,
        (serverWaits ms se errText s' lines).res⟩ := by
  have e : s.step64 ms se ⟨input.map Base64.encode, []⟩ = (⟨.ok .running, Base64.encode o⟩, s') := by
    cases input with
    | none => rw [Option.map_none, step64_none, h]
    | some b => rw [Option.map_some, step64_encoded, h]
  rw [serveLoop_eq, e]
  simp only [State.isRunning, State.hasSentMessage, if_true, List.nil_append]
  have hs : Base64.encode o ++ b!"\n" = sent [text o] := by simp [sent, asLines, text_bytes]
  rcases lines with _ | ⟨_ | line, lines⟩
  · simp [serverWaits, hs]
  · simp [serverWaits, hs]
  · simp only [serverWaits]
    rw [serveLoop_append, hs]

theorem serve_yes {s s' : Session ms.S} {input : Option Bytes} {o : Bytes} (lines : List Line)
    {t : Str} (h : s.step ms se ⟨input, []⟩ = (⟨.ok (.finished .yes), o⟩, s'))
    (hslot : s'.slot = some (Str.bytes t)) :
    serveLoop ms se errText lines s (input.map Base64.encode) [] [] =
      ⟨sent [text o, c!"OK " ++ t], .ok⟩ := by
  have e : s.step64 ms se ⟨input.map Base64.encode, []⟩ = (⟨.ok (.finished .yes), Base64.encode o⟩, s') := by
    cases input with
    | none => rw [Option.map_none, step64_none, h]
    | some b => rw [Option.map_some, step64_encoded, h]
  have hok : Str.bytes ('O' :: 'K' :: ' ' :: t) = 79 :: 75 :: 32 :: Str.bytes t := by
    show Str.bytes (c!"OK " ++ t) = _
    rw [Str.bytes_append]
    rfl
  rw [serveLoop_eq, e]
  simp [State.isRunning, State.hasSentMessage, hslot, verdictText, sent, asLines, text_bytes, hok]

theorem serve_no {s s' : Session ms.S} {input : Option Bytes} {o : Bytes} (lines : List Line)
    {t : Str} (h : s.step ms se ⟨input, []⟩ = (⟨.ok (.finished .no), o⟩, s'))
    (hslot : s'.slot = some (Str.bytes t)) :
    serveLoop ms se errText lines s (input.map Base64.encode) [] [] = ⟨sent [c!"OK " ++ t], .ok⟩ := by
  have e : s.step64 ms se ⟨input.map Base64.encode, []⟩ = (⟨.ok (.finished .no), Base64.encode o⟩, s') := by
    cases input with
    | none => rw [Option.map_none, step64_none, h]
    | some b => rw [Option.map_some, step64_encoded, h]
  have hok : Str.bytes ('O' :: 'K' :: ' ' :: t) = 79 :: 75 :: 32 :: Str.bytes t := by
    show Str.bytes (c!"OK " ++ t) = _
    rw [Str.bytes_append]
    rfl
  rw [serveLoop_eq, e]
  simp [State.isRunning, State.hasSentMessage, hslot, verdictText, sent, asLines, hok]

theorem test_sent {c c' : Session mc.S} {b o : Bytes} {state : State} (lines : List Line)
    (h : c.step mc ce ⟨some b, []⟩ = (⟨.ok state, o⟩, c')) (hsent : state.hasSentMessage = true) :
    testLoop mc ce (some (text b) :: lines) c .running [] =
      ⟨sent [text o] ++ (testLoop mc ce lines c' state []).sent, (testLoop mc ce lines c' state []).res⟩ := by
  have hu : fromUtf8 (Base64.encode o ++ b!"\n") = some (text o ++ c!"\n") := text_utf8 o (c!"\n")
  have hs : Base64.encode o ++ b!"\n" = sent [text o] := by simp [sent, asLines, text_bytes]
  conv => lhs; unfold testLoop
  rw [text_bytes, step64_encoded, h]
  simp only [State.isRunning, hsent, if_true, hu]
  rw [List.nil_append, testLoop_append, hs]

theorem test_mute {c c' : Session mc.S} {b o : Bytes} (lines : List Line)
    (h : c.step mc ce ⟨some b, []⟩ = (⟨.ok (.finished .no), o⟩, c')) :
    testLoop mc ce (some (text b) :: lines) c .running [] =
      ⟨sent [c!"-"] ++ (testLoop mc ce lines c' (.finished .no) []).sent,
        (testLoop mc ce lines c' (.finished .no) []).res⟩ := by
  have hu : fromUtf8 (b!"-\n") = some (c!"-\n") := by decide +kernel
  have hs : b!"-\n" = sent [c!"-"] := by decide +kernel
  conv => lhs; unfold testLoop
  rw [text_bytes, step64_encoded, h]
  simp only [State.isRunning, State.hasSentMessage, Bool.false_eq_true, if_true, if_false, hu]
  rw [List.nil_append, testLoop_append, hs]

theorem test_outcome (c : Session mc.S) (sent : MessageSent) (l : Str) :
    testLoop mc ce [some l] c (.finished sent) [] = ⟨[], .outcome l⟩ := rfl

theorem ok_line {t : Str} (h : ReadAsLine t) : ReadAsLine (c!"OK " ++ t) := by
  refine ⟨?_, ?_⟩
  · simpa using h.1
  · cases t with
    | nil => decide
    | cons x t =>
      rw [List.getLast?_append]
      have := h.2
      cases hx : (x :: t).getLast? with
      | none => simp at hx
      | some y => rw [hx] at this; exact this

theorem dash_line : ReadAsLine (c!"-") := ⟨by decide, by decide⟩

theorem talk_step {a a' b : Party} {r : Reply State} {w : List WResp} {ws : List (List WResp)}
    {input : Option Bytes} (h : a.step ⟨input, w⟩ = (r, a')) :
    talk (w :: ws) input a b = (r :: (talk ws (some r.out) b a').1, (talk ws (some r.out) b a').2.2,
      (talk ws (some r.out) b a').2.1) := by
  rw [talk, h]

/-- The last line is still to come, and the test waits for it. -/
theorem server_last {s s' : Session ms.S} {input : Option Bytes} {o : Bytes} {t : Str} (ht : ReadAsLine t)
    (h : s.step ms se ⟨input, []⟩ = (⟨.ok (.finished .no), o⟩, s'))
    (hslot : s'.slot = some (Str.bytes t)) (c : Session mc.S) :
    Concludes (fun ls => serveLoop ms se errText ls s (input.map Base64.encode) [] [])
      (fun ls => testLoop mc ce ls c (.finished .yes) []) [c!"OK " ++ t] [] (c!"OK " ++ t) where
  dialogue := .server .start (ok_line ht) (by
    rw [serve_no _ h hslot]; exact List.prefix_refl _)
  server := serve_no _ h hslot
  test := rfl

/-- The server has ended; the test gets its last message and the result. -/
theorem client_last {c c' : Session mc.S} {b o : Bytes} {t : Str} (ht : ReadAsLine t)
    (h : c.step mc ce ⟨some b, []⟩ = (⟨.ok (.finished .no), o⟩, c')) :
    Concludes (fun _ => ⟨sent [text b, c!"OK " ++ t], .ok⟩)
      (fun ls => testLoop mc ce ls c .running []) [text b, c!"OK " ++ t] [c!"-"] (c!"OK " ++ t) where
  dialogue := by
    refine .client (.server (ss := [text b]) (.server (ss := []) .start (text_line b) ?_) (ok_line ht) ?_) dash_line ?_
    · exact ⟨sent [c!"OK " ++ t], (sent_append [text b] _).symm⟩
    · exact List.prefix_refl _
    · rw [List.map_append, List.map_cons, List.map_nil, List.singleton_append, test_mute _ h]
      exact List.prefix_append _ _
  server := rfl
  test := by
    simp only [List.map_cons, List.map_nil]
    rw [test_mute _ h, test_outcome]
    simp

/-- Where the sessions are connected by the two programs, a conversation of the sessions is one of the
programs. -/
theorem talk_concludes {t : Str} (ht : ReadAsLine t) (n : Nat) :
    (∀ (c : Session mc.S) (s : Session ms.S) (b : Bytes),
      let r := talk (List.replicate (n + 2) []) (some b) ⟨mc, ce, c⟩ ⟨ms, se, s⟩
      r.1.map (·.res) = List.replicate n (.ok .running) ++ [.ok (.finished .yes), .ok (.finished .no)] →
      r.2.2.ses.slot = some (Str.bytes t) →
      ∃ ss cs, Concludes (serverWaits ms se errText s)
        (fun ls => testLoop mc ce (some (text b) :: ls) c .running []) ss cs (c!"OK " ++ t)) ∧
    (∀ (c : Session mc.S) (s : Session ms.S) (input : Option Bytes),
      let r := talk (List.replicate (n + 2) []) input ⟨ms, se, s⟩ ⟨mc, ce, c⟩
      r.1.map (·.res) = List.replicate n (.ok .running) ++ [.ok (.finished .yes), .ok (.finished .no)] →
      r.2.1.ses.slot = some (Str.bytes t) →
      ∃ ss cs, Concludes (fun ls => serveLoop ms se errText ls s (input.map Base64.encode) [] [])
        (fun ls => testLoop mc ce ls c .running []) ss cs (c!"OK " ++ t)) := by
  induction n with
  | zero =>
    constructor
    · intro c s b
      simp only [List.replicate, talk, Party.step]
      rcases hc : c.step mc ce ⟨some b, []⟩ with ⟨⟨rc, o⟩, c'⟩
      rcases hs : s.step ms se ⟨some o, []⟩ with ⟨⟨rs, o'⟩, s'⟩
      simp only [List.map_cons, List.map_nil, List.nil_append, List.cons.injEq, and_true]
      rintro ⟨rfl, rfl⟩ hslot
      have hl := server_last (errText := errText) (mc := mc) (ce := ce) ht hs hslot c'
      refine ⟨[c!"OK " ++ t], [text o], ?_, ?_, ?_⟩
      · refine (Dialogue.client (cs := []) .start (text_line o) ?_).after (ss0 := []) (cs0 := [text o])
          hl.dialogue (fun ls => ?_) (fun ls => ?_) (cs := [])
        · simp only [List.map_nil]
          rw [test_sent _ hc rfl]
          exact List.prefix_append _ _
        · simp only [List.map_cons, List.map_nil, List.cons_append, List.nil_append, serverWaits, text_bytes]
          rfl
        · simp only [List.map_nil, List.nil_append]
          rw [test_sent _ hc rfl]
      · rw [← hl.server]
        simp only [List.map_cons, List.map_nil, serverWaits, text_bytes]
        rfl
      · simp only [List.map_cons, List.map_nil]
        rw [test_sent _ hc rfl, test_outcome]
        simp
    · intro c s input
      simp only [List.replicate, talk, Party.step]
      rcases hs : s.step ms se ⟨input, []⟩ with ⟨⟨rs, o⟩, s'⟩
      rcases hc : c.step mc ce ⟨some o, []⟩ with ⟨⟨rc, o'⟩, c'⟩
      simp only [List.map_cons, List.map_nil, List.nil_append, List.cons.injEq, and_true]
      rintro ⟨rfl, rfl⟩ hslot
      have hl := client_last (mc := mc) (ce := ce) ht hc
      refine ⟨[text o, c!"OK " ++ t], [c!"-"], ?_⟩
      have : (fun ls => serveLoop ms se errText ls s (input.map Base64.encode) [] []) =
          fun _ => ⟨sent [text o, c!"OK " ++ t], .ok⟩ := by
        funext ls
        exact serve_yes ls hs hslot
      rw [this]
      exact hl
  | succ n ih =>
    constructor
    · intro c s b
      rw [List.replicate_succ]
      simp only [talk, Party.step]
      rcases hc : c.step mc ce ⟨some b, []⟩ with ⟨⟨rc, o⟩, c'⟩
      simp only [List.map_cons, List.replicate_succ (n := n), List.cons_append, List.cons.injEq]
      rintro ⟨rfl, hres⟩ hslot
      obtain ⟨ss, cs, hl⟩ := ih.2 c' s (some o) hres hslot
      refine ⟨ss, text o :: cs, ?_, ?_, ?_⟩
      · refine (Dialogue.client (cs := []) .start (text_line o) ?_).after (ss0 := []) (cs0 := [text o])
          hl.dialogue (fun ls => ?_) (fun ls => ?_)
        · simp only [List.map_nil]
          rw [test_sent _ hc rfl]
          exact List.prefix_append _ _
        · simp only [List.map_cons, List.map_nil, List.cons_append, List.nil_append, serverWaits, text_bytes]
          rfl
        · simp only [List.map_nil, List.nil_append]
          rw [test_sent _ hc rfl]
      · rw [← hl.server]
        simp only [List.map_cons, serverWaits, text_bytes]
        rfl
      · have := hl.test
        rw [test_sent _ hc rfl, this, ← sent_append]
        rfl
    · intro c s input
      rw [List.replicate_succ]
      simp only [talk, Party.step]
      rcases hs : s.step ms se ⟨input, []⟩ with ⟨⟨rs, o⟩, s'⟩
      simp only [List.map_cons, List.replicate_succ (n := n), List.cons_append, List.cons.injEq]
      rintro ⟨rfl, hres⟩ hslot
      obtain ⟨ss, cs, hl⟩ := ih.1 c s' o hres hslot
      refine ⟨text o :: ss, cs, ?_, ?_, ?_⟩
      · refine (Dialogue.server (ss := []) .start (text_line o) ?_).after (ss0 := [text o]) (cs0 := [])
          hl.dialogue (fun ls => ?_) (fun ls => ?_)
        · simp only [List.map_nil]
          rw [serve_running _ hs]
          exact List.prefix_append _ _
        · simp only [List.map_nil, List.nil_append]
          rw [serve_running _ hs]
        · rfl
      · have := hl.server
        rw [serve_running _ hs, this, ← sent_append]
        rfl
      · exact hl.test

end

/-! ## The first lines -/

/-- The names as texts. -/
theorem name_text {m : Mechanism} (h : m ∈ shipped) :
    Str.bytes (Scram.asciiStr m.name) = m.name ∧ Scram.asciiStr m.name ≠ [] ∧
      ∀ c ∈ Scram.asciiStr m.name, c ∉ whiteSpace := by
  simp only [shipped, List.mem_cons, List.not_mem_nil, or_false] at h
  rcases h with rfl | rfl | rfl | rfl | rfl | rfl | rfl | rfl | rfl | rfl | rfl | rfl | rfl <;>
    exact ⟨by decide +kernel, by decide +kernel, by decide +kernel⟩

/-- The list of the names as a text. -/
def nameText (names : List Bytes) : Str := names.flatMap fun n => Scram.asciiStr n ++ c!" "

theorem nameText_words {ms : List Mechanism} (h : ∀ m ∈ ms, m ∈ shipped) :
    Str.bytes (nameText (ms.map (·.name))) = nameLine (ms.map (·.name)) ∧
    WordsOf (nameText (ms.map (·.name))) (ms.map fun m => Scram.asciiStr m.name) ∧
    '\n' ∉ nameText (ms.map (·.name)) ∧ (nameText (ms.map (·.name))).getLast? ≠ some '\r' := by
  induction ms with
  | nil => exact ⟨rfl, .nil, by simp [nameText], by simp [nameText]⟩
  | cons m ms ih =>
    obtain ⟨h1, h2, h3⟩ := name_text (h m (by simp))
    obtain ⟨i1, i2, i3, i4⟩ := ih fun m' hm => h m' (by simp [hm])
    have e : nameText ((m :: ms).map (·.name)) =
        Scram.asciiStr m.name ++ (' ' :: nameText (ms.map (·.name))) := by
      simp [nameText]
    rw [e]
    refine ⟨?_, .word h2 h3 (by simp [whiteSpace]) (.space (by decide) i2), ?_, ?_⟩
    · rw [Str.bytes_append, h1, show Str.bytes (' ' :: nameText (ms.map (·.name))) =
        32 :: Str.bytes (nameText (ms.map (·.name))) from rfl, i1]
      simp [nameLine]
    · simp only [List.mem_append, List.mem_cons, not_or]
      exact ⟨fun hm => h3 _ hm (by decide), by decide, i3⟩
    · rw [List.getLast?_append, List.getLast?_cons]
      cases hx : (nameText (ms.map (·.name))).getLast? with
      | none => simp
      | some x => rw [hx] at i4; simpa using i4

theorem hello_words {m : Mechanism} (h : m ∈ shipped) {o : Bytes} (ho : o ≠ []) :
    WordsOf (Scram.asciiStr m.name ++ ' ' :: text o) [Scram.asciiStr m.name, text o] := by
  obtain ⟨-, h2, h3⟩ := name_text h
  refine .word h2 h3 (by simp [whiteSpace]) (.space (by decide) ?_)
  have := WordsOf.word (w := text o) (s := []) (ws := []) ?_ (text_space o) nofun .nil
  · simpa using this
  · intro he
    have := text_bytes o
    rw [he] at this
    exact ho (Base64.encode_injective (this.symm.trans rfl))

theorem Spec.Concludes.hello {S S' : List Line → Run} {T T' : List Line → TestRun} {nl hello : Str}
    {ss cs : List Str} {out : Str} (h : Concludes S' T' ss cs out) (hn : ReadAsLine nl) (hh : ReadAsLine hello)
    (h0 : (S []).out = sent [nl])
    (hS : ∀ ls, S (some hello :: ls) = ⟨sent [nl] ++ (S' ls).out, (S' ls).res⟩)
    (hT : ∀ ls, T (some nl :: ls) = ⟨sent [hello] ++ (T' ls).sent, (T' ls).res⟩) :
    Concludes S T (nl :: ss) (hello :: cs) out where
  dialogue := by
    have hd : Dialogue (fun ls => (S ls).out) (fun ls => (T ls).sent) [nl] [hello] := by
      refine .client (cs := []) (.server (ss := []) .start hn ?_) hh ?_
      · rw [List.map_nil, h0]
        exact List.prefix_refl _
      · rw [List.map_cons, List.map_nil, hT]
        exact List.prefix_append _ _
    exact hd.after h.dialogue (fun ls => by
      rw [List.map_cons, List.map_nil, List.singleton_append, hS]) (fun ls => by
      rw [List.map_cons, List.map_nil, List.singleton_append, hT])
  server := by
    rw [List.map_cons, hS, h.server, ← sent_append]
    rfl
  test := by
    rw [List.map_cons, hT, h.test, ← sent_append]
    rfl

/-- C97: if client and server come to an end in which the server's application has a value, then so do
the test and the interop server, line by line, whatever the mechanism, and the test gets the line `OK`
with the value. The first message of a client that speaks first must not be empty. -/
theorem C97_completes (deps : Deps) (ccfg scfg : Config) (hs : ∀ m ∈ scfg.mechs, m ∈ shipped)
    (vars : Vars) (errText : SessionError → Bytes) (crng srng : Nat → Nat) (env : Mechanism → Env)
    (m : Mechanism) (hm : m ∈ scfg.mechs) (a b : Auth) (client server : Started)
    (hca : ccfg.clientStart [m.name] = .ok (a, m)) (hsa : scfg.serverStart m.name = .ok (b, m))
    (hcs : a.startClient deps = some client) (hss : b.startServer deps = some server)
    (hsd : (env m).sd = ⟨m.desc, .client⟩) (n : Nat) (t : Str) (ht : ReadAsLine t)
    (hc : Completes n m.first client server (env m) (serverEnv vars m.desc) (Str.bytes t))
    (hfirst : m.first = .client →
      ((client.session crng).step client.mech (env m) ⟨none, []⟩).1.out ≠ []) :
    ∃ ss cs, Concludes (handleClient deps scfg vars errText srng)
      (testClient deps ccfg env crng m.name) ss cs (c!"OK " ++ t) := by
  have hav : ∀ m' ∈ scfg.getAvailable, m' ∈ shipped := fun m' h => hs m' (((C05_available scfg).1 m').1 h).1
  have hma : m ∈ scfg.getAvailable := by
    obtain ⟨f, hf, -⟩ := shipped_server (hs m hm)
    exact ((C05_available scfg).1 m).2 ⟨hm, by rw [hf]; nofun⟩
  obtain ⟨n1, n2, n3, n4⟩ := nameText_words hav
  obtain ⟨h1, h2, h3⟩ := name_text (hs m hm)
  have hany : (words (nameText (scfg.getAvailable.map (·.name)))).any (fun w => Str.bytes w = m.name) = true := by
    rw [(C74_words _ _).2 n2, List.any_eq_true]
    exact ⟨_, List.mem_map.2 ⟨m, hma, rfl⟩, by simpa using h1⟩
  have hoffer : offerLine (scfg.getAvailable.map (·.name)) = sent [nameText (scfg.getAvailable.map (·.name))] := by
    rw [offerLine_eq]
    simp [sent, n1]
  have h0 : (handleClient deps scfg vars errText srng []).out =
      sent [nameText (scfg.getAvailable.map (·.name))] := hoffer
  have hp : Mechname.parse (Str.bytes (Scram.asciiStr m.name)) = .ok m.name := by
    rw [h1]; exact C74_names (hs m hm)
  have hcf : (env m).areWeFirst = (m.first == Side.client) := by
    rw [Env.areWeFirst, hsd, Bool.beq_comm]
    rfl
  have hsf : (serverEnv vars m.desc).areWeFirst = (m.first == Side.server) := by
    rw [Env.areWeFirst, Bool.beq_comm]
    rfl
  have hws : ∀ w ∈ List.replicate (n + 2) ([] : List WResp), Cooperative w := by
    intro w hw
    rw [List.eq_of_mem_replicate hw]
    nofun
  have hr := hc crng srng (List.replicate (n + 2) []) (by simp) hws
  cases hf : m.first with
  | client =>
    rw [hf] at hr hcf hsf
    rcases hstep : (client.session crng).step client.mech (env m) ⟨none, []⟩ with ⟨⟨rc, o⟩, c'⟩
    have ho : o ≠ [] := by
      have := hfirst hf
      rwa [hstep] at this
    have hhello : ReadAsLine (Scram.asciiStr m.name ++ ' ' :: text o) := by
      refine ⟨?_, ?_⟩
      · simp only [List.mem_append, List.mem_cons, not_or]
        exact ⟨fun h => h3 _ h (by decide), by decide, (text_line o).1⟩
      · have := (text_line o).2
        rw [List.getLast?_append, List.getLast?_cons]
        cases hx : (text o).getLast? with
        | none => simp
        | some x => rw [hx] at this; simpa using this
    have hS : ∀ ls, handleClient deps scfg vars errText srng
        (some (Scram.asciiStr m.name ++ ' ' :: text o) :: ls) =
        ⟨sent [nameText (scfg.getAvailable.map (·.name))] ++
          (serveLoop server.mech (serverEnv vars m.desc) errText ls (server.session srng)
            ((some o).map Base64.encode) [] []).out,
          (serveLoop server.mech (serverEnv vars m.desc) errText ls (server.session srng)
            ((some o).map Base64.encode) [] []).res⟩ := by
      intro ls
      simp only [handleClient, (C74_words _ _).2 (hello_words (hs m hm) ho), hp, hsa, hss, hsf]
      rw [if_neg (by decide), serveLoop_append, hoffer, text_bytes]
      rfl
    have hT : ∀ state : State, rc = .ok state → state.hasSentMessage = true → ∀ ls,
        testClient deps ccfg env crng m.name (some (nameText (scfg.getAvailable.map (·.name))) :: ls) =
        ⟨sent [Scram.asciiStr m.name ++ ' ' :: text o] ++ (testLoop client.mech (env m) ls c' state []).sent,
          (testLoop client.mech (env m) ls c' state []).res⟩ := by
      rintro state rfl hsent ls
      have hu : fromUtf8 (Base64.encode o) = some (text o) := by rw [← text_bytes, fromUtf8_bytes]
      simp only [testClient, hany, if_true, hca, hcs, hcf]
      rw [if_pos (by decide), step64_none, hstep]
      simp only [hsent, if_true, hu]
      rw [testLoop_append]
      have : m.name ++ b!" " ++ Base64.encode o ++ b!"\n" = sent [Scram.asciiStr m.name ++ ' ' :: text o] := by
        rw [sent_cons, Str.bytes_append, h1, show Str.bytes (' ' :: text o) = 32 :: Str.bytes (text o) from rfl,
          text_bytes]
        simp [sent, asLines]
      rw [this]
    have hpc : (start client (env m) crng).step ⟨none, []⟩ = (⟨rc, o⟩, ⟨client.mech, env m, c'⟩) := by
      rw [Party.step, start, hstep]
    obtain ⟨hres, hslot⟩ := hr
    have e := talk_step (b := start server (serverEnv vars m.desc) srng) (ws := List.replicate (n + 1) []) hpc
    rw [← List.replicate_succ] at e
    simp only at hres hslot
    rw [e] at hres hslot
    rw [List.map_cons] at hres
    cases n with
    | zero =>
      rcases hsv : (server.session srng).step server.mech (serverEnv vars m.desc) ⟨some o, []⟩ with
        ⟨⟨rs, o'⟩, s'⟩
      have hps : (start server (serverEnv vars m.desc) srng).step ⟨some o, []⟩ =
          (⟨rs, o'⟩, ⟨server.mech, serverEnv vars m.desc, s'⟩) := by
        rw [Party.step, start, hsv]
      rw [List.replicate_one, talk_step hps] at hres hslot
      simp only [talk, List.replicate_zero, List.map_cons, List.map_nil, List.nil_append, List.cons.injEq, and_true] at hres
      obtain ⟨rfl, rfl⟩ := hres
      exact ⟨_, _, (server_last ht hsv hslot c').hello ⟨n3, n4⟩ hhello h0 hS (hT _ rfl rfl)⟩
    | succ k =>
      rw [List.replicate_succ (n := k), List.cons_append, List.cons.injEq] at hres
      obtain ⟨rfl, hres⟩ := hres
      obtain ⟨ss, cs, h⟩ := (talk_concludes (errText := errText) ht k).2 c' (server.session srng) (some o)
        hres hslot
      exact ⟨_, _, h.hello ⟨n3, n4⟩ hhello h0 hS (hT _ rfl rfl)⟩
  | server =>
    rw [hf] at hr hcf hsf
    obtain ⟨ss, cs, h⟩ := (talk_concludes (errText := errText) ht n).2 (client.session crng)
      (server.session srng) none hr.1 hr.2
    refine ⟨_, _, h.hello ⟨n3, n4⟩ (hello := Scram.asciiStr m.name) (readAsLine_of_space h3) h0 ?_ ?_⟩
    · intro ls
      have hw : WordsOf (Scram.asciiStr m.name) [Scram.asciiStr m.name] := by
        have := WordsOf.word h2 h3 (s := []) (ws := []) nofun .nil
        simpa using this
      simp only [handleClient, (C74_words _ _).2 hw, hp, hsa, hss, hsf]
      rw [if_pos (by decide), serveLoop_append, hoffer]
      rfl
    · intro ls
      simp only [testClient, hany, if_true, hca, hcs, hcf]
      rw [if_neg (by decide), testLoop_append]
      have : m.name ++ b!"\n" = sent [Scram.asciiStr m.name] := by
        rw [sent_cons, h1]
        simp [sent, asLines]
      rw [this]

/-! ## The tests -/

/-- Where an empty message is an error, the first message was not empty. -/
theorem first_said {n : Nat} {client server : Started} {cenv senv : Env} {v : VVal}
    (hc : Completes n .client client server cenv senv v) (crng : Nat → Nat)
    (hbad : ∀ st, ((server.session crng).step server.mech senv ⟨some [], []⟩).1.res ≠ .ok st) :
    ((client.session crng).step client.mech cenv ⟨none, []⟩).1.out ≠ [] := by
  intro ho
  have hws : ∀ w ∈ List.replicate (n + 2) ([] : List WResp), Cooperative w := by
    intro w hw
    rw [List.eq_of_mem_replicate hw]
    nofun
  have hr := (hc crng crng (List.replicate (n + 2) []) (by simp) hws).1
  simp only [List.replicate_succ, talk, Party.step, start, List.map_cons] at hr
  rw [ho] at hr
  cases n with
  | zero => exact hbad _ (List.cons.inj (List.cons.inj hr).2).1
  | succ n =>
    rw [List.replicate_succ] at hr
    cases n with
    | zero => exact hbad _ (List.cons.inj (List.cons.inj hr).2).1
    | succ n =>
      rw [List.replicate_succ] at hr
      exact hbad _ (List.cons.inj (List.cons.inj hr).2).1

theorem credentialEnv_has (m : Mechanism) (authid password : Str) :
    (Example.credentialEnv m authid password).HasCredentials none authid password :=
  fun _ _ => rfl

theorem readAsLine_append {s t : Str} (hs : '\n' ∉ s) (hne : s.getLast? ≠ some '\r') (ht : ReadAsLine t) :
    ReadAsLine (s ++ t) := by
  refine ⟨by simp only [List.mem_append, not_or]; exact ⟨hs, ht.1⟩, ?_⟩
  rw [List.getLast?_append]
  have := ht.2
  cases hx : t.getLast? with
  | none => simpa using hne
  | some y => rw [hx] at this; simpa using this

theorem readAsLine_middle {s t u : Str} (hs : '\n' ∉ s) (ht : '\n' ∉ t) (hu : ReadAsLine u) (hne : u ≠ []) :
    ReadAsLine (s ++ t ++ u) := by
  refine ⟨by simp only [List.mem_append, not_or]; exact ⟨⟨hs, ht⟩, hu.1⟩, ?_⟩
  rw [List.getLast?_append]
  have := hu.2
  cases hx : u.getLast? with
  | none => exact absurd (List.getLast?_eq_none_iff.1 hx) hne
  | some y => rw [hx] at this; simpa using this

/-- C97: the test with PLAIN: server and test come to an end, and the test gets `OK` with the prepared
name and password. -/
theorem C97_plain (deps : Deps) (scfg : Config) (hs : ∀ m ∈ scfg.mechs, m ∈ shipped)
    (hm : PLAIN ∈ scfg.mechs) (vars : Vars) (errText : SessionError → Bytes) (crng srng : Nat → Nat)
    (authid password authid' password' : Str) (na : '\x00' ∉ authid) (np : '\x00' ∉ password)
    (ea : authid ≠ []) (ep : password ≠ []) (hpa : deps.prep authid = some authid')
    (hpp : deps.prep password = some password') (ea' : authid' ≠ []) (ep' : password' ≠ [])
    (hla : '\n' ∉ authid') (hlp : ReadAsLine password') :
    ∃ ss cs, Concludes (handleClient deps scfg vars errText srng)
      (credentialTest deps crng PLAIN.name authid password) ss cs
      (c!"OK VALID authid=" ++ authid' ++ (c!" authzid= password=" ++ password')) := by
  obtain ⟨b, f, hf, hb, hsa⟩ := named_start hs hm (unique_name (.inl rfl))
  cases hf
  cases hb
  have hv : display authid' (some []) (some (Str.bytes password')) =
      Str.bytes (c!"VALID authid=" ++ authid' ++ (c!" authzid= password=" ++ password')) := by
    simp only [display, fromUtf8_bytes, Str.bytes_append]
    simp [Str.bytes, encodeChar]
  have hc : Completes 0 .client ⟨Plain.client, ()⟩ ⟨Plain.server deps.prep, ()⟩
      (Example.credentialEnv PLAIN authid password) (serverEnv vars PLAIN.desc)
      (Str.bytes (c!"VALID authid=" ++ authid' ++ (c!" authzid= password=" ++ password'))) := by
    intro crng srng ws hl hw
    obtain ⟨w0, w1, rfl⟩ := list_two hl
    rw [← hv]
    exact C62_plain deps _ _ none authid authid' password _ (credentialEnv_has _ _ _) nofun
      (by rwa [mem_bytes_ascii (by decide)]) (by rwa [mem_bytes_ascii (by decide)]) ea ep hpa ea'
      (.inl ⟨_, _, rfl, hpp, rfl⟩) (by rwa [Ne, Str.bytes_eq_nil]) _
      (plain_name _ rfl vars _ _ _) _ _ rfl rfl crng srng w0 w1 (hw _ (by simp)).patient
  have hline : ReadAsLine (c!"VALID authid=" ++ authid' ++ (c!" authzid= password=" ++ password')) :=
    readAsLine_middle (by decide) hla (readAsLine_append (by decide) (by decide) hlp) (by simp)
  exact C97_completes deps (Config.withCredentials none) scfg hs vars errText crng srng
    (fun m => Example.credentialEnv m authid password) PLAIN hm .plain .plain _ _ rfl hsa rfl rfl rfl 0 _
    hline hc (fun _ => first_said hc crng nofun)

/-- C97: the test with LOGIN. -/
theorem C97_login (deps : Deps) (scfg : Config) (hs : ∀ m ∈ scfg.mechs, m ∈ shipped)
    (hm : LOGIN ∈ scfg.mechs) (vars : Vars) (errText : SessionError → Bytes) (crng srng : Nat → Nat)
    (authid password : Str) (hla : '\n' ∉ authid) (hlp : ReadAsLine password) :
    ∃ ss cs, Concludes (handleClient deps scfg vars errText srng)
      (credentialTest deps crng LOGIN.name authid password) ss cs
      (c!"OK VALID authid=" ++ authid ++ (c!" password=" ++ password)) := by
  obtain ⟨b, f, hf, hb, hsa⟩ := named_start hs hm (unique_name (.inr rfl))
  cases hf
  cases hb
  have hv : display authid none (some (Str.bytes password)) =
      Str.bytes (c!"VALID authid=" ++ authid ++ (c!" password=" ++ password)) := by
    simp only [display, fromUtf8_bytes, Str.bytes_append]
    simp [Str.bytes, encodeChar]
  have hc : Completes 3 .server ⟨Login.client, Login.CState.authid⟩ ⟨Login.server, Login.SState.new⟩
      (Example.credentialEnv LOGIN authid password) (serverEnv vars LOGIN.desc)
      (Str.bytes (c!"VALID authid=" ++ authid ++ (c!" password=" ++ password))) := by
    intro crng srng ws hl hw
    obtain ⟨w0, w1, w2, w3, w4, rfl⟩ := list_five hl
    rw [← hv]
    exact C62_login deps _ _ authid password (credentialEnv_has _ _ _) _ (login_name _ rfl vars _ _) _ _
      rfl rfl crng srng w0 w1 w2 w3 w4 ⟨(hw _ (by simp)).patient, (hw _ (by simp)).patient,
        (hw _ (by simp)).patient, (hw _ (by simp)).patient⟩
  have hline : ReadAsLine (c!"VALID authid=" ++ authid ++ (c!" password=" ++ password)) :=
    readAsLine_middle (by decide) hla (readAsLine_append (by decide) (by decide) hlp) (by simp)
  exact C97_completes deps (Config.withCredentials none) scfg hs vars errText crng srng
    (fun m => Example.credentialEnv m authid password) LOGIN hm .login .login _ _ rfl hsa rfl rfl rfl 3 _
    hline hc nofun

/-- C97: the test with SCRAM, as the one user with the password of the account. -/
theorem C97_scram (deps : Deps) (h : Hash) (scfg : Config) (hs : ∀ m ∈ scfg.mechs, m ∈ shipped)
    (hm : SCRAM h ∈ scfg.mechs) (vars : Vars) (errText : SessionError → Bytes) (crng srng : Nat → Nat)
    (password : Str) (hfit : AccountFits (deps.digest h) password) :
    ∃ ss cs, Concludes (handleClient deps scfg vars errText srng)
      (credentialTest deps crng (SCRAM h).name (c!"username") password) ss cs
      (c!"OK VALID authid=username") := by
  obtain ⟨b, f, hf, hb, hsa⟩ := named_start hs hm fun m' hm' hn => shipped_name hm' (hs _ hm) hn
  cases hf
  cases hb
  have hname : ¬ ((SCRAM h).desc.name = b!"PLAIN" ∨ (SCRAM h).desc.name = b!"LOGIN") ∧
      (b!"SCRAM-").isPrefixOf (SCRAM h).desc.name = true := by cases h <;> decide +kernel
  have hacc : Accepts (serverEnv vars (SCRAM h).desc) (scramOffer (c!"username") none)
      (Str.bytes (c!"VALID authid=username")) := by
    intro log ctx hx
    show returned _ _ (validateProg (SCRAM h).desc.name ctx) = _ ∧
      firstValue _ (validateProg (SCRAM h).desc.name ctx) = _
    unfold validateProg
    rw [if_neg hname.1, if_pos hname.2, hx .authId, hx .authzId]
    exact ⟨rfl, rfl⟩
  have hgive : (serverEnv vars (SCRAM h).desc).GivesAt (scramOffer (c!"username") none)
      .scramStoredPassword account := by
    intro log ctx hx
    show Answers _ _ (callback vars ctx)
    refine .is _ _ (.is _ _ (.is _ _ ?_))
    have : ctx.getRef .authId = some (c!"username") := hx .authId
    simp only [decide_true, this, if_true]
    exact .satisfy _ fun _ => rfl
  have hc : ∀ canCb, Completes 3 .client ⟨Scram.client (deps.digest h), Scram.clientNew true⟩
      ⟨Scram.server (deps.digest h), Scram.serverNew canCb⟩
      (Example.credentialEnv (SCRAM h) (c!"username") password) (serverEnv vars (SCRAM h).desc)
      (Str.bytes (c!"VALID authid=username")) := by
    intro canCb crng srng ws hl hw
    obtain ⟨w0, w1, w2, w3, w4, rfl⟩ := list_five hl
    refine C62_scram deps h canCb _ _ none none (c!"username") (c!"username") password
      (credentialEnv_has _ _ _) ⟨by decide, escapes_username⟩ trivial account.salt account.iterations
      (by decide) ?_ _ hacc _ _ rfl rfl crng srng w0 w1 w2 w3 w4 ⟨hw _ (by simp), hw _ (by simp),
        hw _ (by simp), hw _ (by simp), hw _ (by simp)⟩
    rw [← hfit.1, ← hfit.2]
    exact hgive
  have hstart : (Config.withCredentials none).clientStart [(SCRAM h).name] =
      .ok (.scramClient h true, SCRAM h) := by cases h <;> rfl
  exact C97_completes deps (Config.withCredentials none) scfg hs vars errText crng srng
    (fun m => Example.credentialEnv m (c!"username") password) (SCRAM h) hm _ _ _ _ hstart hsa rfl rfl rfl
    3 (c!"VALID authid=username") ⟨by decide, by decide⟩ (hc _) (fun _ => first_said (hc false) crng nofun)

/-- C97: whatever order the two programs run in, they say what they say in a dialogue that comes to an
end, and then stop. -/
theorem C97_every_order (deps : Deps) (ccfg scfg : Config) (vars : Vars)
    (errText : SessionError → Bytes) (crng srng : Nat → Nat) (env : Mechanism → Env) (name : Bytes)
    (ss cs : List Str) (outcome : Str)
    (h : Concludes (handleClient deps scfg vars errText srng) (testClient deps ccfg env crng name) ss cs
      outcome) (ss' cs' : List Str)
    (h' : Dialogue (fun ls => (handleClient deps scfg vars errText srng ls).out)
      (fun ls => (testClient deps ccfg env crng name ls).sent) ss' cs') :
    (ss' <+: ss ∧ cs' <+: cs) ∧
    (Stuck (fun ls => (handleClient deps scfg vars errText srng ls).out)
      (fun ls => (testClient deps ccfg env crng name ls).sent) ss' cs' → ss' = ss ∧ cs' = cs) := by
  have hF := handleClient_appends deps scfg vars errText srng
  have hG := testClient_appends deps ccfg env crng name
  have hb := stuck_of_said hF hG h.dialogue (by rw [h.server]) (by rw [h.test]) h'
  refine ⟨hb, fun hs => ?_⟩
  obtain ⟨h1, h2⟩ := C97_order hF hG h.dialogue h' hs
  exact ⟨hb.1.eq_of_length_le h1.length_le, hb.2.eq_of_length_le h2.length_le⟩

/-- C97: a client that has said all with an empty first message and the server do not understand each
other: the server asks for the message with `-`, which the test takes for the result. -/
theorem C97_empty_first (deps : Deps) (ccfg scfg : Config) (hs : ∀ m ∈ scfg.mechs, m ∈ shipped)
    (vars : Vars) (errText : SessionError → Bytes) (crng srng : Nat → Nat) (env : Mechanism → Env)
    (m : Mechanism) (hm : m ∈ scfg.mechs) (a b : Auth) (client server : Started)
    (hca : ccfg.clientStart [m.name] = .ok (a, m)) (hsa : scfg.serverStart m.name = .ok (b, m))
    (hcs : a.startClient deps = some client) (hss : b.startServer deps = some server)
    (hsd : (env m).sd = ⟨m.desc, .client⟩) (hf : m.first = .client) (c' : Session client.mech.S)
    (hstep : (client.session crng).step client.mech (env m) ⟨none, []⟩ =
      (⟨.ok (.finished .yes), []⟩, c')) :
    ∃ ss cs, Dialogue (fun ls => (handleClient deps scfg vars errText srng ls).out)
        (fun ls => (testClient deps ccfg env crng m.name ls).sent) ss cs ∧
      Stuck (fun ls => (handleClient deps scfg vars errText srng ls).out)
        (fun ls => (testClient deps ccfg env crng m.name ls).sent) ss cs ∧
      (testClient deps ccfg env crng m.name (ss.map some)).res = .outcome (c!"-") := by
  have hav : ∀ m' ∈ scfg.getAvailable, m' ∈ shipped := fun m' h => hs m' (((C05_available scfg).1 m').1 h).1
  have hma : m ∈ scfg.getAvailable := by
    obtain ⟨f, hf, -⟩ := shipped_server (hs m hm)
    exact ((C05_available scfg).1 m).2 ⟨hm, by rw [hf]; nofun⟩
  obtain ⟨n1, n2, n3, n4⟩ := nameText_words hav
  obtain ⟨h1, h2, h3⟩ := name_text (hs m hm)
  have hany : (words (nameText (scfg.getAvailable.map (·.name)))).any (fun w => Str.bytes w = m.name) = true := by
    rw [(C74_words _ _).2 n2, List.any_eq_true]
    exact ⟨_, List.mem_map.2 ⟨m, hma, rfl⟩, by simpa using h1⟩
  have hoffer : offerLine (scfg.getAvailable.map (·.name)) = sent [nameText (scfg.getAvailable.map (·.name))] := by
    rw [offerLine_eq]
    simp [sent, n1]
  have hp : Mechname.parse (Str.bytes (Scram.asciiStr m.name)) = .ok m.name := by
    rw [h1]; exact C74_names (hs m hm)
  have hcf : (env m).areWeFirst = true := by
    rw [Env.areWeFirst, hsd]
    show (Side.client == m.first) = true
    rw [hf]
    rfl
  have hsf : (serverEnv vars m.desc).areWeFirst = false := by
    show (Side.server == m.first) = false
    rw [hf]
    rfl
  generalize hnl : nameText (scfg.getAvailable.map (·.name)) = nl at *
  have hw : WordsOf (Scram.asciiStr m.name ++ c!" ") [Scram.asciiStr m.name] :=
    .word h2 h3 (by simp [whiteSpace]) (.space (by decide) .nil)
  have hhello : ReadAsLine (Scram.asciiStr m.name ++ c!" ") := by
    refine ⟨?_, by simp⟩
    simp only [List.mem_append, List.mem_singleton, not_or]
    exact ⟨fun h => h3 _ h (by decide), by decide⟩
  have hS0 : (handleClient deps scfg vars errText srng []).out = sent [nl] := hoffer
  have hS1 : (handleClient deps scfg vars errText srng [some (Scram.asciiStr m.name ++ c!" ")]).out =
      sent [nl, c!"-"] := by
    simp only [handleClient, (C74_words _ _).2 hw, hp, hsa, hss, hsf, Bool.false_eq_true, if_false, hoffer]
    rw [show b!"-\n" = sent [c!"-"] by decide +kernel, ← sent_append]
    rfl
  have hT : ∀ ls, testClient deps ccfg env crng m.name (some nl :: ls) =
      testLoop client.mech (env m) ls c' (.finished .yes) (sent [Scram.asciiStr m.name ++ c!" "]) := by
    intro ls
    simp only [testClient, hany, if_true, hca, hcs, hcf]
    rw [step64_none, hstep]
    simp only [State.hasSentMessage, if_true, show fromUtf8 (Base64.encode []) = some [] from rfl]
    congr 1
    rw [sent_cons, Str.bytes_append, h1, show Base64.encode [] = [] from rfl]
    simp [sent, asLines, Str.bytes, encodeChar]
  have hd : Dialogue (fun ls => (handleClient deps scfg vars errText srng ls).out)
      (fun ls => (testClient deps ccfg env crng m.name ls).sent) [nl, c!"-"]
      [Scram.asciiStr m.name ++ c!" "] := by
    refine .server (ss := [nl]) (.client (cs := []) (.server (ss := []) .start ⟨n3, n4⟩ ?_) hhello ?_)
      dash_line ?_
    · rw [List.map_nil, hS0]; exact List.prefix_refl _
    · rw [List.map_cons, List.map_nil, hT]; exact List.prefix_refl _
    · rw [List.map_cons, List.map_nil, hS1]; exact List.prefix_refl _
  have hres : testClient deps ccfg env crng m.name ([nl, c!"-"].map some) =
      ⟨sent [Scram.asciiStr m.name ++ c!" "], .outcome (c!"-")⟩ := by
    rw [List.map_cons, hT]
    rfl
  refine ⟨_, _, hd, ?_, by rw [hres]⟩
  intro ss' cs' h' hp1 hp2
  obtain ⟨q1, q2⟩ := stuck_of_said (handleClient_appends deps scfg vars errText srng)
    (testClient_appends deps ccfg env crng m.name) hd hS1 (by rw [hres]) h'
  exact ⟨q1.eq_of_length_le hp1.length_le, q2.eq_of_length_le hp2.length_le⟩

/-! ## The callback of the interop client -/

/-- C97: the client's callback has exactly what the variables say. -/
theorem C97_variables (env : Env) (vars : ClientVars)
    (h : ∀ log ctx, env.callback log env.sd ctx = clientCallback vars) (p : Property) :
    env.Offers p (clientVariable vars p) := by
  obtain ⟨authid, password, authzid, cbname, cbdata, service, host⟩ := vars
  have gives : ∀ {p : Property} {v : p.Value}, Answers p v (answer p v) := fun {p v} =>
    .satisfy _ fun _ => rfl
  have lacks : ∀ {p : Property}, Declines p noVar := fun {p} => .noValue
  cases p
  case authId => cases authid <;> intro log ctx <;> rw [h]; exacts [.is _ _ lacks, .is _ _ gives]
  case password =>
    cases password <;> intro log ctx <;> rw [h]
    exacts [.is _ _ (.is _ _ lacks), .is _ _ (.is _ _ gives)]
  case authzId =>
    cases authzid <;> intro log ctx <;> rw [h]
    exacts [.is _ _ (.is _ _ (.is _ _ lacks)), .is _ _ (.is _ _ (.is _ _ gives))]
  case overrideCBType =>
    cases cbname <;> intro log ctx <;> rw [h]
    exacts [.is _ _ (.is _ _ (.is _ _ (.is _ _ lacks))), .is _ _ (.is _ _ (.is _ _ (.is _ _ gives)))]
  case channelBindings =>
    cases cbdata <;> intro log ctx <;> rw [h]
    exacts [.is _ _ (.is _ _ (.is _ _ (.is _ _ (.is _ _ lacks)))),
      .is _ _ (.is _ _ (.is _ _ (.is _ _ (.is _ _ gives))))]
  case gssService =>
    cases service <;> intro log ctx <;> rw [h]
    exacts [.is _ _ (.is _ _ (.is _ _ (.is _ _ (.is _ _ (.is _ _ (.is _ _ lacks)))))),
      .is _ _ (.is _ _ (.is _ _ (.is _ _ (.is _ _ (.is _ _ (.is _ _ gives))))))]
  case hostname =>
    cases host <;> intro log ctx <;> rw [h]
    exacts [.is _ _ (.is _ _ (.is _ _ (.is _ _ (.is _ _ (.is _ _ (.is _ _ (.is _ _ lacks))))))),
      .is _ _ (.is _ _ (.is _ _ (.is _ _ (.is _ _ (.is _ _ (.is _ _ (.is _ _ gives)))))))]
  case scramCachedPassword =>
    intro log ctx
    rw [h]
    exact .is _ _ (.is _ _ (.is _ _ (.is _ _ (.is _ _ (.is _ _ (.skipAction _ _ .ok))))))
  all_goals
    intro log ctx
    rw [h]
    exact .is _ _ (.is _ _ (.is _ _ (.is _ _ (.is _ _ (.is _ _ (.is _ _ (.is _ _ .ok)))))))

/-- C97: whenever a client hands keys to the callback, the salt and the iteration count are there: the
two `unwrap`s of the interop client never fail. -/
theorem C97_unwraps (deps : Deps) (a : Auth) (st : Started) (h : a.startClient deps = some st) (env : Env)
    (rng : Nat → Nat) (ops : List Op) (ctx : Provider)
    (hn : Event.notified .scramCachedPassword ctx ∈ ((st.session rng).afterAll st.mech env ops).log) :
    (∃ salt, ctx.getRef .salt = some salt) ∧ ∃ it, ctx.getRef .iterations = some it := by
  obtain ⟨ps, h1, h2⟩ := C65_client deps a st h env rng ops _ hn
  have : ps = [.salt, .iterations] := by
    cases a <;> simp [clientContacts] at h1 <;> exact h1
  subst this
  exact ⟨Option.isSome_iff_exists.1 ((h2 .salt).2 (by simp)),
    Option.isSome_iff_exists.1 ((h2 .iterations).2 (by simp))⟩

/-! ## What the test's result means -/

theorem testAnswer_eq {r : Reply State} {s : State} (h : r.res = .ok s) :
    testAnswer r ++ [10] = if s.hasSentMessage then Base64.encode r.out ++ b!"\n" else b!"-\n" := by
  unfold testAnswer
  rw [h]
  rcases s with _ | _ | _ <;> rfl

theorem testLoop_outcome {m : Mech} {env : Env} {lines : List Line} {ses : Session m.S} {state : State}
    {before after : Bytes} {l : Str}
    (h : testLoop m env lines ses state before = ⟨after, .outcome l⟩) :
    ∃ texts : List Str, ∃ post, ∃ calls : List Call, lines = texts.map some ++ some l :: post ∧
      (∀ c ∈ calls, c.sched = []) ∧
      calls.map (·.input.map Base64.encode) = texts.map (fun t => some (Str.bytes t)) ∧
      (if state.isRunning then Completed (ses.run m env calls).1 else calls = []) ∧
      after = before ++ asLines ((ses.run m env calls).1.map testAnswer) := by
  induction lines generalizing ses state before with
  | nil => simp [testLoop] at h
  | cons line lines ih =>
    rcases line with _ | line
    · simp [testLoop] at h
    unfold testLoop at h
    cases hr : state.isRunning with
    | false =>
      simp only [hr] at h
      cases h
      exact ⟨[], lines, [], rfl, nofun, rfl, by simp, by simp [Session.run, asLines]⟩
    | true =>
      simp only [hr, if_true] at h
      rcases step64_cases m env ses (some (Str.bytes line)) with ⟨hb, -⟩ | ⟨c, hc, hi, hb⟩
      · simp [hb] at h
      rw [hb] at h
      rcases hs : (ses.step m env c).1.res with s | e | _
      · simp only [hs] at h
        split at h
        · obtain ⟨texts, post, calls, h1, h2, h3, h4, h5⟩ := ih h
          have hrun : (ses.run m env (c :: calls)).1 =
            (ses.step m env c).1 :: (((ses.step m env c).2).run m env calls).1 := rfl
          refine ⟨line :: texts, post, c :: calls, ?_, ?_, ?_, ?_, ?_⟩
          · rw [h1]; rfl
          · intro c' hc'
            rcases List.mem_cons.1 hc' with rfl | hc'
            · exact hc
            · exact h2 c' hc'
          · simp [hi, h3]
          · rw [if_pos rfl, hrun]
            rcases s with _ | k
            · obtain ⟨rs', r, k, e1, e2, e3⟩ := (by simpa [State.isRunning] using h4 :
                Completed (((ses.step m env c).2).run m env calls).1)
              refine ⟨(ses.step m env c).1 :: rs', r, k, by rw [e1]; rfl, ?_, e3⟩
              intro x hx
              rcases List.mem_cons.1 hx with rfl | hx
              · exact hs
              · exact e2 x hx
            · have : calls = [] := by simpa [State.isRunning] using h4
              subst this
              exact ⟨[], _, k, rfl, nofun, hs⟩
          · rw [h5, hrun]
            simp only [List.map_cons, asLines, List.flatMap_cons, testAnswer_eq hs, List.append_assoc]
        · cases h
      · simp [hs] at h
      · simp [hs] at h

/-- C97: a test that comes to a result was offered its mechanism, has run one session of it with the
lines it got, answered each with the message of the session, and taken the first line after the last
message for the result. -/
theorem C97_outcome (deps : Deps) (cfg : Config) (env : Mechanism → Env) (rng : Nat → Nat) (name : Bytes)
    (lines : List Line) (l : Str)
    (h : (testClient deps cfg env rng name lines).res = .outcome l) :
    ∃ offer, ∃ texts : List Str, ∃ post a m st, ∃ calls : List Call,
      lines = some offer :: (texts.map some ++ some l :: post) ∧
      (∃ ws w, WordsOf offer ws ∧ w ∈ ws ∧ Str.bytes w = name) ∧
      cfg.clientStart [name] = .ok (a, m) ∧ a.startClient deps = some st ∧
      (∀ c ∈ calls, c.sched = []) ∧
      calls.map (·.input.map Base64.encode) =
        (if (env m).areWeFirst then [none] else []) ++ texts.map (fun t => some (Str.bytes t)) ∧
      let rs := ((st.session rng).run st.mech (env m) calls).1
      Completed rs ∧
      (testClient deps cfg env rng name lines).sent =
        if (env m).areWeFirst then asLines (testHello name rs.head? :: rs.tail.map testAnswer)
        else asLines (name :: rs.map testAnswer) := by
  obtain ⟨after, hrun⟩ : ∃ s, testClient deps cfg env rng name lines = ⟨s, .outcome l⟩ :=
    ⟨_, by rw [← h]⟩
  rw [hrun]
  clear h
  rcases lines with _ | ⟨_ | offer, lines⟩
  · simp [testClient] at hrun
  · simp [testClient] at hrun
  simp only [testClient] at hrun
  split at hrun
  case isFalse => cases hrun
  case isTrue hw =>
  split at hrun
  case h_2 => cases hrun
  case h_1 a m hstart =>
  split at hrun
  case h_2 => cases hrun
  case h_1 st hst =>
  have hw : ∃ ws w, WordsOf offer ws ∧ w ∈ ws ∧ Str.bytes w = name := by
    obtain ⟨w, h1, h2⟩ := List.any_eq_true.1 hw
    exact ⟨_, w, (C74_words _ _).1 rfl, h1, by simpa using h2⟩
  cases hf : (env m).areWeFirst with
  | false =>
    simp only [hf] at hrun
    obtain ⟨texts, post, calls, h1, h2, h3, h4, h5⟩ := testLoop_outcome hrun
    refine ⟨offer, texts, post, a, m, st, calls, by rw [h1], hw, hstart, hst, h2, ?_, ?_, ?_⟩
    · simpa [hf] using h3
    · simpa [State.isRunning] using h4
    · simp only [hf]
      rw [h5]
      simp [asLines]
  | true =>
    simp only [hf, if_true, step64_none] at hrun
    rcases hs : ((st.session rng).step st.mech (env m) ⟨none, []⟩).1.res with s | e | _
    · simp only [hs] at hrun
      obtain ⟨hello, hh, hl⟩ : ∃ hello,
          testHello name (some ((st.session rng).step st.mech (env m) ⟨none, []⟩).1) ++ [10] = hello ∧
          testLoop st.mech (env m) lines ((st.session rng).step st.mech (env m) ⟨none, []⟩).2 s hello =
            ⟨after, .outcome l⟩ := by
        split at hrun
        case isTrue hm =>
          split at hrun
          · refine ⟨_, ?_, hrun⟩
            rcases s with _ | _ | _
            · simp [testHello, hs]
            · simp [testHello, hs]
            · cases hm
          · cases hrun
        case isFalse hm =>
          refine ⟨_, ?_, hrun⟩
          rcases s with _ | _ | _
          · exact absurd rfl hm
          · exact absurd rfl hm
          · simp [testHello, hs]
      obtain ⟨texts, post, calls, h1, h2, h3, h4, h5⟩ := testLoop_outcome hl
      have hr : ((st.session rng).run st.mech (env m) (⟨none, []⟩ :: calls)).1 =
        ((st.session rng).step st.mech (env m) ⟨none, []⟩).1 ::
          ((((st.session rng).step st.mech (env m) ⟨none, []⟩).2).run st.mech (env m) calls).1 := rfl
      refine ⟨offer, texts, post, a, m, st, ⟨none, []⟩ :: calls, by rw [h1], hw, hstart, hst, ?_, ?_, ?_, ?_⟩
      · intro c' hc'
        rcases List.mem_cons.1 hc' with rfl | hc'
        · rfl
        · exact h2 c' hc'
      · simp [h3, hf]
      · rw [hr]
        rcases s with _ | k
        · obtain ⟨rs', r, k, e1, e2, e3⟩ := (by simpa [State.isRunning] using h4 : Completed
            ((((st.session rng).step st.mech (env m) ⟨none, []⟩).2).run st.mech (env m) calls).1)
          refine ⟨((st.session rng).step st.mech (env m) ⟨none, []⟩).1 :: rs', r, k, by rw [e1]; rfl, ?_, e3⟩
          intro x hx
          rcases List.mem_cons.1 hx with rfl | hx
          · exact hs
          · exact e2 x hx
        · have : calls = [] := by simpa [State.isRunning] using h4
          subst this
          exact ⟨[], _, k, rfl, nofun, hs⟩
      · rw [hf, if_pos rfl, hr, h5, ← hh]
        simp only [List.head?_cons, List.tail_cons, asLines, List.flatMap_cons]
    · simp [hs] at hrun
    · simp [hs] at hrun

/-- C97: a test passes exactly if it came to a result and that begins with `OK`. -/
theorem C97_verdict (r : TestRun) : r.passes = true ↔ ∃ t, r.res = .outcome (c!"OK" ++ t) := by
  unfold TestRun.passes
  cases r.res with
  | outcome line =>
    simp only [List.isPrefixOf_iff_prefix, TestEnd.outcome.injEq]
    exact ⟨fun ⟨t, h⟩ => ⟨t, h.symm⟩, fun ⟨t, h⟩ => ⟨t, h.symm⟩⟩
  | panicked => simp

/-- C97: the tests pass if and only if the result begins with `OK`; and so, in whatever order the lines
come, do tests that were shown to come to such a result, and then the server has ended, too. -/
theorem C97_passes (deps : Deps) (ccfg scfg : Config) (vars : Vars) (errText : SessionError → Bytes)
    (crng srng : Nat → Nat) (env : Mechanism → Env) (name : Bytes) (ss cs : List Str) (t : Str)
    (h : Concludes (handleClient deps scfg vars errText srng) (testClient deps ccfg env crng name) ss cs
      (c!"OK " ++ t)) (ss' cs' : List Str)
    (h' : Dialogue (fun ls => (handleClient deps scfg vars errText srng ls).out)
      (fun ls => (testClient deps ccfg env crng name ls).sent) ss' cs')
    (hs : Stuck (fun ls => (handleClient deps scfg vars errText srng ls).out)
      (fun ls => (testClient deps ccfg env crng name ls).sent) ss' cs') :
    (testClient deps ccfg env crng name (ss'.map some)).passes = true ∧
    (handleClient deps scfg vars errText srng (cs'.map some)).res = .ok := by
  obtain ⟨rfl, rfl⟩ := (C97_every_order deps ccfg scfg vars errText crng srng env name ss cs _ h ss' cs' h').2 hs
  rw [h.test, h.server]
  exact ⟨rfl, rfl⟩

/-! ## Concrete cases -/

/-- `plain_client` and `login_client` against the server of the interop crate. -/
example : (∃ ss cs, Concludes (handleClient toyDeps config {} (fun _ => []) fun _ => 0)
      (credentialTest toyDeps (fun _ => 0) PLAIN.name (c!"testuser") (c!"secret")) ss cs
      (c!"OK VALID authid=testuser authzid= password=secret")) ∧
    ∃ ss cs, Concludes (handleClient toyDeps config {} (fun _ => []) fun _ => 0)
      (credentialTest toyDeps (fun _ => 0) LOGIN.name (c!"testuser") (c!"secret")) ss cs
      (c!"OK VALID authid=testuser password=secret") :=
  ⟨C97_plain toyDeps config config_shipped (by simp [config, builtinMechs]) _ _ _ _ (c!"testuser")
      (c!"secret") _ _ (by decide) (by decide) (by decide) (by decide) rfl rfl (by decide) (by decide)
      (by decide) ⟨by decide, by decide⟩,
    C97_login toyDeps config config_shipped (by simp [config, builtinMechs]) _ _ _ _ (c!"testuser")
      (c!"secret") (by decide) ⟨by decide, by decide⟩⟩

/-- The lines of `plain_client`. -/
example : handleClient toyDeps config {} (fun _ => []) (fun _ => 0)
      [some (c!"PLAIN AHRlc3R1c2VyAHNlY3JldA==")] =
      ⟨offerLine (config.getAvailable.map (·.name)) ++
        b!"OK VALID authid=testuser authzid= password=secret\n", .ok⟩ ∧
    credentialTest toyDeps (fun _ => 0) PLAIN.name (c!"testuser") (c!"secret")
      [some (c!"LOGIN PLAIN "), some (c!"OK VALID authid=testuser authzid= password=secret")] =
      ⟨b!"PLAIN AHRlc3R1c2VyAHNlY3JldA==\n",
        .outcome (c!"OK VALID authid=testuser authzid= password=secret")⟩ := by
  decide +kernel

/-- Hash functions with which the account has the password `secret`. With SHA-256, HMAC and PBKDF2 it
has, too. -/
def fittingDigest : Scram.Digest where
  outLen := 32
  hash _ := account.storedKey
  hmac _ _ := account.serverKey
  pbkdf2 _ _ _ := account.serverKey
  hash_length _ := rfl
  hmac_length _ _ := rfl
  pbkdf2_length _ _ _ := rfl

example : AccountFits fittingDigest (c!"secret") := ⟨rfl, rfl⟩

/-- An EXTERNAL client without authorization id has nothing to say in its first message. -/
example : ∃ c', (Started.session ⟨External.client, ()⟩ fun _ => 0).step External.client
    (Example.credentialEnv EXTERNAL (c!"testuser") (c!"secret")) ⟨none, []⟩ =
      (⟨.ok (.finished .yes), []⟩, c') := ⟨_, rfl⟩

/-- A client that hands its keys over. -/
example : ((Started.session ⟨Scram.client fittingDigest, Scram.clientNew true⟩ fun _ => 0).afterAll
      (Scram.client fittingDigest) (Example.credentialEnv (SCRAM .sha256) (c!"username") (c!"secret"))
      [.step ⟨none, []⟩, .step ⟨some (b!"r=!!!!!!!!!!!!!!!!!!!!!!!!x,s=c2FsdA==,i=1"), []⟩,
        .step ⟨some (b!"v=" ++ Base64.encode account.serverKey), []⟩]).log.any (fun
      | .notified .scramCachedPassword _ => true
      | _ => false) = true := by decide +kernel

end Rsasl

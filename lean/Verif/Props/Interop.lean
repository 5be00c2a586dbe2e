/-
C74: the interop server and client.
-/
import Verif.Spec.Interop
import Verif.Props.Message
import Verif.Props.ExampleServers
import Verif.Props.First
import Verif.Props.Preference

namespace Rsasl

open Spec Interop

/-! ## Lines and words -/

/-- C74: what counts as white space. -/
theorem C74_space (c : Char) : isWhitespace c = true ↔ c ∈ whiteSpace := by
  have h : ∀ k : Nat, c.toNat = k ↔ c = Char.ofNat c.toNat ∧ c.toNat = k := by simp
  unfold isWhitespace
  simp only [whiteSpace, List.mem_cons, List.not_mem_nil, or_false, Bool.or_eq_true,
    Bool.and_eq_true, decide_eq_true_eq, beq_iff_eq, Char.ext_iff, ← UInt32.toNat_inj]
  show _ ↔ c.toNat = 9 ∨ c.toNat = 10 ∨ c.toNat = 11 ∨ c.toNat = 12 ∨ c.toNat = 13 ∨ c.toNat = 0x20 ∨
    c.toNat = 0x85 ∨ c.toNat = 0xA0 ∨ c.toNat = 0x1680 ∨ c.toNat = 0x2000 ∨ c.toNat = 0x2001 ∨
    c.toNat = 0x2002 ∨ c.toNat = 0x2003 ∨ c.toNat = 0x2004 ∨ c.toNat = 0x2005 ∨ c.toNat = 0x2006 ∨
    c.toNat = 0x2007 ∨ c.toNat = 0x2008 ∨ c.toNat = 0x2009 ∨ c.toNat = 0x200A ∨ c.toNat = 0x2028 ∨
    c.toNat = 0x2029 ∨ c.toNat = 0x202F ∨ c.toNat = 0x205F ∨ c.toNat = 0x3000
  omega

theorem not_space {c : Char} : isWhitespace c = false ↔ c ∉ whiteSpace := by
  rw [← C74_space, Bool.not_eq_true]

theorem splitWs_start {s : Str} (h : ∀ c ∈ s.head?, c ∈ whiteSpace) :
    ∃ rest, splitWs s = [] :: rest ∧ words s = rest.filter (fun w => !w.isEmpty) := by
  cases s with
  | nil => exact ⟨[], rfl, rfl⟩
  | cons c s =>
    have hc := (C74_space c).2 (h c rfl)
    have : splitWs (c :: s) = [] :: splitWs s := by rw [splitWs, if_pos hc]
    exact ⟨splitWs s, this, by unfold words; rw [this]; rfl⟩

theorem splitWs_word {w s : Str} {rest : List Str} (hw : ∀ c ∈ w, c ∉ whiteSpace)
    (h : splitWs s = [] :: rest) : splitWs (w ++ s) = w :: rest := by
  induction w with
  | nil => exact h
  | cons c w ih =>
    rw [List.cons_append, splitWs, if_neg (by simp [not_space.2 (hw c (.head _))]),
      ih (fun x hx => hw x (.tail _ hx))]

theorem words_of {s : Str} {ws : List Str} (h : WordsOf s ws) : words s = ws := by
  induction h with
  | nil => rfl
  | @space c s ws hc _ ih =>
    rw [← ih]
    unfold words
    rw [splitWs, if_pos ((C74_space c).2 hc)]
    rfl
  | @word w s ws hne hw hs _ ih =>
    obtain ⟨rest, h1, h2⟩ := splitWs_start hs
    rw [← ih, h2]
    unfold words
    rw [splitWs_word hw h1, List.filter_cons_of_pos (by simpa using hne)]

theorem all_of_takeWhile {p : Char → Bool} {s : Str} {c : Char} (h : c ∈ s.takeWhile p) : p c = true := by
  induction s with
  | nil => cases h
  | cons d s ih =>
    rw [List.takeWhile_cons] at h
    split at h
    · rcases List.mem_cons.1 h with rfl | h
      · assumption
      · exact ih h
    · cases h

theorem words_are (n : Nat) (s : Str) (hn : s.length ≤ n) : WordsOf s (words s) := by
  induction n generalizing s with
  | zero =>
    cases s with
    | nil => exact .nil
    | cons c s => simp at hn
  | succ n ih =>
    cases s with
    | nil => exact .nil
    | cons c s =>
      have hl : s.length ≤ n := by simpa using hn
      by_cases hc : c ∈ whiteSpace
      · have h := WordsOf.space hc (ih s hl)
        rwa [← words_of h] at h
      · have h1 := List.takeWhile_append_dropWhile (p := fun c => !isWhitespace c) (l := s)
        have h2 : ∀ x ∈ s.takeWhile (fun c => !isWhitespace c), x ∉ whiteSpace := fun x hx =>
          not_space.1 (by simpa using all_of_takeWhile hx)
        have h3 : ∀ x ∈ (s.dropWhile (fun c => !isWhitespace c)).head?, x ∈ whiteSpace := by
          intro x hx
          have := List.head?_dropWhile_not (fun c => !isWhitespace c) s
          rw [Option.mem_def] at hx
          rw [hx] at this
          exact (C74_space x).1 (by simpa using this)
        have h := WordsOf.word (w := c :: s.takeWhile (fun c => !isWhitespace c)) nofun
          (by
            intro x hx
            rcases List.mem_cons.1 hx with rfl | hx
            · exact hc
            · exact h2 x hx) h3
          (ih (s.dropWhile (fun c => !isWhitespace c))
            (Nat.le_trans (by
              have := congrArg List.length h1
              rw [List.length_append] at this
              omega) hl))
        rw [List.cons_append, h1] at h
        have e := words_of h
        rwa [← e] at h

/-- C74: the words of a line are the longest parts without white space. -/
theorem C74_words (s : Str) (ws : List Str) : words s = ws ↔ WordsOf s ws :=
  ⟨fun h => h ▸ words_are s.length s (Nat.le_refl _), words_of⟩

theorem trimmed_trim (s : Str) : Trimmed s (trim s) := by
  have hd : ∀ s : Str, ∃ b, s = b ++ s.dropWhile isWhitespace ∧ (∀ c ∈ b, c ∈ whiteSpace) ∧
      ∀ c ∈ (s.dropWhile isWhitespace).head?, c ∉ whiteSpace := by
    intro s
    refine ⟨s.takeWhile isWhitespace, List.takeWhile_append_dropWhile.symm,
      fun c hc => (C74_space c).1 (all_of_takeWhile hc), ?_⟩
    intro c hc
    have := List.head?_dropWhile_not isWhitespace s
    rw [Option.mem_def] at hc
    rw [hc] at this
    exact not_space.1 (by simpa using this)
  obtain ⟨b, h1, h2, h3⟩ := hd s
  obtain ⟨a, h4, h5, h6⟩ := hd (s.dropWhile isWhitespace).reverse
  have h4' := congrArg List.reverse h4
  rw [List.reverse_reverse, List.reverse_append] at h4'
  refine ⟨b, a.reverse, ?_, h2, fun c hc => h5 c (List.mem_reverse.1 hc), ?_, ?_⟩
  · rw [List.append_assoc]
    exact h1.trans (congrArg (b ++ ·) h4')
  · intro c hc
    refine h3 c ?_
    rw [Option.mem_def] at hc ⊢
    rw [h4', List.head?_append]
    unfold trim at hc
    rw [hc]
    rfl
  · intro c hc
    unfold trim at hc
    rw [List.getLast?_reverse] at hc
    exact h6 c hc

theorem dropWhile_white {b s : Str} (hb : ∀ c ∈ b, c ∈ whiteSpace)
    (hs : ∀ c ∈ s.head?, c ∉ whiteSpace) : (b ++ s).dropWhile isWhitespace = s := by
  rw [List.dropWhile_append_of_pos (fun c hc => (C74_space c).2 (hb c hc))]
  cases s with
  | nil => rfl
  | cons c s => rw [List.dropWhile_cons_of_neg (by simp [not_space.2 (hs c rfl)])]

/-- C74: what is left when a line is trimmed. -/
theorem C74_trim (s t : Str) : trim s = t ↔ Trimmed s t := by
  refine ⟨fun h => h ▸ trimmed_trim s, ?_⟩
  rintro ⟨b, a, rfl, hb, ha, h1, h2⟩
  unfold trim
  rw [List.append_assoc]
  cases t with
  | nil =>
    have : (b ++ ([] ++ a)).dropWhile isWhitespace = [] := by
      have := dropWhile_white (b := b ++ a) (s := []) (fun c hc =>
        (List.mem_append.1 hc).elim (hb c) (ha c)) nofun
      simpa using this
    rw [this]
    rfl
  | cons c t =>
    rw [dropWhile_white hb (by simpa using h1), List.reverse_append,
      dropWhile_white (fun c hc => ha c (List.mem_reverse.1 hc)) (by
        rw [List.head?_reverse]
        exact h2), List.reverse_reverse]

/-! ## The dialogue -/

theorem step64_cases (m : Mech) (env : Env) (ses : Session m.S) (input : Option Bytes) :
    (ses.step64 m env ⟨input, []⟩ = (⟨.err .base64, []⟩, ses) ∧
      ∃ t, input = some t ∧ ∀ b, t ≠ Base64.encode b) ∨
    ∃ c : Call, c.sched = [] ∧ c.input.map Base64.encode = input ∧
      ses.step64 m env ⟨input, []⟩ = (⟨(ses.step m env c).1.res,
        Base64.encode (ses.step m env c).1.out⟩, (ses.step m env c).2) := by
  cases input with
  | none => exact .inr ⟨⟨none, []⟩, rfl, rfl, rfl⟩
  | some t =>
    cases hd : Base64.decode t with
    | none =>
      refine .inl ⟨by simp only [Session.step64, hd], t, rfl, fun b hb => ?_⟩
      rw [Base64.decode_eq_some_iff.2 hb] at hd
      cases hd
    | some b =>
      right
      refine ⟨⟨some b, []⟩, rfl, ?_, ?_⟩
      · rw [Base64.decode_eq_some_iff.1 hd]; rfl
      · simp only [Session.step64, hd]

theorem messages_cons_sent {r : Reply State} {s : State} (h : r.res = .ok s)
    (hs : s.hasSentMessage = true) (rs : List (Reply State)) :
    messages (r :: rs) = r.out :: messages rs := by
  have : r.res ≠ .ok (.finished .no) := by
    rw [h]
    rintro ⟨⟩
    cases hs
  simp [messages, this]

theorem messages_cons_mute {r : Reply State} {s : State} (h : r.res = .ok s)
    (hs : s.hasSentMessage = false) (rs : List (Reply State)) :
    messages (r :: rs) = messages rs := by
  have : r.res = .ok (.finished .no) := by
    rw [h]
    rcases s with _ | (_ | _)
    · cases hs
    · cases hs
    · rfl
  simp [messages, this]

/-- What holds of a run of the loop: its replies as lines, and a closing line. -/
def IsDialogue (st : Started) (env : Env) (errText : SessionError → Bytes) (ses : Session st.mech.S)
    (texts : List (Option Bytes)) (out : Bytes) (run : Run) : Prop :=
  ∃ (calls : List Call) (closing : List Bytes),
    (∀ c ∈ calls, c.sched = []) ∧
    calls.map (·.input.map Base64.encode) <+: texts ∧
    run.out = out ++ asLines ((messages (ses.run st.mech env calls).1).map Base64.encode) ++
      asLines closing ∧
    Closing errText (ses.run st.mech env calls).1 (ses.run st.mech env calls).2.slot (texts.drop calls.length)
      (fun i => ((ses.run st.mech env calls).2.step st.mech env ⟨i, []⟩).1.res) run.res closing

theorem serveLoop_eq (m : Mech) (env : Env) (errText : SessionError → Bytes) (lines : List Line)
    (ses : Session m.S) (input : Option Bytes) (buffer out : Bytes) :
    serveLoop m env errText lines ses input buffer out =
    match (ses.step64 m env ⟨input, []⟩).1.res with
    | .panic => ⟨out, .panicked⟩
    | .err e => ⟨out ++ (b!"ERR " ++ errText e ++ b!"\n"), .failed⟩
    | .ok state =>
      if state.isRunning then
        match lines with
        | some line :: lines =>
          serveLoop m env errText lines (ses.step64 m env ⟨input, []⟩).2 (some (Str.bytes line))
            (if state.hasSentMessage then [] else buffer ++ (ses.step64 m env ⟨input, []⟩).1.out)
            (if state.hasSentMessage then
              out ++ (buffer ++ (ses.step64 m env ⟨input, []⟩).1.out ++ b!"\n") else out)
        | _ => ⟨if state.hasSentMessage then
              out ++ (buffer ++ (ses.step64 m env ⟨input, []⟩).1.out ++ b!"\n") else out, .failed⟩
      else
        ⟨(if state.hasSentMessage then
              out ++ (buffer ++ (ses.step64 m env ⟨input, []⟩).1.out ++ b!"\n") else out) ++
          asLines [verdictText (ses.step64 m env ⟨input, []⟩).2.slot], .ok⟩ := by
  conv => lhs; unfold serveLoop
  rcases hb : ses.step64 m env ⟨input, []⟩ with ⟨⟨state | e | _, o⟩, ses'⟩
  · simp only [Session.validation]
    split
    · rfl
    · rcases ses'.slot with _ | v <;> simp [verdictText, asLines]
  · rfl
  · rfl

theorem closing_cons {errText : SessionError → Bytes} {rs : List (Reply State)} {slot : Option VVal}
    {todo : List (Option Bytes)} {next : Option Bytes → Outcome State}
    {e : End} {closing : List Bytes} {r : Reply State} (hr : r.res = .ok .running)
    (h : Closing errText rs slot todo next e closing) : Closing errText (r :: rs) slot todo next e closing := by
  have hall : ∀ {rs}, AllRunning rs → AllRunning (r :: rs) := by
    intro rs h x hx
    rcases List.mem_cons.1 hx with rfl | hx
    · exact hr
    · exact h x hx
  cases h with
  | done h =>
    obtain ⟨rs', x, k, rfl, h1, h2⟩ := h
    exact .done ⟨r :: rs', x, k, rfl, hall h1, h2⟩
  | left h ht => exact .left (hall h) ht
  | refused h e t ht he => exact .refused (hall h) e t ht he
  | panicked h t ht he => exact .panicked (hall h) t ht he

theorem serveLoop_dialogue (st : Started) (env : Env) (errText : SessionError → Bytes) (lines : List Line)
    (ses : Session st.mech.S) (input : Option Bytes) (out : Bytes) :
    IsDialogue st env errText ses (input :: heard lines) out
      (serveLoop st.mech env errText lines ses input [] out) := by
  have nilRun : AllRunning ([] : List (Reply State)) := nofun
  induction lines generalizing ses input out with
  | nil => ?_
  | cons l lines ih => ?_
  all_goals
    rw [serveLoop_eq]
    rcases step64_cases st.mech env ses input with ⟨hb, t, rfl, ht⟩ | ⟨c, hc, hi, hb⟩
    · refine ⟨[], [b!"ERR " ++ errText .base64], nofun, by simp, ?_⟩
      simp only [hb]
      exact ⟨by simp [asLines, messages, Session.run], .refused nilRun _ _ rfl (.garbled t ht)⟩
    have hnext : Heard (fun i => (ses.step st.mech env ⟨i, []⟩).1.res) input (ses.step st.mech env c).1.res := by
      have := Heard.read (next := fun i => (ses.step st.mech env ⟨i, []⟩).1.res) c.input
      have hcall : (⟨c.input, []⟩ : Call) = c := by rw [← hc]
      rw [hi, hcall] at this
      exact this
    rcases hr : (ses.step st.mech env c).1.res with s | e | _
    rotate_left
    · refine ⟨[], [b!"ERR " ++ errText e], nofun, by simp, ?_⟩
      simp only [hb, hr]
      exact ⟨by simp [asLines, messages, Session.run], .refused nilRun _ _ rfl (hr ▸ hnext)⟩
    · refine ⟨[], [], nofun, by simp, ?_⟩
      simp only [hb, hr]
      exact ⟨by simp [asLines, messages, Session.run], .panicked nilRun _ rfl (hr ▸ hnext)⟩
    by_cases hrun : s.isRunning = true
    rotate_left
    · refine ⟨[c], [verdictText (ses.step st.mech env c).2.slot], by simpa using hc, by simp [hi], ?_⟩
      simp only [hb, hr, hrun, Bool.false_eq_true, if_false]
      refine ⟨?_, .done ⟨[], (ses.step st.mech env c).1, ?_⟩⟩
      · by_cases hs : s.hasSentMessage = true
        · rw [if_pos hs, run_cons, messages_cons_sent hr hs]
          simp [asLines, messages, Session.run]
        · rw [if_neg hs, run_cons, messages_cons_mute hr (by simpa using hs)]
          simp [asLines, messages, Session.run]
      · rcases s with _ | k
        · exact absurd rfl hrun
        · exact ⟨k, rfl, nilRun, hr⟩
    have hs : s = .running := by
      rcases s with _ | k
      · rfl
      · cases hrun
    subst hs
    have hsent : State.running.hasSentMessage = true := rfl
  · refine ⟨[c], [], by simpa using hc, by simp [hi], ?_⟩
    simp only [hb, hr, hrun, if_true, hsent]
    refine ⟨?_, .left ?_ rfl⟩
    · rw [run_cons, messages_cons_sent hr hsent]
      simp [asLines, messages, Session.run]
    · intro x hx
      rw [List.mem_singleton.1 hx]
      exact hr
  · cases l with
    | none =>
      refine ⟨[c], [], by simpa using hc, by simp [hi], ?_⟩
      simp only [hb, hr, hrun, if_true, hsent]
      refine ⟨?_, .left ?_ rfl⟩
      · rw [run_cons, messages_cons_sent hr hsent]
        simp [asLines, messages, Session.run]
      · intro x hx
        rw [List.mem_singleton.1 hx]
        exact hr
    | some l =>
      simp only [hb, hr, hrun, if_true, hsent]
      obtain ⟨calls, closing, h1, h2, h3, h4⟩ := ih (ses.step st.mech env c).2 (some (Str.bytes l))
        (out ++ ([] ++ Base64.encode (ses.step st.mech env c).1.out ++ b!"\n"))
      refine ⟨c :: calls, closing, ?_, ?_, ?_, ?_⟩
      · intro x hx
        rcases List.mem_cons.1 hx with rfl | hx
        · exact hc
        · exact h1 x hx
      · rw [List.map_cons, hi]
        exact List.cons_prefix_cons.2 ⟨rfl, h2⟩
      · rw [h3, run_cons, messages_cons_sent hr hsent]
        simp [asLines]
      · rw [run_cons]
        exact closing_cons hr h4

/-- Replies that are not passed on are empty (C68). -/
theorem messages_all {deps : Deps} {a : Auth} {st : Started} (h : a.startServer deps = some st)
    (env : Env) (ses : Session st.mech.S) (calls : List Call) :
    ∀ r ∈ (ses.run st.mech env calls).1, r.out ≠ [] →
      r.out ∈ messages (ses.run st.mech env calls).1 := by
  have key : ∀ r ∈ (ses.run st.mech env calls).1, r.res = .ok (.finished .no) → r.out = [] := by
    induction calls generalizing ses with
    | nil => nofun
    | cons c cs ih =>
      intro r hr
      rw [run_cons] at hr
      rcases List.mem_cons.1 hr with rfl | hr
      · intro he
        exact C68_no_loss deps a st (.inr h) env c ses _ he rfl
      · exact ih _ r hr
  intro r hr hne
  refine List.mem_map.2 ⟨r, List.mem_filter.2 ⟨hr, ?_⟩, rfl⟩
  simp only [ne_eq, decide_not, Bool.not_eq_eq_eq_not, Bool.not_true, decide_eq_false_iff_not]
  exact fun he => hne (key r hr he)

theorem shipped_starts (deps : Deps) {m : Mechanism} (h : m ∈ shipped) :
    ∃ f, m.server = some f ∧ ∀ l, ∃ b st, f l = .ok b ∧ b.startServer deps = some st := by
  simp only [shipped, List.mem_cons, List.not_mem_nil, or_false] at h
  rcases h with rfl | rfl | rfl | rfl | rfl | rfl | rfl | rfl | rfl | rfl | rfl | rfl | rfl <;>
  exact ⟨_, rfl, fun _ => ⟨_, _, rfl, rfl⟩⟩

/-- C74: the names of the crate's mechanisms, which are made without a check, are names by
`Mechname::parse`. -/
theorem C74_names {m : Mechanism} (h : m ∈ shipped) : Mechname.parse m.name = .ok m.name := by
  simp only [shipped, List.mem_cons, List.not_mem_nil, or_false] at h
  rcases h with rfl | rfl | rfl | rfl | rfl | rfl | rfl | rfl | rfl | rfl | rfl | rfl | rfl <;>
  decide +kernel

theorem offerLine_eq (names : List Bytes) : offerLine names = asLines [nameLine names] := by
  simp [offerLine, asLines, nameLine, List.flatMap]

/-- C74: whatever the client sends, if its first line does not name a mechanism of the server it only
gets the list of mechanisms. Otherwise a session of that mechanism is started and stepped with the
lines, each the base64 encoding of an input, until it is finished or fails; the client gets the
messages of the session, base64 encoded, one per line, and at the end one more line: the result of
validation, or the error the step with the next line ended with. No message that is not empty is left out. -/
theorem C74_dialogue (deps : Deps) (cfg : Config) (hcfg : ∀ m ∈ cfg.mechs, m ∈ shipped) (vars : Vars)
    (errText : SessionError → Bytes) (rng : Nat → Nat) (lines : List Line) :
    (handleClient deps cfg vars errText rng lines =
        ⟨asLines [nameLine (cfg.getAvailable.map (·.name))], .failed⟩ ∧
      ∀ m parts rest, ¬ Names cfg lines m parts rest) ∨
    ∃ m parts rest a st greeting texts calls closing,
      Names cfg lines m parts rest ∧ cfg.serverStart m.name = .ok (a, m) ∧
      a.startServer deps = some st ∧ Opening m.first parts rest greeting texts ∧
      (∀ c ∈ calls, c.sched = []) ∧ calls.map (·.input.map Base64.encode) <+: texts ∧
      let r := (st.session rng).run st.mech (serverEnv vars m.desc) calls
      Closing errText r.1 r.2.slot (texts.drop calls.length)
        (fun i => (r.2.step st.mech (serverEnv vars m.desc) ⟨i, []⟩).1.res) (handleClient deps cfg vars errText rng lines).res closing ∧
      (handleClient deps cfg vars errText rng lines).out =
        asLines ([nameLine (cfg.getAvailable.map (·.name))] ++ greeting ++
          (messages r.1).map Base64.encode ++ closing) ∧
      ∀ x ∈ r.1, x.out ≠ [] → x.out ∈ messages r.1 := by
  have hstart : ∀ m ∈ cfg.mechs, ∀ start, m.server = some start →
      ∃ a, start (cfg.mechs.map (·.name)) = .ok a := by
    intro m hm start hs
    obtain ⟨f, hf, hok⟩ := shipped_server (hcfg m hm)
    rw [hf] at hs
    cases hs
    exact hok _
  cases lines with
  | nil => exact .inl ⟨by simp only [handleClient, offerLine_eq], fun m parts rest ⟨_, _, h, _⟩ => nomatch h⟩
  | cons hello rest =>
  cases hello with
  | none => exact .inl ⟨by simp only [handleClient, offerLine_eq], fun m parts rest ⟨_, _, h, _⟩ => nomatch h⟩
  | some hello =>
  rcases hw : words hello with _ | ⟨name, parts⟩
  · refine .inl ⟨by simp only [handleClient, hw, offerLine_eq], ?_⟩
    rintro m parts rest' ⟨_, _, h, h', _⟩
    cases h
    rw [← C74_words, hw] at h'
    cases h'
  have unknown : (∀ m ∈ cfg.mechs, m.name ≠ Str.bytes name) →
      ∀ m parts rest', ¬ Names cfg (some hello :: rest) m parts rest' := by
    rintro hno m parts' rest' ⟨_, _, h, h', hm, hn⟩
    cases h
    rw [← C74_words, hw] at h'
    cases h'
    exact hno m hm hn
  rcases hp : Mechname.parse (Str.bytes name) with e | mechanism
  · refine .inl ⟨by simp only [handleClient, hw, hp, offerLine_eq], unknown ?_⟩
    intro m hm hn
    rw [← hn, C74_names (hcfg m hm)] at hp
    cases hp
  obtain ⟨rfl, -⟩ := (C01_parse_ok _ _).1 hp
  by_cases hex : ∃ m ∈ cfg.mechs, m.name = Str.bytes name
  · obtain ⟨m0, hm0, hn0⟩ := hex
    obtain ⟨f, hf, -⟩ := shipped_starts deps (hcfg m0 hm0)
    obtain ⟨a, m, hs, hn⟩ := C05_available_start cfg m0
      (((C05_available cfg).1 m0).2 ⟨hm0, by rw [hf]; nofun⟩) hstart
    rw [hn0] at hs hn
    obtain ⟨before, after, start, hme, -, hsv, hsa, -⟩ := (C05_start cfg _ a m).1 hs
    have hm : m ∈ cfg.mechs := by rw [hme]; simp
    obtain ⟨f', hf', hst⟩ := shipped_starts deps (hcfg m hm)
    obtain ⟨b, st, hb, hst⟩ := hst (cfg.mechs.map (·.name))
    rw [hsv] at hf'
    cases hf'
    rw [hsa] at hb
    cases hb
    right
    refine ⟨m, parts, rest, a, st, ?_⟩
    have hnames : Names cfg (some hello :: rest) m parts rest := ⟨hello, name, rfl, (C74_words _ _).1 hw, hm, hn⟩
    suffices h : ∃ greeting texts, Opening m.first parts rest greeting texts ∧
        IsDialogue st (serverEnv vars m.desc) errText (st.session rng) texts
          (asLines [nameLine (cfg.getAvailable.map (·.name))] ++ asLines greeting)
          (handleClient deps cfg vars errText rng (some hello :: rest)) by
      obtain ⟨greeting, texts, ho, calls, closing, h1, h2, h3, h4⟩ := h
      refine ⟨greeting, texts, calls, closing, hnames, by rw [hn]; exact hs, hst, ho, h1, h2, h4, ?_,
        messages_all hst _ _ _⟩
      rw [h3]
      simp [asLines]
    simp only [handleClient, hw, hp, hs, hst, offerLine_eq]
    have hfirst : (serverEnv vars m.desc).areWeFirst = true ↔ m.first = .server := by
      show (Side.server == m.first) = true ↔ _
      cases m.first <;> decide
    by_cases hours : m.first = .server
    · rw [if_pos (hfirst.2 hours)]
      refine ⟨[], _, .ours hours, ?_⟩
      have := serveLoop_dialogue st (serverEnv vars m.desc) errText rest (st.session rng) none
        (asLines [nameLine (cfg.getAvailable.map (·.name))])
      simpa [asLines] using this
    · rw [if_neg (fun h => hours (hfirst.1 h))]
      have htheirs : m.first = .client := by
        cases hc : m.first
        · rfl
        · exact absurd hc hours
      cases parts with
      | cons data parts =>
        refine ⟨[], _, .given htheirs data rfl, ?_⟩
        have := serveLoop_dialogue st (serverEnv vars m.desc) errText rest (st.session rng)
          (some (Str.bytes data)) (asLines [nameLine (cfg.getAvailable.map (·.name))])
        simpa [asLines] using this
      | nil =>
        have hleft : IsDialogue st (serverEnv vars m.desc) errText (st.session rng) []
            (asLines [nameLine (cfg.getAvailable.map (·.name))] ++ asLines [b!"-"])
            ⟨asLines [nameLine (cfg.getAvailable.map (·.name))] ++ b!"-\n", .failed⟩ :=
          ⟨[], [], nofun, by simp, by simp [asLines, messages, Session.run], .left nofun rfl⟩
        cases rest with
        | nil => exact ⟨[b!"-"], _, .asked htheirs rfl, hleft⟩
        | cons line rest =>
          cases line with
          | none => exact ⟨[b!"-"], _, .asked htheirs rfl, hleft⟩
          | some line =>
            refine ⟨[b!"-"], _, .asked htheirs rfl, ?_⟩
            have := serveLoop_dialogue st (serverEnv vars m.desc) errText rest (st.session rng)
              (some (Str.bytes line))
              (asLines [nameLine (cfg.getAvailable.map (·.name))] ++ b!"-\n")
            simpa [asLines, heard] using this
  · have hno : ∀ m ∈ cfg.mechs, m.name ≠ Str.bytes name := fun m hm hn => hex ⟨m, hm, hn⟩
    refine .inl ⟨?_, unknown hno⟩
    simp only [handleClient, hw, hp, offerLine_eq,
      (C05_no_shared cfg (Str.bytes name) hstart).2 (fun m hm hn => absurd hn (hno m hm))]

/-! ## The last line -/

/-- What a client has given to be told `VALID`: with PLAIN and LOGIN, any name and password; with
SCRAM, a proof, over the messages of the exchange, of knowing the keys of the account "username". -/
inductive Spec.Earned (deps : Deps) : Mechanism → List (Option Bytes) → VVal → Prop where
  | plain (input : Bytes) (authzid authid : Str) (password : Bytes)
      (h : PlainMessage deps.prep input authzid authid password) :
      Earned deps PLAIN [some input] (display authid (some authzid) (some password))
  | login (x : Option Bytes) (user : Str) (password : Bytes) :
      Earned deps LOGIN [x, some (Str.bytes user), some password] (display user none (some password))
  | scram (m : Mechanism) (h : Hash) (hm : m = SCRAM h ∨ m = SCRAMPLUS h) (b0 b1 : Bytes)
      (flag : Scram.CbFlag) (authzid : Option Str) (cnonce snonce data auth given proof key : Bytes)
      (exts0 exts1 : List Bytes)
      (h0 : ClientFirstRead b0 flag key authzid (c!"username") cnonce exts0)
      (ha : auth = authMessage (clientFirstBare (c!"username") cnonce)
        (serverFirst (cnonce ++ snonce) (Base64.encode account.salt) (b!"4096"))
        (clientFinalBare (Base64.encode (gs2Header flag authzid ++ data)) (cnonce ++ snonce)))
      (h1 : ProofGiven (deps.digest h) account (gs2Header flag authzid ++ data) (cnonce ++ snonce) auth
        b1 exts1 given proof) :
      Earned deps m [some b0, some b1] (display (c!"username") authzid none)

theorem run_length (m : Mech) (env : Env) (ses : Session m.S) (calls : List Call) :
    (ses.run m env calls).1.length = calls.length := by
  induction calls generalizing ses with
  | nil => rfl
  | cons c cs ih => rw [run_cons]; simp [ih]

theorem Spec.Completed.head {r : Reply State} {rs : List (Reply State)} (h : Completed (r :: rs)) :
    (rs = [] ∧ ∃ k, r.res = .ok (.finished k)) ∨ (r.res = .ok .running ∧ Completed rs) := by
  obtain ⟨rs', x, k, he, h1, h2⟩ := h
  cases rs' with
  | nil =>
    simp only [List.nil_append, List.cons.injEq] at he
    exact .inl ⟨he.2, k, by rw [he.1]; exact h2⟩
  | cons y ys =>
    simp only [List.cons_append, List.cons.injEq] at he
    exact .inr ⟨by rw [he.1]; exact h1 y (by simp), ys, x, k, he.2, fun z hz => h1 z (by simp [hz]), h2⟩

theorem plain_name (m : MechDesc) (hm : m.name = b!"PLAIN") (vars : Vars) (authzid authid : Str)
    (password : Bytes) :
    Accepts (serverEnv vars m) (plainOffer authzid authid password)
      (display authid (some authzid) (some password)) := by
  intro log ctx hx
  show returned _ _ (validateProg m.name ctx) = _ ∧ firstValue _ (validateProg m.name ctx) = _
  unfold validateProg
  rw [if_pos (.inl hm), hx .authId, hx .password, hx .authzId]
  exact ⟨rfl, rfl⟩

theorem login_name (m : MechDesc) (hm : m.name = b!"LOGIN") (vars : Vars) (authid : Str)
    (password : Bytes) :
    Accepts (serverEnv vars m) (loginOffer authid password) (display authid none (some password)) := by
  intro log ctx hx
  show returned _ _ (validateProg m.name ctx) = _ ∧ firstValue _ (validateProg m.name ctx) = _
  unfold validateProg
  rw [if_pos (.inr hm), hx .authId, hx .password, hx .authzId]
  exact ⟨rfl, rfl⟩

theorem plain_earned (deps : Deps) (hprep : ∀ s, deps.prep [] = some s → s = []) (vars : Vars)
    (ses : Session (Plain.server deps.prep).S) (hs : ses.slot = none) (calls : List Call)
    (h : Completed (ses.run (Plain.server deps.prep) (serverEnv vars PLAIN.desc) calls).1) :
    ∃ v, (ses.run (Plain.server deps.prep) (serverEnv vars PLAIN.desc) calls).2.slot = some v ∧
      Earned deps PLAIN (calls.map (·.input)) v := by
  cases calls with
  | nil => obtain ⟨rs', x, k, he, -⟩ := h; simp [Session.run] at he
  | cons c cs =>
    rw [run_cons] at h ⊢
    by_cases hm : ∃ input authzid authid password, c.input = some input ∧
        PlainMessage deps.prep input authzid authid password
    · obtain ⟨input, authzid, authid, password, hi, hm⟩ := hm
      obtain ⟨ctx, hx, he⟩ := C09_accepts deps.prep hprep (serverEnv vars PLAIN.desc) ses input c.sched
        authzid authid password hm
      obtain ⟨h1, h2⟩ := he.accepted hx (plain_name _ rfl vars authzid authid password) hs
      have hc : c = ⟨some input, c.sched⟩ := by cases c; cases hi; rfl
      have h1 : (ses.step (Plain.server deps.prep) (serverEnv vars PLAIN.desc) c).1.res =
        .ok (.finished .no) := by rw [hc]; exact h1
      have h2 : (ses.step (Plain.server deps.prep) (serverEnv vars PLAIN.desc) c).2.slot =
          some (display authid (some authzid) (some password)) := by
        rw [hc]; exact h2
      rcases h.head with ⟨hr, -⟩ | ⟨hr, -⟩
      · have hl := run_length (Plain.server deps.prep) (serverEnv vars PLAIN.desc)
          (ses.step (Plain.server deps.prep) (serverEnv vars PLAIN.desc) c).2 cs
        rw [hr] at hl
        obtain rfl := List.length_eq_zero_iff.1 hl.symm
        exact ⟨_, h2, by simp only [List.map_cons, hi, List.map_nil]; exact .plain _ _ _ _ hm⟩
      · rw [h1] at hr
        cases hr
    · obtain ⟨e, he⟩ := C09_rejects deps.prep (serverEnv vars PLAIN.desc) ses c
        (fun input authzid authid password hi hp => hm ⟨_, _, _, _, hi, hp⟩)
      have he : (ses.step (Plain.server deps.prep) (serverEnv vars PLAIN.desc) c).1.res = .err e := by
        erw [he]
      rcases h.head with ⟨-, _, hr⟩ | ⟨hr, -⟩ <;> rw [he] at hr <;> cases hr

theorem login_step_new (env : Env) (ses : Session Login.server.S) (hst : ses.st = Login.SState.new)
    (c : Call) (hc : c.sched = []) :
    ses.step Login.server env c = (⟨.ok .running, Login.userPrompt⟩,
      { ses with st := Login.SState.waitingForUsername }) := by
  obtain ⟨st, slot, rng, log⟩ := ses
  obtain ⟨input, sched⟩ := c
  cases hst
  cases hc
  rfl

theorem login_step_user (env : Env) (ses : Session Login.server.S)
    (hst : ses.st = Login.SState.waitingForUsername) (c : Call) (hc : c.sched = []) :
    (∃ u, c.input = some (Str.bytes u) ∧ ses.step Login.server env c =
      (⟨.ok .running, Login.passwordPrompt⟩, { ses with st := Login.SState.waitingForPassword u })) ∨
    ∃ e, (ses.step Login.server env c).1.res = .err e := by
  obtain ⟨st, slot, rng, log⟩ := ses
  obtain ⟨input, sched⟩ := c
  cases hst
  cases hc
  cases input with
  | none => exact .inr ⟨_, rfl⟩
  | some b =>
    cases hu : fromUtf8 b with
    | none =>
      refine .inr ⟨.mechanismError .loginUtf8, ?_⟩
      unfold Session.step Session.exec
      simp only [Login.server]
      unfold Login.serverStep
      rw [M.bind_ok (M.get_apply ..)]
      simp only [hu]
      rfl
    | some u =>
      refine .inl ⟨u, by rw [bytes_of_fromUtf8 _ _ hu], ?_⟩
      unfold Session.step Session.exec
      simp only [Login.server]
      unfold Login.serverStep
      rw [M.bind_ok (M.get_apply ..)]
      simp only [hu]
      rfl

theorem login_step_valid (env : Env) (ses : Session Login.server.S) (u : Str)
    (hst : ses.st = Login.SState.waitingForPassword u) (p : Bytes) (sched : List WResp) :
    ∃ ctx : Provider, ctx.Exactly (loginOffer u p) ∧
      EndsValidated env ses ctx (.finished .no) [] (ses.step Login.server env ⟨some p, sched⟩) := by
  obtain ⟨st, slot, rng, log⟩ := ses
  cases hst
  refine ⟨Login.provider u p, fun q => by cases q <;> rfl, ?_⟩
  exact (endsValidated (env := env)
    (ses := ⟨Login.SState.waitingForPassword u, slot, rng, log⟩)
    (ctx := Login.provider u p) (st := .finished .no) (s' := .done)
    (m := Login.serverStep env (some p)) (sched := sched) (sched' := sched)
    (by intro w hw; subst hw; rfl)).1

theorem login_step_password (env : Env) (ses : Session Login.server.S) (u : Str)
    (hst : ses.st = Login.SState.waitingForPassword u) (c : Call) :
    (∃ p, c.input = some p ∧ ∃ ctx : Provider, ctx.Exactly (loginOffer u p) ∧
      EndsValidated env ses ctx (.finished .no) [] (ses.step Login.server env c)) ∨
    ∃ e, (ses.step Login.server env c).1.res = .err e := by
  obtain ⟨st, slot, rng, log⟩ := ses
  obtain ⟨input, sched⟩ := c
  cases hst
  cases input with
  | none => exact .inr ⟨_, rfl⟩
  | some p => exact .inl ⟨p, rfl, login_step_valid env _ u rfl p sched⟩

theorem completed_nil : ¬ Completed [] := by
  rintro ⟨rs', x, k, he, -⟩
  simp at he

theorem run_eq_nil {m : Mech} {env : Env} {ses : Session m.S} {calls : List Call}
    (h : (ses.run m env calls).1 = []) : calls = [] := by
  have hl := run_length m env ses calls
  rw [h] at hl
  exact List.length_eq_zero_iff.1 hl.symm

theorem login_earned (deps : Deps) (vars : Vars) (ses : Session Login.server.S)
    (hst : ses.st = Login.SState.new) (hs : ses.slot = none) (calls : List Call)
    (hw : ∀ c ∈ calls, c.sched = [])
    (h : Completed (ses.run Login.server (serverEnv vars LOGIN.desc) calls).1) :
    ∃ v, (ses.run Login.server (serverEnv vars LOGIN.desc) calls).2.slot = some v ∧
      Earned deps LOGIN (calls.map (·.input)) v := by
  cases calls with
  | nil => exact absurd h completed_nil
  | cons c0 cs =>
  rw [run_cons, login_step_new _ ses hst c0 (hw _ (by simp))] at h ⊢
  rcases h.head with ⟨-, _, hr⟩ | ⟨-, h⟩
  · cases hr
  cases cs with
  | nil => exact absurd h completed_nil
  | cons c1 cs =>
  rw [run_cons] at h ⊢
  rcases login_step_user (serverEnv vars LOGIN.desc) { ses with st := Login.SState.waitingForUsername }
    rfl c1 (hw _ (by simp)) with ⟨u, hi, he⟩ | ⟨e, he⟩
  rotate_left
  · rcases h.head with ⟨-, _, hr⟩ | ⟨hr, -⟩ <;> rw [he] at hr <;> cases hr
  rw [he] at h ⊢
  rcases h.head with ⟨-, _, hr⟩ | ⟨-, h⟩
  · cases hr
  cases cs with
  | nil => exact absurd h completed_nil
  | cons c2 cs =>
  rw [run_cons] at h ⊢
  rcases login_step_password (serverEnv vars LOGIN.desc)
    { ses with st := Login.SState.waitingForPassword u } u rfl c2 with ⟨p, hp, ctx, hx, he⟩ | ⟨e, he⟩
  rotate_left
  · rcases h.head with ⟨-, _, hr⟩ | ⟨hr, -⟩ <;> rw [he] at hr <;> cases hr
  obtain ⟨h1, h2⟩ := he.accepted hx (login_name _ rfl vars u p) hs
  rcases h.head with ⟨hr, -⟩ | ⟨hr, -⟩
  · obtain rfl := run_eq_nil hr
    exact ⟨_, h2, by simp only [List.map_cons, hi, hp, List.map_nil]; exact .login _ _ _⟩
  · rw [h1] at hr
    cases hr

theorem scram_earned (deps : Deps) (hash : Hash) (m : Mechanism)
    (hm : m = SCRAM hash ∨ m = SCRAMPLUS hash) (vars : Vars) (canCb : Bool) (rng : Nat → Nat)
    (calls : List Call) (v : VVal)
    (h : Completed (Session.run (Scram.server (deps.digest hash)) (serverEnv vars m.desc)
      { st := Scram.serverNew canCb, rng := rng } calls).1)
    (hv : (Session.run (Scram.server (deps.digest hash)) (serverEnv vars m.desc)
      { st := Scram.serverNew canCb, rng := rng } calls).2.slot = some v) :
    Earned deps m (calls.map (·.input)) v := by
  generalize henv : serverEnv vars m.desc = env at h hv
  have hb : BuiltinServer deps ⟨Scram.server (deps.digest hash), Scram.serverNew canCb⟩ :=
    ⟨.scramServer hash canCb, rfl⟩
  have hslot := C16_session (.inl hb) env rng (calls.map .step) (by simp)
  rw [afterAll_steps] at hslot
  have hslot := hslot.symm.trans hv
  obtain ⟨log, ctx, hctx, hval⟩ := firstSet_some hslot
  obtain ⟨es, hlog, hno | ⟨c0, c1, rest, r0, r1, post, b0, flag, key, authzid, user, cnonce, exts0, data,
    snonce, stored, b1, auth, exts1, given, proof, rfl, hrs, hvs, hi0, hread, -, -, hlacks, hsup, -, -, -,
    -, hauth, hi1, hproof, -, -, hfin, hpost⟩⟩ := C26_partial (deps.digest hash) env
      (Started.session ⟨Scram.server (deps.digest hash), Scram.serverNew canCb⟩ rng) canCb rfl calls
  · have hlog : (Session.run _ env _ calls).2.log = es := hlog
    rw [hlog, hno] at hctx
    cases hctx
  · have hlog : (Session.run _ env _ (c0 :: c1 :: rest)).2.log = es := hlog
    rw [hlog, hvs, List.mem_singleton] at hctx
    subst hctx
    have hoff := Scram.serverProvider_exactly user authzid
    have hcall : ∀ log' ctx', env.callback log' env.sd ctx' = callback vars ctx' := by
      subst henv
      intros; rfl
    have huser : user = c!"username" := by
      refine Decidable.byContradiction fun hne => hlacks ?_
      intro log' ctx' hx'
      have e : ctx'.getRef .authId = some user := hx' .authId
      rw [hcall]
      refine .is _ _ (.is _ _ (.is _ _ ?_))
      show Declines _ (if ctx'.getRef .authId = some (c!"username") then _ else _)
      rw [if_neg (by rw [e]; intro h; exact hne (Option.some.inj h))]
      exact .ok
    subst huser
    have hstored : stored = account := by
      refine hsup (· = account) ?_
      intro log' ctx' hx'
      rw [hcall]
      have hanswer : ∀ (q : Property) (v : q.Value),
          (∀ h : q = .scramStoredPassword, (h ▸ v : Property.Value .scramStoredPassword) = account) →
          (answer q v).Supplies .scramStoredPassword (· = account) :=
        fun q v h => ⟨h, fun r => by cases r <;> trivial⟩
      refine fun b => ?_
      cases b
      · refine fun b => ?_
        cases b
        · refine fun b => ?_
          cases b
          · trivial
          · show (if ctx'.getRef .authId = some (c!"username") then _ else _ : CbProg).Supplies _ _
            split
            · exact hanswer _ _ fun _ => rfl
            · trivial
        · show (match vars.cbdata with | none => _ | some data => _ : CbProg).Supplies _ _
          cases vars.cbdata
          · trivial
          · exact hanswer _ _ nofun
      · show (match vars.cbname with | none => _ | some data => _ : CbProg).Supplies _ _
        cases vars.cbname
        · trivial
        · exact hanswer _ _ nofun
    subst hstored
    have hname : m.name ≠ b!"PLAIN" ∧ m.name ≠ b!"LOGIN" ∧ (b!"SCRAM-").isPrefixOf m.name = true := by
      rcases hm with rfl | rfl <;> cases hash <;> decide +kernel
    have hv' : v = display (c!"username") authzid none := by
      subst henv
      have hval : firstValue interopValidation (validateProg m.name
        (Scram.serverProvider (c!"username") authzid)) = some v := hval
      unfold validateProg at hval
      rw [if_neg (by rintro (h | h); exact hname.1 h; exact hname.2.1 h), if_pos hname.2.2,
        hoff .authId, hoff .authzId] at hval
      exact (Option.some.inj hval).symm
    have e4096 : storedCount account = b!"4096" := by
      show Str.bytes (Scram.decimal 4096) = _
      decide +kernel
    rw [e4096] at hauth
    have hrest : rest = [] := by
      have hrs : (Session.run (Scram.server (deps.digest hash)) env
        { st := Scram.serverNew canCb, rng := rng } (c0 :: c1 :: rest)).1 = r0 :: r1 :: post := hrs
      have hl := run_length (Scram.server (deps.digest hash)) env
        { st := Scram.serverNew canCb, rng := rng } (c0 :: c1 :: rest)
      rw [hrs] at hl h
      rcases h.head with ⟨h', -⟩ | ⟨-, h⟩
      · cases h'
      rcases h.head with ⟨rfl, -⟩ | ⟨h', -⟩
      · simpa using hl.symm
      · exact absurd (hfin _ h') (by decide)
    subst hrest
    rw [hv']
    simp only [List.map_cons, hi0, hi1, List.map_nil]
    exact .scram m hash hm _ _ _ _ _ _ _ _ _ _ _ _ _ hread hauth hproof

theorem others_nothing (deps : Deps) (a : Auth) (st : Started) (hst : a.startServer deps = some st)
    (m : MechDesc) (hm : m.name ≠ b!"PLAIN" ∧ m.name ≠ b!"LOGIN" ∧
      (b!"SCRAM-").isPrefixOf m.name = false) (vars : Vars) (rng : Nat → Nat) (calls : List Call) :
    ((st.session rng).run st.mech (serverEnv vars m) calls).2.slot = none := by
  have hslot := C16_session (.inl ⟨a, hst⟩) (serverEnv vars m) rng (calls.map .step) (by simp)
  rw [afterAll_steps] at hslot
  rcases hv : ((st.session rng).run st.mech (serverEnv vars m) calls).2.slot with _ | v
  · rfl
  · obtain ⟨log, ctx, -, hval⟩ := firstSet_some (hslot.symm.trans hv)
    have hval : firstValue interopValidation (validateProg m.name ctx) = some v := hval
    unfold validateProg at hval
    rw [if_neg (by rintro (h | h); exact hm.1 h; exact hm.2.1 h), if_neg (by simp [hm.2.2])] at hval
    cases hval

theorem shipped_earned (deps : Deps) (hprep : ∀ s, deps.prep [] = some s → s = []) (vars : Vars)
    (cfg : Config) (m : Mechanism) (hm : m ∈ shipped) (a : Auth) (st : Started)
    (hs : cfg.serverStart m.name = .ok (a, m)) (hst : a.startServer deps = some st) (rng : Nat → Nat)
    (calls : List Call) (hw : ∀ c ∈ calls, c.sched = [])
    (h : Completed ((st.session rng).run st.mech (serverEnv vars m.desc) calls).1) :
    (∀ v, ((st.session rng).run st.mech (serverEnv vars m.desc) calls).2.slot = some v →
      Earned deps m (calls.map (·.input)) v) ∧
    (((st.session rng).run st.mech (serverEnv vars m.desc) calls).2.slot = none →
      m ≠ PLAIN ∧ m ≠ LOGIN) := by
  obtain ⟨_, _, start, -, -, hsv, hsa, -⟩ := (C05_start cfg _ a m).1 hs
  have hmem := hm
  simp only [shipped, List.mem_cons, List.not_mem_nil, or_false] at hm
  have other : m.name ≠ b!"PLAIN" ∧ m.name ≠ b!"LOGIN" ∧ (b!"SCRAM-").isPrefixOf m.name = false →
      (∀ v, ((st.session rng).run st.mech (serverEnv vars m.desc) calls).2.slot = some v →
        Earned deps m (calls.map (·.input)) v) ∧
      (((st.session rng).run st.mech (serverEnv vars m.desc) calls).2.slot = none →
        m ≠ PLAIN ∧ m ≠ LOGIN) := by
    intro hn
    have := others_nothing deps a st hst m.desc hn vars rng calls
    rw [this]
    exact ⟨nofun, fun _ => ⟨by rintro rfl; exact hn.1 rfl, by rintro rfl; exact hn.2.1 rfl⟩⟩
  have scram : ∀ hash canCb, (m = SCRAM hash ∨ m = SCRAMPLUS hash) →
      st = ⟨Scram.server (deps.digest hash), Scram.serverNew canCb⟩ →
      (∀ v, ((st.session rng).run st.mech (serverEnv vars m.desc) calls).2.slot = some v →
        Earned deps m (calls.map (·.input)) v) ∧
      (((st.session rng).run st.mech (serverEnv vars m.desc) calls).2.slot = none →
        m ≠ PLAIN ∧ m ≠ LOGIN) := by
    rintro hash canCb hk rfl
    refine ⟨fun v hv => scram_earned deps hash m hk vars canCb rng calls v h hv, fun _ => ?_⟩
    have hne : m.name ≠ PLAIN.name ∧ m.name ≠ LOGIN.name := by
      rcases hk with rfl | rfl <;> cases hash <;> decide +kernel
    exact ⟨fun e => hne.1 (e ▸ rfl), fun e => hne.2 (e ▸ rfl)⟩
  rcases hm with rfl | rfl | rfl | rfl | rfl | rfl | rfl | rfl | rfl | rfl | rfl | rfl | rfl <;>
    cases hsv <;> cases hsa <;> cases hst
  · obtain ⟨v, h1, h2⟩ := plain_earned deps hprep vars _ rfl calls h
    have h1 : (Session.run (Plain.server deps.prep) (serverEnv vars PLAIN.desc)
      (Started.session ⟨Plain.server deps.prep, ()⟩ rng) calls).2.slot = some v := h1
    rw [h1]
    exact ⟨fun v hv => Option.some.inj hv ▸ h2, nofun⟩
  · obtain ⟨v, h1, h2⟩ := login_earned deps vars _ rfl rfl calls hw h
    have h1 : (Session.run Login.server (serverEnv vars LOGIN.desc)
      (Started.session ⟨Login.server, Login.SState.new⟩ rng) calls).2.slot = some v := h1
    rw [h1]
    exact ⟨fun v hv => Option.some.inj hv ▸ h2, nofun⟩
  · exact other (by decide +kernel)
  · exact other (by decide +kernel)
  · exact other (by decide +kernel)
  · exact other (by decide +kernel)
  · exact other (by decide +kernel)
  · exact scram .sha1 _ (.inl rfl) rfl
  · exact scram .sha256 _ (.inl rfl) rfl
  · exact scram .sha512 _ (.inl rfl) rfl
  · exact scram .sha1 true (.inr rfl) rfl
  · exact scram .sha256 true (.inr rfl) rfl
  · exact scram .sha512 true (.inr rfl) rfl

/-- C74: whoever is told `OK` has earned it, by `Earned`; a dialogue that is not closed by `OK` or an
error is closed by `ERR NOTVALID`, and that does not happen with PLAIN and LOGIN. -/
theorem C74_ok (deps : Deps) (hprep : ∀ s, deps.prep [] = some s → s = []) (cfg : Config)
    (hcfg : ∀ m ∈ cfg.mechs, m ∈ shipped) (vars : Vars) (errText : SessionError → Bytes)
    (rng : Nat → Nat) (lines : List Line)
    (hok : (handleClient deps cfg vars errText rng lines).res = .ok) :
    ∃ m parts rest greeting texts inputs, ∃ msgs : List Bytes, ∃ slot,
      Names cfg lines m parts rest ∧ Opening m.first parts rest greeting texts ∧
      inputs.map (·.map Base64.encode) <+: texts ∧
      (handleClient deps cfg vars errText rng lines).out =
        asLines ([nameLine (cfg.getAvailable.map (·.name))] ++ greeting ++ msgs.map Base64.encode ++
          [verdictText slot]) ∧
      (∀ v, slot = some v → Earned deps m inputs v) ∧ (slot = none → m ≠ PLAIN ∧ m ≠ LOGIN) := by
  rcases C74_dialogue deps cfg hcfg vars errText rng lines with ⟨h, -⟩ |
    ⟨m, parts, rest, a, st, greeting, texts, calls, closing, hn, hs, hst, ho, hw, hpre, hcl, hout, -⟩
  · rw [h] at hok
    cases hok
  · rw [hok] at hcl
    obtain ⟨_, _, _, _, hm, _⟩ := id hn
    cases hcl with
    | done hcomp =>
      obtain ⟨h1, h2⟩ := shipped_earned deps hprep vars cfg m (hcfg m hm) a st hs hst rng calls hw hcomp
      exact ⟨m, parts, rest, greeting, texts, calls.map (·.input), _, _, hn, ho,
        by rw [List.map_map]; exact hpre, hout, h1, h2⟩

/-! ## Lines -/

theorem splitOn_asLines {ls : List Bytes} (h : ∀ l ∈ ls, (10 : UInt8) ∉ l) (r : Bytes) :
    splitOn 10 (asLines ls ++ r) = ls ++ splitOn 10 r := by
  induction ls with
  | nil => rfl
  | cons p ps ih =>
    rw [asLines, List.flatMap_cons, List.append_assoc, List.append_assoc, List.singleton_append,
      splitOn_append_sep (h p (by simp))]
    have := ih (fun q hq => h q (by simp [hq]))
    rw [asLines] at this
    rw [this]
    rfl

theorem splitOn_nameLine {ls : List Bytes} (h : ∀ l ∈ ls, (32 : UInt8) ∉ l) :
    splitOn 32 (nameLine ls) = ls ++ [[]] := by
  induction ls with
  | nil => rfl
  | cons p ps ih =>
    have e : nameLine (p :: ps) = p ++ 32 :: nameLine ps := by simp [nameLine]
    rw [e, splitOn_append_sep (h p (by simp)), ih (fun q hq => h q (by simp [hq]))]
    rfl

theorem encode_plain {x : UInt8} (hx : x = 10 ∨ x = 32 ∨ x = 45) (b : Bytes) :
    x ∉ Base64.encode b := by
  intro h
  rcases Base64.mem_encode h with ⟨n, hn, h⟩ | h
  · have : ∀ n : Fin 64, Base64.sym n.val ≠ 10 ∧ Base64.sym n.val ≠ 32 ∧ Base64.sym n.val ≠ 45 := by
      decide
    have := this ⟨n, hn⟩
    rcases hx with rfl | rfl | rfl
    · exact this.1 h.symm
    · exact this.2.1 h.symm
    · exact this.2.2 h.symm
  · rcases hx with rfl | rfl | rfl <;> exact absurd h (by decide)

theorem name_plain {m : Mechanism} (h : m ∈ shipped) : (10 : UInt8) ∉ m.name ∧ (32 : UInt8) ∉ m.name := by
  obtain ⟨-, -, hall⟩ := (C01_parse_ok _ _).1 (C74_names h)
  exact ⟨fun hm => absurd (hall _ hm) (by decide), fun hm => absurd (hall _ hm) (by decide)⟩

/-- C74: read line by line, what the server sends is the list of mechanisms, the invitation to send if
there was one, the encoded messages, and then the closing: the first line, split at spaces, is the
list of the names (and an empty word); a message contains neither the `-` of the invitation nor a
space, unlike every closing line; so the client knows which is which. -/
theorem C74_lines (cfg : Config) (hcfg : ∀ m ∈ cfg.mechs, m ∈ shipped) (greeting msgs : List Bytes)
    (hg : greeting = [] ∨ greeting = [b!"-"]) (closing : Bytes) :
    splitOn 10 (asLines ([nameLine (cfg.getAvailable.map (·.name))] ++ greeting ++
        msgs.map Base64.encode) ++ closing) =
      nameLine (cfg.getAvailable.map (·.name)) :: (greeting ++ msgs.map Base64.encode ++
        splitOn 10 closing) ∧
    splitOn 32 (nameLine (cfg.getAvailable.map (·.name))) = cfg.getAvailable.map (·.name) ++ [[]] ∧
    (∀ x ∈ msgs.map Base64.encode, (32 : UInt8) ∉ x ∧ (45 : UInt8) ∉ x) ∧
    (∀ slot, (32 : UInt8) ∈ verdictText slot) := by
  have hnames : ∀ n ∈ cfg.getAvailable.map (·.name), (10 : UInt8) ∉ n ∧ (32 : UInt8) ∉ n := by
    intro n hn
    obtain ⟨m, hm, rfl⟩ := List.mem_map.1 hn
    exact name_plain (hcfg m (((C05_available cfg).1 m).1 hm).1)
  refine ⟨?_, splitOn_nameLine fun n hn => (hnames n hn).2, ?_, ?_⟩
  · rw [splitOn_asLines]
    · simp
    · intro l hl
      simp only [List.mem_append, List.mem_singleton, List.mem_map] at hl
      rcases hl with (rfl | hl) | ⟨b, -, rfl⟩
      · intro h
        simp only [nameLine, List.mem_flatMap, List.mem_append, List.mem_singleton] at h
        obtain ⟨n, hn, h | h⟩ := h
        · exact (hnames n hn).1 h
        · exact absurd h (by decide)
      · rcases hg with rfl | rfl
        · cases hl
        · rw [List.mem_singleton.1 hl]; decide
      · exact encode_plain (.inl rfl) b
  · intro x hx
    obtain ⟨b, -, rfl⟩ := List.mem_map.1 hx
    exact ⟨encode_plain (.inr (.inl rfl)) b, encode_plain (.inr (.inr rfl)) b⟩
  · intro slot
    cases slot <;> simp [verdictText]

/-- SASLprep does not bring in line ends. -/
def Spec.NoNewLines (prep : Str → Option Str) : Prop :=
  ∀ s s', prep s = some s' → '\n' ∉ s → '\n' ∉ s'

/-- The full statement: a client that is told `OK` or `ERR NOTVALID` is told so in one line. -/
def C74_one_line : Prop :=
  ∀ (deps : Deps) (_ : ∀ s, deps.prep [] = some s → s = []) (_ : NoNewLines deps.prep)
    (cfg : Config) (_ : ∀ m ∈ cfg.mechs, m ∈ shipped) (vars : Vars) (errText : SessionError → Bytes) (rng : Nat → Nat) (lines : List Line),
    (handleClient deps cfg vars errText rng lines).res = .ok →
    ∃ (greeting msgs : List Bytes) (slot : Option VVal),
      splitOn 10 (handleClient deps cfg vars errText rng lines).out =
        nameLine (cfg.getAvailable.map (·.name)) :: (greeting ++ msgs.map Base64.encode ++
          [verdictText slot, []]) ∧ (greeting = [] ∨ greeting = [b!"-"])

theorem commas_intercalate (l : List Bytes) : commas l = (b!", ").intercalate l := by
  fun_induction commas l with
  | case1 => rfl
  | case2 x => simp
  | case3 x y rest ih => rw [ih, List.intercalate_cons_cons, List.append_assoc]

/-- C74: bytes that are no text are shown as numbers in brackets, with commas between them. -/
theorem C74_debug (b : Bytes) : debugBytes b =
    b!"[" ++ (b!", ").intercalate (b.map fun x => Str.bytes (Nat.repr x.toNat).toList) ++ b!"]" := by
  unfold debugBytes
  rw [commas_intercalate]
  simp [Nat.repr]

theorem commas_plain (l : List Bytes) (h : ∀ x ∈ l, (10 : UInt8) ∉ x) : (10 : UInt8) ∉ commas l := by
  fun_induction commas l with
  | case1 => simp
  | case2 x => exact h x (by simp)
  | case3 x y rest ih =>
    simp only [List.mem_append, not_or]
    exact ⟨⟨h x (by simp), by decide⟩, ih fun z hz => h z (by simp at hz ⊢; exact .inr hz)⟩

theorem debugBytes_plain (b : Bytes) : (10 : UInt8) ∉ debugBytes b := by
  unfold debugBytes
  simp only [List.mem_append, not_or]
  refine ⟨⟨by decide, commas_plain _ ?_⟩, by decide⟩
  intro x hx h
  obtain ⟨n, -, rfl⟩ := List.mem_map.1 hx
  rw [mem_bytes_ascii (by decide)] at h
  exact absurd (Nat.isDigit_of_mem_toDigits (by decide) (by decide) h) (by decide)

/-- C74: the text of the result has a line end exactly if the name, the authorization id or the
password (if it is shown as text) has one. -/
theorem C74_display (authid : Str) (authzid : Option Str) (password : Option Bytes) :
    (10 : UInt8) ∈ display authid authzid password ↔
      '\n' ∈ authid ∨ (∃ z, authzid = some z ∧ '\n' ∈ z) ∨
      ∃ p : Str, password = some (Str.bytes p) ∧ '\n' ∈ p := by
  have hb : ∀ s : Str, (10 : UInt8) ∈ Str.bytes s ↔ '\n' ∈ s := fun s => mem_bytes_ascii (by decide) s
  have hz : ∀ a b c : Bytes, (10 : UInt8) ∈ a ++ b ++ c ↔ (10 : UInt8) ∈ a ∨ 10 ∈ b ∨ 10 ∈ c := by
    intro a b c
    simp [or_assoc]
  unfold display
  rw [hz]
  refine or_congr ?_ (or_congr ?_ ?_)
  · simp [hb]
  · cases authzid with
    | none => simp
    | some z => simp [hb]
  · cases password with
    | none => simp
    | some p =>
      simp only [Option.some.injEq]
      constructor
      · intro h
        rcases List.mem_append.1 h with h | h
        · exact absurd h (by decide)
        · split at h
          · rename_i s hs
            exact ⟨s, (bytes_of_fromUtf8 _ _ hs).symm, (hb s).1 h⟩
          · exact absurd h (debugBytes_plain p)
      · rintro ⟨t, rfl, h⟩
        refine List.mem_append.2 (.inr ?_)
        rw [fromUtf8_bytes]
        exact (hb t).2 h

theorem earned_plain {deps : Deps} (hp : NoNewLines deps.prep) {m : Mechanism}
    {inputs : List (Option Bytes)} {v : VVal} (h : Earned deps m inputs v)
    (hin : ∀ b, some b ∈ inputs → (10 : UInt8) ∉ b) : (10 : UInt8) ∉ v := by
  have hb : ∀ s : Str, (10 : UInt8) ∈ Str.bytes s ↔ '\n' ∈ s := fun s => mem_bytes_ascii (by decide) s
  cases h with
  | plain input authzid authid password h =>
    obtain ⟨rawId, rawPw, rfl, -, -, -, h1, -, h2, -⟩ := h
    have := hin _ (List.mem_singleton.2 rfl)
    simp only [List.mem_append, List.mem_cons, not_or, hb] at this
    obtain ⟨n1, -, n2, -, n3⟩ := this
    rw [C74_display]
    rintro (h | ⟨z, hz, h⟩ | ⟨p, hpw, h⟩)
    · exact hp _ _ h1 n2 h
    · cases hz
      exact n1 h
    · cases hpw
      rcases h2 with ⟨s, s', rfl, hs, he⟩ | ⟨hno, he⟩
      · rw [Str.bytes_injective he] at h
        rw [hb] at n3
        exact hp _ _ hs n3 h
      · exact hno p he.symm
  | login x user password =>
    have h1 := hin (Str.bytes user) (by simp)
    have h2 := hin password (by simp)
    rw [hb] at h1
    rw [C74_display]
    rintro (h | ⟨z, hz, h⟩ | ⟨p, hpw, h⟩)
    · exact h1 h
    · cases hz
    · cases hpw
      rw [hb] at h2
      exact h2 h
  | scram _ h hm b0 b1 flag authzid cnonce snonce data auth given proof key exts0 exts1 h0 =>
    have h1 := hin b0 (by simp)
    rw [C74_display]
    rintro (h | ⟨z, rfl, h⟩ | ⟨p, hpw, -⟩)
    · exact absurd h (by decide)
    · rw [h0.message] at h1
      simp only [List.mem_append, not_or, authzidBytes, hb] at h1
      exact h1.1.1.1.2.2 h
    · cases hpw

theorem mem_heard {t : Bytes} {lines : List Line} (h : some t ∈ heard lines) :
    ∃ l, some l ∈ lines ∧ Str.bytes l = t := by
  obtain ⟨x, hx, he⟩ := List.mem_map.1 h
  cases x with
  | none => cases he
  | some l => exact ⟨l, List.takeWhile_subset _ hx, Option.some.inj he⟩

/-- C74, result in one line, for clients that do not send line ends within their (encoded) messages.
Missing: the others, for whom it is false (`C74_false`). -/
theorem C74_partial (deps : Deps) (hprep : ∀ s, deps.prep [] = some s → s = [])
    (hnl : NoNewLines deps.prep) (cfg : Config)
    (hcfg : ∀ m ∈ cfg.mechs, m ∈ shipped) (vars : Vars) (errText : SessionError → Bytes)
    (rng : Nat → Nat) (lines : List Line)
    (hin : ∀ b l w, some l ∈ lines → w = l ∨ (∃ ws, WordsOf l ws ∧ w ∈ ws) → Str.bytes w = Base64.encode b →
      (10 : UInt8) ∉ b)
    (hok : (handleClient deps cfg vars errText rng lines).res = .ok) :
    ∃ (greeting msgs : List Bytes) (slot : Option VVal),
      splitOn 10 (handleClient deps cfg vars errText rng lines).out =
        nameLine (cfg.getAvailable.map (·.name)) :: (greeting ++ msgs.map Base64.encode ++
          [verdictText slot, []]) ∧ (greeting = [] ∨ greeting = [b!"-"]) := by
  obtain ⟨m, parts, rest, greeting, texts, inputs, msgs, slot, hn, ho, hpre, hout, he, -⟩ :=
    C74_ok deps hprep cfg hcfg vars errText rng lines hok
  have hg : greeting = [] ∨ greeting = [b!"-"] := by
    cases ho
    · exact .inl rfl
    · exact .inl rfl
    · exact .inr rfl
  refine ⟨greeting, msgs, slot, ?_, hg⟩
  have hlines := (C74_lines cfg hcfg greeting msgs hg (verdictText slot ++ [10])).1
  have e : asLines ([nameLine (cfg.getAvailable.map (·.name))] ++ greeting ++ msgs.map Base64.encode ++
      [verdictText slot]) = asLines ([nameLine (cfg.getAvailable.map (·.name))] ++ greeting ++
      msgs.map Base64.encode) ++ (verdictText slot ++ [10]) := by
    simp [asLines]
  rw [hout, e, hlines]
  have hv : (10 : UInt8) ∉ verdictText slot := by
    cases slot with
    | none => decide
    | some v =>
      have : (10 : UInt8) ∉ v := by
        refine earned_plain hnl (he v rfl) ?_
        intro b hb
        have ht : some (Base64.encode b) ∈ texts :=
          hpre.subset (List.mem_map.2 ⟨some b, hb, rfl⟩)
        obtain ⟨hello, name, rfl, hw, -, -⟩ := hn
        have hrest : some (Base64.encode b) ∈ heard rest → (10 : UInt8) ∉ b := by
          intro h
          obtain ⟨l, hl, hle⟩ := mem_heard h
          exact hin b l l (by simp [hl]) (.inl rfl) hle
        cases ho with
        | ours h =>
          rcases List.mem_cons.1 ht with h | h
          · cases h
          · exact hrest h
        | given h data hd =>
          rcases List.mem_cons.1 ht with h | h
          · refine hin b hello data (by simp) (.inr ?_) (Option.some.inj h).symm
            refine ⟨_, hw, ?_⟩
            cases parts with
            | nil => cases hd
            | cons d ds => cases hd; simp
          · exact hrest h
        | asked h hp => exact hrest ht
      simp only [verdictText, List.mem_append, not_or]
      exact ⟨by decide, this⟩
  rw [splitOn_append_sep hv]
  rfl

/-! ## Complete runs -/

theorem step64_none (m : Mech) (env : Env) (ses : Session m.S) :
    ses.step64 m env ⟨none, []⟩ = (⟨(ses.step m env ⟨none, []⟩).1.res,
        Base64.encode (ses.step m env ⟨none, []⟩).1.out⟩, (ses.step m env ⟨none, []⟩).2) := rfl

theorem step64_encoded (m : Mech) (env : Env) (ses : Session m.S) (b : Bytes) :
    ses.step64 m env ⟨some (Base64.encode b), []⟩ = (⟨(ses.step m env ⟨some b, []⟩).1.res,
        Base64.encode (ses.step m env ⟨some b, []⟩).1.out⟩, (ses.step m env ⟨some b, []⟩).2) := by
  simp only [Session.step64, Base64.decode_encode]

theorem named_start {cfg : Config} (hcfg : ∀ m ∈ cfg.mechs, m ∈ shipped) {m : Mechanism}
    (hm : m ∈ cfg.mechs) (huniq : ∀ m' ∈ shipped, m'.name = m.name → m' = m) :
    ∃ a f, m.server = some f ∧ f (cfg.mechs.map (·.name)) = .ok a ∧
      cfg.serverStart m.name = .ok (a, m) := by
  have hstart : ∀ m ∈ cfg.mechs, ∀ start, m.server = some start →
      ∃ a, start (cfg.mechs.map (·.name)) = .ok a := by
    intro m hm start hs
    obtain ⟨f, hf, hok⟩ := shipped_server (hcfg m hm)
    rw [hf] at hs
    cases hs
    exact hok _
  obtain ⟨f, hf, -⟩ := shipped_server (hcfg m hm)
  obtain ⟨a, m', hs, hn⟩ := C05_available_start cfg m
    (((C05_available cfg).1 m).2 ⟨hm, by rw [hf]; nofun⟩) hstart
  obtain ⟨before, after, start, hme, -, hsv, hsa, -⟩ := (C05_start cfg _ a m').1 hs
  obtain rfl := huniq m' (hcfg m' (by rw [hme]; simp)) hn
  exact ⟨a, start, hsv, hsa, hs⟩

theorem unique_name {m : Mechanism} (hm : m = PLAIN ∨ m = LOGIN) :
    ∀ m' ∈ shipped, m'.name = m.name → m' = m := by
  intro m' h hn
  simp only [shipped, List.mem_cons, List.not_mem_nil, or_false] at h
  rcases hm with rfl | rfl <;>
  rcases h with rfl | rfl | rfl | rfl | rfl | rfl | rfl | rfl | rfl | rfl | rfl | rfl | rfl <;>
  first
  | rfl
  | exact absurd hn (by decide +kernel)

theorem words_name_plain : Str.bytes (c!"PLAIN") = PLAIN.name := by decide +kernel

theorem words_name_login : Str.bytes (c!"LOGIN") = LOGIN.name := by decide +kernel

/-- One step that ends the dialogue. -/
theorem serveLoop_done {m : Mech} {env : Env} {errText : SessionError → Bytes} {lines : List Line}
    {ses : Session m.S} {b : Bytes} {out : Bytes}
    (h : (ses.step m env ⟨some b, []⟩).1.res = .ok (.finished .no)) :
    serveLoop m env errText lines ses (some (Base64.encode b)) [] out =
      ⟨out ++ asLines [verdictText (ses.step m env ⟨some b, []⟩).2.slot], .ok⟩ := by
  rw [serveLoop_eq, step64_encoded]
  simp only [h, State.isRunning, State.hasSentMessage, Bool.false_eq_true, if_false]

/-- One step after which the client is asked again. -/
theorem serveLoop_more {m : Mech} {env : Env} {errText : SessionError → Bytes} {line : Str}
    {lines : List Line} {ses ses' : Session m.S} {b : Option Bytes} {out o : Bytes}
    (h : ses.step m env ⟨b, []⟩ = (⟨.ok .running, o⟩, ses')) :
    serveLoop m env errText (some line :: lines) ses (b.map Base64.encode) [] out =
      serveLoop m env errText lines ses' (some (Str.bytes line)) [] (out ++ asLines [Base64.encode o]) := by
  rw [serveLoop_eq]
  cases b with
  | none =>
    rw [Option.map_none, step64_none, h]
    simp [State.isRunning, State.hasSentMessage, asLines]
  | some b =>
    rw [Option.map_some, step64_encoded, h]
    simp [State.isRunning, State.hasSentMessage, asLines]

/-- C74: a client that selects PLAIN and sends a proper message, with its first line or after being
asked for it, is told that the names and the password are as they were in that message. -/
theorem C74_plain (deps : Deps) (hprep : ∀ s, deps.prep [] = some s → s = []) (cfg : Config)
    (hcfg : ∀ m ∈ cfg.mechs, m ∈ shipped) (hm : PLAIN ∈ cfg.mechs) (vars : Vars)
    (errText : SessionError → Bytes) (rng : Nat → Nat) (hello : Str) (rest : List Line)
    (input : Bytes) (authzid authid : Str) (password : Bytes)
    (h : PlainMessage deps.prep input authzid authid password) :
    (∀ data more, WordsOf hello (c!"PLAIN" :: data :: more) → Str.bytes data = Base64.encode input →
      handleClient deps cfg vars errText rng (some hello :: rest) =
        ⟨asLines [nameLine (cfg.getAvailable.map (·.name)),
          b!"OK " ++ display authid (some authzid) (some password)], .ok⟩) ∧
    ∀ line, WordsOf hello [c!"PLAIN"] → Str.bytes line = Base64.encode input →
      handleClient deps cfg vars errText rng (some hello :: some line :: rest) =
        ⟨asLines [nameLine (cfg.getAvailable.map (·.name)), b!"-",
          b!"OK " ++ display authid (some authzid) (some password)], .ok⟩ := by
  obtain ⟨a, f, hf, ha, hs⟩ := named_start hcfg hm (unique_name (.inl rfl))
  cases hf
  cases ha
  have hp := C74_names (hcfg _ hm)
  rw [← words_name_plain] at hs hp
  have hst : Auth.plain.startServer deps = some ⟨Plain.server deps.prep, ()⟩ := rfl
  have hfirst : (serverEnv vars PLAIN.desc).areWeFirst = false := rfl
  let ses : Session (Plain.server deps.prep).S := Started.session ⟨Plain.server deps.prep, ()⟩ rng
  obtain ⟨ctx, hx, he⟩ := C09_accepts deps.prep hprep (serverEnv vars PLAIN.desc) ses input []
    authzid authid password h
  obtain ⟨h1, h2⟩ := he.accepted hx (plain_name _ rfl vars authzid authid password) rfl
  constructor
  · intro data more hw hd
    simp only [handleClient, (C74_words _ _).2 hw, hp, hs, hst, hfirst, offerLine_eq, hd, Bool.false_eq_true, if_false]
    refine (serveLoop_done (m := Plain.server deps.prep) (ses := ses) h1).trans ?_
    erw [h2]
    simp [asLines, verdictText]
  · intro line hw hd
    simp only [handleClient, (C74_words _ _).2 hw, hp, hs, hst, hfirst, offerLine_eq, hd, Bool.false_eq_true, if_false]
    refine (serveLoop_done (m := Plain.server deps.prep) (ses := ses) h1).trans ?_
    erw [h2]
    simp [asLines, verdictText]

theorem login_step_name (env : Env) (ses : Session Login.server.S)
    (hst : ses.st = Login.SState.waitingForUsername) (u : Str) :
    ses.step Login.server env ⟨some (Str.bytes u), []⟩ =
      (⟨.ok .running, Login.passwordPrompt⟩, { ses with st := Login.SState.waitingForPassword u }) := by
  rcases login_step_user env ses hst ⟨some (Str.bytes u), []⟩ rfl with ⟨v, hv, h⟩ | ⟨e, h⟩
  · rw [Str.bytes_injective (Option.some.inj hv)]
    rw [← Str.bytes_injective (Option.some.inj hv)] at h ⊢
    exact h
  · obtain ⟨st, slot, rng, log⟩ := ses
    cases hst
    exfalso
    unfold Session.step Session.exec at h
    simp only [Login.server] at h
    unfold Login.serverStep at h
    rw [M.bind_ok (M.get_apply ..)] at h
    simp only [fromUtf8_bytes] at h
    cases h

/-- C74: a client that selects LOGIN and sends a name and a password is told that these are valid. -/
theorem C74_login (deps : Deps) (cfg : Config) (hcfg : ∀ m ∈ cfg.mechs, m ∈ shipped)
    (hm : LOGIN ∈ cfg.mechs) (vars : Vars) (errText : SessionError → Bytes) (rng : Nat → Nat)
    (hello line line' : Str) (parts : List Str) (rest : List Line) (user : Str) (password : Bytes)
    (hw : WordsOf hello (c!"LOGIN" :: parts)) (hl : Str.bytes line = Base64.encode (Str.bytes user))
    (hl' : Str.bytes line' = Base64.encode password) :
    handleClient deps cfg vars errText rng (some hello :: some line :: some line' :: rest) =
      ⟨asLines [nameLine (cfg.getAvailable.map (·.name)), Base64.encode (b!"User Name\x00"),
        Base64.encode (b!"Password\x00"), b!"OK " ++ display user none (some password)], .ok⟩ := by
  obtain ⟨a, f, hf, ha, hs⟩ := named_start hcfg hm (unique_name (.inr rfl))
  cases hf
  cases ha
  have hp := C74_names (hcfg _ hm)
  rw [← words_name_login] at hs hp
  have hst : Auth.login.startServer deps = some ⟨Login.server, Login.SState.new⟩ := rfl
  have hfirst : (serverEnv vars LOGIN.desc).areWeFirst = true := rfl
  let ses : Session Login.server.S := Started.session ⟨Login.server, Login.SState.new⟩ rng
  simp only [handleClient, (C74_words _ _).2 hw, hp, hs, hst, hfirst, offerLine_eq, if_true]
  refine (serveLoop_more (m := Login.server) (b := none)
    (login_step_new _ ses rfl ⟨none, []⟩ rfl)).trans ?_
  rw [hl]
  refine (serveLoop_more (m := Login.server) (b := some (Str.bytes user))
    (login_step_name _ _ rfl user)).trans ?_
  rw [hl']
  obtain ⟨ctx, hx, he⟩ := login_step_valid (serverEnv vars LOGIN.desc)
    { ses with st := Login.SState.waitingForPassword user } user rfl password []
  obtain ⟨h1, h2⟩ := he.accepted hx (login_name _ rfl vars user password) rfl
  refine (serveLoop_done (m := Login.server) h1).trans ?_
  erw [h2]
  simp [asLines, verdictText, Login.userPrompt, Login.passwordPrompt]

theorem config_shipped : ∀ m ∈ config.mechs, m ∈ shipped := by
  intro m hm
  simp only [config, builtinMechs, List.mem_cons, List.not_mem_nil, or_false] at hm
  simp only [shipped, List.mem_cons, List.not_mem_nil, or_false]
  tauto

/-- What a client sends that has a line end in its name. -/
def forger : List Line :=
  [some (c!"LOGIN"), some (c!"eApPSyBWQUxJRCBhdXRoaWQ9YWRtaW4="), some (c!"cA==")]

theorem forger_lines :
    Str.bytes (c!"eApPSyBWQUxJRCBhdXRoaWQ9YWRtaW4=") =
      Base64.encode (Str.bytes (c!"x\nOK VALID authid=admin")) ∧
    Str.bytes (c!"cA==") = Base64.encode (b!"p") := by decide +kernel

/-- C74: the result is not always one line: a client can have the server write a line of its own
choosing. -/
theorem C74_false : ¬ C74_one_line := by
  intro h
  have hrun := C74_login toyDeps config config_shipped (by simp [config, builtinMechs]) ⟨none, none⟩ (fun _ => [])
    (fun _ => 0) (c!"LOGIN") _ _ [] [] _ _ ((C74_words _ _).1 (by decide +kernel)) forger_lines.1 forger_lines.2
  obtain ⟨greeting, msgs, slot, hout, hg⟩ := h toyDeps (fun s hs => (Option.some.inj hs).symm)
    (fun s s' hs hn => (Option.some.inj hs) ▸ hn) config config_shipped
    ⟨none, none⟩ (fun _ => []) (fun _ => 0) forger (by
      show (handleClient _ _ _ _ _ (some _ :: some _ :: some _ :: [])).res = _
      rw [hrun])
  have hout : splitOn 10 (handleClient _ _ _ _ _ (some _ :: some _ :: some _ :: [])).out = _ := hout
  rw [hrun] at hout
  have hl := (C74_lines config config_shipped [] [b!"User Name\x00", b!"Password\x00"] (.inl rfl)
    (b!"OK " ++ display (c!"x\nOK VALID authid=admin") none (some (b!"p")) ++ [10])).1
  simp only [asLines, List.flatMap_cons, List.flatMap_nil, List.map_cons, List.map_nil, List.append_nil,
    List.nil_append, List.cons_append, List.append_assoc] at hl hout
  rw [hl] at hout
  have hs : splitOn 10 (b!"OK " ++ (display (c!"x\nOK VALID authid=admin") none (some (b!"p")) ++ [10])) =
    [b!"OK VALID authid=x", b!"OK VALID authid=admin password=p", []] := by decide +kernel
  simp only [List.cons_append, List.nil_append] at hs
  rw [hs] at hout
  have hout := (List.cons.inj hout).2
  rcases hg with rfl | rfl
  · rw [List.nil_append] at hout
    rcases msgs with _ | ⟨m0, _ | ⟨m1, _ | ⟨m2, _⟩⟩⟩
    · simp at hout
    · simp at hout
    · simp at hout
    · simp only [List.map_cons, List.cons_append, List.cons.injEq] at hout
      have : (32 : UInt8) ∉ Base64.encode m2 := encode_plain (.inr (.inl rfl)) m2
      rw [← hout.2.2.1] at this
      exact this (by decide)
  · have : Base64.encode (b!"User Name\x00") = b!"-" := (List.cons.inj hout).1
    revert this
    decide +kernel

/-- C74: the text of a result does not tell which names it is about. -/
theorem C74_ambiguous (password : Bytes) :
    display (c!"a authzid=b") none (some password) = display (c!"a") (some (c!"b")) (some password) := by
  have h : b!"VALID authid=" ++ Str.bytes (c!"a authzid=b") =
    b!"VALID authid=" ++ Str.bytes (c!"a") ++ (b!" authzid=" ++ Str.bytes (c!"b")) := by decide +kernel
  simp only [display, List.append_nil]
  rw [h]

/-- C74: the one account's keys have 32 bytes, so with a hash of another length (all but SHA-256) no
client can earn a result. -/
theorem C74_key_length (deps : Deps) (hash : Hash) (hlen : (deps.digest hash).outLen ≠ 32)
    (m : Mechanism) (hm : m = SCRAM hash ∨ m = SCRAMPLUS hash) (inputs : List (Option Bytes)) (v : VVal) :
    ¬ Earned deps m inputs v := by
  intro h
  cases h with
  | plain => rcases hm with hm | hm <;> cases hash <;> exact absurd (congrArg Mechanism.name hm) (by decide +kernel)
  | login => rcases hm with hm | hm <;> cases hash <;> exact absurd (congrArg Mechanism.name hm) (by decide +kernel)
  | scram _ h' hm' _ _ _ _ _ _ _ _ _ _ _ _ _ _ _ h1 =>
    have hh : h' = hash := by
      rcases hm with rfl | rfl <;> rcases hm' with hm' | hm' <;> cases hash <;> cases h' <;> first
        | rfl
        | exact absurd (congrArg Mechanism.name hm') (by decide +kernel)
    subst hh
    refine hlen ?_
    have := congrArg List.length h1.proven
    rw [(deps.digest h').hash_length] at this
    rw [this]
    rfl

/-! ## The client -/

theorem clientLoop_sent (m : Mech) (env : Env) (lines : List Line) (ses : Session m.S)
    (input : Option Str) (sent : Bytes) (printed : List Bytes) :
    (clientLoop m env lines ses input sent printed).sent = sent := by
  induction lines generalizing ses input printed with
  | nil =>
    unfold clientLoop
    rcases ses.step64 m env ⟨input.map (fun s => Str.bytes (trim s)), []⟩ with ⟨⟨state | e | _, o⟩, ses'⟩
    · simp only
      split <;> rfl
    · rfl
    · rfl
  | cons l lines ih =>
    conv => lhs; unfold clientLoop
    rcases ses.step64 m env ⟨input.map (fun s => Str.bytes (trim s)), []⟩ with ⟨⟨state | e | _, o⟩, ses'⟩
    · simp only
      split
      · cases l with
        | none => rfl
        | some l => exact ih ..
      · rfl
    · rfl
    · rfl

/-- C74: asked for the value of a variable that is not set, the callback answers `NoValue`, and takes
nothing. -/
theorem C74_unset {S G : Type} (ctx : Provider) (f : Str → M S G) (g : Bytes → M S G) (s : S) (w : World)
    (cbname cbdata : Option Str) :
    runSat .overrideCBType f (callback ⟨none, cbdata⟩ ctx) .open s w =
      (.ok (.error (.callbackError .noValue), .open), s, w) ∧
    runSat .channelBindings g (callback ⟨cbname, none⟩ ctx) .open s w =
      (.ok (.error (.callbackError .noValue), .open), s, w) :=
  ⟨rfl, rfl⟩

/-- C74: the client runs the mechanism `RSASL_MECH` names, if it is one of the default mechanisms, and
no other. -/
theorem C74_client_mech (mech : Bytes) (m : Mechanism) :
    (∃ a, clientMech mech = some (a, m)) ↔ m ∈ builtinMechs ∧ m.name = mech := by
  have hk : config.Known := shipped_known config_shipped
  constructor
  · rintro ⟨a, h⟩
    unfold clientMech at h
    split at h
    · cases h
    · next name hn =>
      have : name = mech := by
        unfold Mechname.parse at hn
        split at hn
        · cases hn
        · split at hn <;> cases hn
          rfl
      subst this
      split at h
      · next r hr =>
        cases h
        obtain ⟨h1, h2⟩ := C02_no_channel_binding_partial config hk rfl _ _ _ hr
        exact ⟨h1, List.mem_singleton.1 h2⟩
      · cases h
  · rintro ⟨hm, rfl⟩
    simp only [builtinMechs, List.mem_cons, List.not_mem_nil, or_false] at hm
    rcases hm with rfl | rfl | rfl | rfl | rfl | rfl | rfl | rfl | rfl <;> exact ⟨_, rfl⟩

example : clientMech (b!"SCRAM-SHA-256-PLUS") = none := rfl

/-- C74: whatever the client reads, all it sends is the name of the mechanism. What its session has to
say it prints. -/
theorem C74_client_sends (st : Started) (env : Env) (rng : Nat → Nat) (lines : List Line) :
    (clientTalk st env rng lines).sent = env.sd.mech.name ++ b!"\n" := by
  unfold clientTalk
  simp only
  split
  · exact clientLoop_sent ..
  · cases lines with
    | nil => rfl
    | cons l lines =>
      cases l with
      | none => rfl
      | some l => exact clientLoop_sent ..

theorem hears_trim (input : Option Str) : Hears input (input.map fun s => Str.bytes (trim s)) := by
  cases input with
  | none => exact .nothing
  | some s => exact .line (trimmed_trim s)

theorem hears_iff {input : Option Str} {text : Option Bytes} (h : Hears input text) :
    text = input.map fun s => Str.bytes (trim s) := by
  cases h with
  | nothing => rfl
  | line ht => rw [← (C74_trim _ _).2 ht]; rfl

theorem clientLoop_prints (m : Mech) (env : Env) (lines : List Line) (ses : Session m.S)
    (input : Option Str) (sent : Bytes) (printed : List Bytes) :
    ∃ ps, (clientLoop m env lines ses input sent printed).printed = printed ++ ps ∧
      Prints m env ses input lines ps (clientLoop m env lines ses input sent printed).res := by
  induction lines generalizing ses input printed with
  | nil =>
    unfold clientLoop
    obtain ⟨⟨⟨res, o⟩, ses'⟩, hs⟩ : ∃ x, ses.step64 m env ⟨input.map (fun s => Str.bytes (trim s)), []⟩ = x :=
      ⟨_, rfl⟩
    rw [hs]
    rcases res with state | e | _
    · cases state with
      | running => exact ⟨[o], rfl, .waits (hears_trim _) hs⟩
      | finished => exact ⟨[o], rfl, .done (hears_trim _) hs⟩
    · exact ⟨[], (List.append_nil _).symm, .failed (hears_trim _) hs⟩
    · exact ⟨[], (List.append_nil _).symm, .panicked (hears_trim _) hs⟩
  | cons l lines ih =>
    unfold clientLoop
    obtain ⟨⟨⟨res, o⟩, ses'⟩, hs⟩ : ∃ x, ses.step64 m env ⟨input.map (fun s => Str.bytes (trim s)), []⟩ = x :=
      ⟨_, rfl⟩
    rw [hs]
    rcases res with state | e | _
    · cases state with
      | running =>
        cases l with
        | none => exact ⟨[o], rfl, .unreadable (hears_trim _) hs⟩
        | some l =>
          obtain ⟨ps, h1, h2⟩ := ih ses' (some l) (printed ++ [o])
          exact ⟨o :: ps, by
            show (clientLoop m env lines ses' (some l) sent (printed ++ [o])).printed = _
            rw [h1, List.append_assoc]
            rfl, .next (hears_trim _) hs h2⟩
      | finished => exact ⟨[o], rfl, .done (hears_trim _) hs⟩
    · exact ⟨[], (List.append_nil _).symm, .failed (hears_trim _) hs⟩
    · exact ⟨[], (List.append_nil _).symm, .panicked (hears_trim _) hs⟩

/-- C74: the client prints the name of the mechanism and what its session says to the lines it reads. It
ends well if the session does; it fails if a step or a read fails. -/
theorem C74_client_prints (st : Started) (env : Env) (rng : Nat → Nat) (lines : List Line) :
    ∃ ps, (clientTalk st env rng lines).printed = env.sd.mech.name :: ps ∧
      ((env.areWeFirst = true ∧
          Prints st.mech env (st.session rng) none lines ps (clientTalk st env rng lines).res) ∨
       (env.areWeFirst = false ∧ ∃ ps', ps = [] :: ps' ∧
         ((lines = [] ∧ ps' = [] ∧ (clientTalk st env rng lines).res = none) ∨
          (∃ rest, lines = none :: rest ∧ ps' = [] ∧ (clientTalk st env rng lines).res = some .failed) ∨
          ∃ line rest, lines = some line :: rest ∧
            Prints st.mech env (st.session rng) (some line) rest ps' (clientTalk st env rng lines).res))) := by
  unfold clientTalk
  simp only
  split
  · next h =>
    obtain ⟨ps, h1, h2⟩ := clientLoop_prints st.mech env lines (st.session rng) none
      (env.sd.mech.name ++ b!"\n") [env.sd.mech.name]
    exact ⟨ps, h1, .inl ⟨h, h2⟩⟩
  · next h =>
    have h := Bool.eq_false_iff.2 h
    cases lines with
    | nil => exact ⟨[[]], rfl, .inr ⟨h, [], rfl, .inl ⟨rfl, rfl, rfl⟩⟩⟩
    | cons l lines =>
      cases l with
      | none => exact ⟨[[]], rfl, .inr ⟨h, [], rfl, .inr (.inl ⟨_, rfl, rfl, rfl⟩)⟩⟩
      | some l =>
        obtain ⟨ps, h1, h2⟩ := clientLoop_prints st.mech env lines (st.session rng) (some l)
          (env.sd.mech.name ++ b!"\n") [env.sd.mech.name, []]
        exact ⟨[] :: ps, h1, .inr ⟨h, ps, rfl, .inr (.inr ⟨_, _, rfl, h2⟩)⟩⟩

/-- C74: this says exactly what the client does. -/
theorem C74_client_determined {m : Mech} {env : Env} {ses : Session m.S} {input : Option Str}
    {lines : List Line} {ps ps' : List Bytes} {r r' : Option End}
    (h : Prints m env ses input lines ps r) (h' : Prints m env ses input lines ps' r') :
    ps = ps' ∧ r = r' := by
  induction h generalizing ps' with
  | panicked ht h => obtain rfl := hears_iff ht; clear ht; cases h' <;>
    (rename Hears _ _ => ht'; obtain rfl := hears_iff ht'; simp_all)
  | failed ht h => obtain rfl := hears_iff ht; clear ht; cases h' <;>
    (rename Hears _ _ => ht'; obtain rfl := hears_iff ht'; simp_all)
  | done ht h => obtain rfl := hears_iff ht; clear ht; cases h' <;>
    (rename Hears _ _ => ht'; obtain rfl := hears_iff ht'; simp_all)
  | waits ht h => obtain rfl := hears_iff ht; clear ht; cases h' <;>
    (rename Hears _ _ => ht'; obtain rfl := hears_iff ht'; simp_all)
  | unreadable ht h => obtain rfl := hears_iff ht; clear ht; cases h' <;>
    (rename Hears _ _ => ht'; obtain rfl := hears_iff ht'; simp_all)
  | next ht h hn ih =>
    obtain rfl := hears_iff ht
    cases h' with
    | next ht2 h2 hn2 =>
      obtain rfl := hears_iff ht2
      rw [h] at h2
      cases h2
      obtain ⟨rfl, rfl⟩ := ih hn2
      exact ⟨rfl, rfl⟩
    | panicked ht' h' => obtain rfl := hears_iff ht'; simp_all
    | failed ht' h' => obtain rfl := hears_iff ht'; simp_all
    | done ht' h' => obtain rfl := hears_iff ht'; simp_all

theorem shipped_server_first {m : Mechanism} (h : m ∈ shipped) (hf : m.first = .server) : m = LOGIN := by
  simp only [shipped, List.mem_cons, List.not_mem_nil, or_false] at h
  rcases h with rfl | rfl | rfl | rfl | rfl | rfl | rfl | rfl | rfl | rfl | rfl | rfl | rfl <;>
  first
  | rfl
  | cases hf

/-- C74: a client that only sends the name of a mechanism is never done. -/
theorem C74_name_only (deps : Deps) (hprep : ∀ s, deps.prep [] = some s → s = []) (cfg : Config)
    (hcfg : ∀ m ∈ cfg.mechs, m ∈ shipped) (vars : Vars) (errText : SessionError → Bytes)
    (rng : Nat → Nat) (hello : Str) (hw : ∀ ws, WordsOf hello ws → ws.length ≤ 1) :
    (handleClient deps cfg vars errText rng [some hello]).res ≠ .ok := by
  intro hok
  rcases C74_dialogue deps cfg hcfg vars errText rng [some hello] with ⟨h, -⟩ |
    ⟨m, parts, rest, a, st, greeting, texts, calls, closing, hn, hs, hst, ho, hsc, hpre, hcl, -⟩
  · rw [h] at hok
    cases hok
  rw [hok] at hcl
  obtain ⟨_, _, hl, hw', hm, -⟩ := hn
  cases hl
  cases hcl with
  | done hcomp =>
  cases ho with
  | ours hf =>
    obtain rfl := shipped_server_first (hcfg m hm) hf
    obtain ⟨h1, h2⟩ := shipped_earned deps hprep vars cfg LOGIN (hcfg _ hm) a st hs hst rng calls hsc hcomp
    have hlen := hpre.length_le
    rw [List.length_map] at hlen
    cases hslot : ((st.session rng).run st.mech (serverEnv vars LOGIN.desc) calls).2.slot with
    | none => exact (h2 hslot).2 rfl
    | some v =>
      have := h1 v hslot
      generalize hin : calls.map (·.input) = inputs at this
      have hl : inputs.length = calls.length := by rw [← hin, List.length_map]
      have hlen : calls.length ≤ 1 := hlen
      cases this with
      | login x user password => simp at hl; omega
      | scram _ h hm =>
        rcases hm with hm | hm <;> cases h <;> exact absurd (congrArg Mechanism.name hm) (by decide +kernel)
  | given hf data hd =>
    replace hw := hw _ hw'
    cases parts with
    | nil => cases hd
    | cons _ _ => simp at hw
  | asked hf hp =>
    have : calls.map (·.input.map Base64.encode) = [] := List.prefix_nil.1 hpre
    obtain rfl := List.map_eq_nil_iff.1 this
    exact completed_nil hcomp

/-- C74: so the client never gets anywhere with the server. -/
theorem C74_client_server (deps : Deps) (hprep : ∀ s, deps.prep [] = some s → s = []) (cfg : Config)
    (hcfg : ∀ m ∈ cfg.mechs, m ∈ shipped) (vars : Vars) (errText : SessionError → Bytes)
    (rng rng' : Nat → Nat) (st : Started) (env : Env) (lines : List Line) (m : Mechanism)
    (hm : m ∈ shipped) (he : env.sd.mech.name = m.name) :
    ∃ hello, (clientTalk st env rng' lines).sent = Str.bytes hello ++ b!"\n" ∧
      (handleClient deps cfg vars errText rng [some hello]).res ≠ .ok := by
  rw [C74_client_sends, he]
  suffices h : ∃ hello, m.name = Str.bytes hello ∧ (words hello).length ≤ 1 by
    obtain ⟨hello, h1, h2⟩ := h
    exact ⟨hello, by rw [h1], C74_name_only deps hprep cfg hcfg vars errText rng hello
      (fun _ hw => words_of hw ▸ h2)⟩
  refine ⟨m.name.map (fun b => Char.ofNat b.toNat), ?_⟩
  simp only [shipped, List.mem_cons, List.not_mem_nil, or_false] at hm
  rcases hm with rfl | rfl | rfl | rfl | rfl | rfl | rfl | rfl | rfl | rfl | rfl | rfl | rfl <;>
  decide +kernel

/-! ## Examples -/

/-- A client of EXTERNAL that reads nothing prints its one message and is done. -/
example : Prints External.client (exampleEnv [⟨.authzId, c!"u"⟩])
    (Started.session ⟨External.client, ()⟩ fun _ => 0) none [] [b!"dQ=="] (some .ok) :=
  .done .nothing (sent := .yes) rfl

/-- A client of PLAIN. -/
def plainLines : List Line := [some (c!"PLAIN AHUAcA==")]

theorem plainLines_message :
    PlainMessage toyDeps.prep (b!"\x00u\x00p") [] (c!"u") (b!"p") := by
  refine ⟨c!"u", b!"p", by decide +kernel, by decide, by decide, by decide, rfl, by decide,
    .inl ⟨c!"p", c!"p", by decide +kernel, rfl, by decide +kernel⟩, by decide⟩

example : handleClient toyDeps config ⟨none, none⟩ (fun _ => []) (fun _ => 0) plainLines =
    ⟨asLines [nameLine (config.getAvailable.map (·.name)), b!"OK VALID authid=u authzid= password=p"],
      .ok⟩ := by
  refine ((C74_plain toyDeps (fun s hs => (Option.some.inj hs).symm) config config_shipped
    (by simp [config, builtinMechs]) ⟨none, none⟩ (fun _ => []) (fun _ => 0) (c!"PLAIN AHUAcA==") [] _ _ _ _
    plainLines_message).1 (c!"AHUAcA==") [] ((C74_words _ _).1 (by decide +kernel)) (by decide +kernel)).trans ?_
  congr 1

/-- The condition of `C74_partial` is met by it. -/
example : ∀ b l w, some l ∈ plainLines → w = l ∨ (∃ ws, WordsOf l ws ∧ w ∈ ws) → Str.bytes w = Base64.encode b →
    (10 : UInt8) ∉ b := by
  intro b l w hl hw he
  simp only [plainLines, List.mem_singleton, Option.some.injEq] at hl
  subst hl
  have hwords : words (c!"PLAIN AHUAcA==") = [c!"PLAIN", c!"AHUAcA=="] := by decide +kernel
  simp only [← C74_words, hwords, exists_eq_left'] at hw
  have hd := Base64.decode_eq_some_iff.2 he
  simp only [List.mem_cons, List.not_mem_nil, or_false] at hw
  rcases hw with rfl | rfl | rfl
  · exact absurd hd (by rw [show Base64.decode _ = none by decide +kernel]; nofun)
  · exact absurd hd (by rw [show Base64.decode _ = none by decide +kernel]; nofun)
  · rw [show Base64.decode _ = some (b!"\x00u\x00p") by decide +kernel] at hd
    cases hd
    decide

/-- A client that names a mechanism the server does not have. -/
example : ∀ m parts rest, ¬ Names config [some (c!"CRAM-MD5")] m parts rest := by
  rintro m parts rest ⟨_, _, h, hw, hm, hn⟩
  cases h
  have : words (c!"CRAM-MD5") = [c!"CRAM-MD5"] := by decide +kernel
  rw [← C74_words, this] at hw
  cases hw
  have := config_shipped m hm
  simp only [shipped, List.mem_cons, List.not_mem_nil, or_false] at this
  rcases this with rfl | rfl | rfl | rfl | rfl | rfl | rfl | rfl | rfl | rfl | rfl | rfl | rfl <;>
  exact absurd hn (by decide +kernel)

/-- SHA-1 has 20 bytes. -/
example : (toyDeps.digest .sha1).outLen ≠ 32 := by decide +kernel

end Rsasl

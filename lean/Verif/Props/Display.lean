/-
C96: what errors say.
-/
import Verif.Spec.Display
import Verif.Props.StepErrors
import Verif.Props.ErrorsOccur
import Verif.Props.Interop
import Verif.Props.XOAuth2

namespace Rsasl

open Spec

theorem oneLine_append {s t : Str} : OneLine (s ++ t) ↔ OneLine s ∧ OneLine t := by
  simp only [OneLine, List.mem_append]
  exact ⟨fun h => ⟨fun c hc => h c (.inl hc), fun c hc => h c (.inr hc)⟩,
    fun h c hc => hc.elim (h.1 c) (h.2 c)⟩

theorem oneLine_nat (n : Nat) : OneLine (showNat n) := by
  intro c hc
  have := Nat.isDigit_of_mem_toDigits (by decide) (by decide) hc
  simp only [Char.isDigit, Bool.and_eq_true, decide_eq_true_eq] at this
  have h1 : 48 ≤ c.toNat := this.1
  have h2 : c.toNat ≤ 57 := this.2
  unfold Visible
  omega

theorem oneLine_hex (b : UInt8) : OneLine (showHex b) := by
  have : ∀ n < 256, OneLine (c!"0x" ++ Nat.toDigits 16 n) := by decide +kernel
  exact this _ b.toNat_lt

theorem oneLine_utf8 (u : Utf8Error) : OneLine u.display ∧ OneLine u.debug := by
  rcases u with ⟨i, _ | n⟩ <;>
    simp only [Utf8Error.display, Utf8Error.debug, oneLine_append, oneLine_nat, and_true, true_and] <;> decide

theorem oneLine_quoteChar {x : Detail} (hx : Plainly x) (c : Char) : OneLine (x.quoteChar c) := by
  unfold Detail.quoteChar
  repeat' split
  any_goals decide
  · next h =>
    have : ∀ n < 128, OneLine (c!"\\u{" ++ Nat.toDigits 16 n ++ c!"}") := by decide +kernel
    exact this _ (by omega)
  · next h1 h2 =>
    intro d hd
    rw [List.mem_singleton.1 hd]
    unfold Visible
    omega
  · exact hx.escape c

theorem oneLine_quote {x : Detail} (hx : Plainly x) (s : Str) : OneLine (x.quote s) := by
  intro c hc
  simp only [Detail.quote, List.cons_append, List.mem_cons, List.mem_append, List.mem_flatMap, List.not_mem_nil,
    or_false] at hc
  rcases hc with rfl | ⟨d, -, h⟩ | rfl
  · decide
  · exact oneLine_quoteChar hx d c h
  · decide

theorem oneLine_mech {x : Detail} (hx : Plainly x) (e : MechErr) : OneLine (e.display x) ∧ OneLine (e.debug x) := by
  have hu := oneLine_utf8 x.utf8
  have hf := hx.foreign
  have hg := hx.foreignDebug
  have hq := oneLine_quote hx
  cases e
  case plain e =>
    cases e <;> simp only [MechErr.display, MechErr.debug, PlainError.display, PlainError.debug, oneLine_append, hu, hf, hg,
      and_true, true_and] <;> decide
  case oauthParse e =>
    cases e <;> simp only [MechErr.display, MechErr.debug, OParseError.debug, oneLine_append, hu,
      and_true, true_and] <;> decide
  case saslName e =>
    cases e <;> simp only [MechErr.display, MechErr.debug, SaslNameError.display, SaslNameError.debug, oneLine_append, hu,
      oneLine_nat, and_true, true_and] <;> decide
  case scramProtocol e =>
    cases e <;> simp only [MechErr.display, MechErr.debug, ProtocolError.display, ProtocolError.debug,
      oneLine_append] <;> decide
  case scramParse e =>
    cases e <;> simp only [MechErr.display, MechErr.debug, SParseError.display, SParseError.debug, oneLine_append, hu,
      oneLine_nat, oneLine_hex, and_true, true_and] <;> decide
  case scramServer e =>
    cases e <;> simp only [MechErr.display, MechErr.debug, ServerErrorValue.display, ServerErrorValue.debug,
      oneLine_append] <;> decide
  all_goals
    simp only [MechErr.display, MechErr.debug, oneLine_append, hu, hf, hg, hq, and_true, true_and] <;> decide

/-- C96: the `Debug` text of every error is one line, without control characters, whatever name of a channel
binding is in it. -/
theorem C96_debug (x : Detail) (hx : Plainly x) (e : SessionError) : OneLine (e.debug x) := by
  have hg := hx.foreignDebug
  have hq := oneLine_quote hx
  have hm := oneLine_mech hx
  cases e
  case callbackError e =>
    cases e <;> simp only [SessionError.debug, CallbackError.debug, oneLine_append, hg, hq, and_true, true_and] <;> decide
  case validationError e =>
    cases e <;> simp only [SessionError.debug, ValidationError.debug, oneLine_append, hg, and_true, true_and] <;> decide
  all_goals
    simp only [SessionError.debug, oneLine_append, hg, hq, hm, and_true, true_and] <;> decide

/-- C96: the `Display` text of an error is one line, without control characters, if and only if the name of the
channel binding in it is, where there is one. -/
theorem C96_display (x : Detail) (hx : Plainly x) (e : SessionError) : OneLine (e.display x) ↔ NamesLine e := by
  have hf := hx.foreign
  have hm := oneLine_mech hx
  cases e
  case missingChannelBindingData name =>
    simp only [SessionError.display, oneLine_append, NamesLine]
    exact ⟨fun h => h.1.2, fun h => ⟨⟨by decide, h⟩, by decide⟩⟩
  all_goals
    simp only [SessionError.display, oneLine_append, hf, hm, NamesLine, and_true, iff_true] <;> decide

theorem Spec.BindingName.oneLine {name : Str} (h : BindingName name) : OneLine name := by
  intro c hc
  have hle : ∀ a b : Char, a ≤ b → a.toNat ≤ b.toNat := fun _ _ h => h
  rcases h.2 c hc with ⟨h1, h2⟩ | ⟨h1, h2⟩ | ⟨h1, h2⟩ | rfl | rfl
  · have h1 : 97 ≤ c.toNat := hle _ _ h1
    have h2 : c.toNat ≤ 122 := hle _ _ h2
    unfold Visible; omega
  · have h1 : 65 ≤ c.toNat := hle _ _ h1
    have h2 : c.toNat ≤ 90 := hle _ _ h2
    unfold Visible; omega
  · have h1 : 48 ≤ c.toNat := hle _ _ h1
    have h2 : c.toNat ≤ 57 := hle _ _ h2
    unfold Visible; omega
  · decide
  · decide

theorem serverErrors_line {input : Option Bytes} {a : Auth} {e : SessionError} (h : serverErrors input a e) :
    NamesLine e := by
  rcases e with _ | _ | _ | _ | _ | _ | _ | _ | _ | _ | _ | name
  all_goals first | exact trivial | skip
  have : ∀ b, scramServerErrors input b (.missingChannelBindingData name) → OneLine name := by
    rintro b (h | h | h | h | ⟨n, h, hn⟩ | h)
    · cases h
    · cases h.1
    · cases h
    · cases h
    · cases h; exact hn.oneLine
    · cases h
  cases a <;> first
    | exact this _ h
    | simp [serverErrors, isWriteAll, isMissing, isMech, isInputless, isRefused] at h

/-- C96: what goes wrong in a step of a server is told in one line, whatever the client sends: of the client's
bytes only the name of a channel binding is repeated, and that was checked. -/
theorem C96_server (deps : Deps) (a : Auth) (st : Started) (h : a.startServer deps = some st) (env : Env)
    (henv : env.ErrsIn NamesLine) (rng : Nat → Nat) (ops : List Op) (c : Call) (e : SessionError)
    (he : (((st.session rng).afterAll st.mech env ops).step st.mech env c).1.res = .err e)
    (x : Detail) (hx : Plainly x) : OneLine (e.display x) ∧ OneLine (e.debug x) :=
  ⟨(C96_display x hx e).2 (C67_server deps a st h env rng ops c NamesLine (fun _ => serverErrors_line) henv e he),
    C96_debug x hx e⟩

/-- C96: the same of a client, except of one that uses channel bindings: there the name is the one that the
user's callback chose. -/
theorem C96_client (deps : Deps) (a : Auth) (st : Started) (h : a.startClient deps = some st)
    (ha : ∀ d, a ≠ .scramClientPlus d) (env : Env) (henv : env.ErrsIn NamesLine) (rng : Nat → Nat) (ops : List Op)
    (c : Call) (e : SessionError)
    (he : (((st.session rng).afterAll st.mech env ops).step st.mech env c).1.res = .err e)
    (x : Detail) (hx : Plainly x) : OneLine (e.display x) ∧ OneLine (e.debug x) := by
  refine ⟨(C96_display x hx e).2 (C67_client deps a st h env rng ops c NamesLine (fun e he => ?_) henv e he),
    C96_debug x hx e⟩
  rcases e with _ | _ | _ | _ | _ | _ | _ | _ | _ | _ | _ | name
  all_goals first | exact trivial | skip
  exfalso
  cases a <;> first
    | exact absurd rfl (ha _)
    | simp [clientErrors, scramClientErrors, isIo, isWriteAll, isMissing, isMech, isInputless] at he

/-- C96: a client with channel bindings repeats any name the callback chose for the binding, if there is no data for
it; so its error can be shown in more than one line. -/
theorem C96_chosen (h : Hash) (name : Str) (hn : ¬ OneLine name) (x : Detail) (hx : Plainly x) :
    ∃ e, ClientEndsWith (.scramClientPlus h) e ∧ ¬ OneLine (e.display x) :=
  ⟨_, Scram.plus_occurs (.inr ⟨name, rfl⟩), fun hl => hn ((C96_display x hx _).1 hl)⟩

/-- C96: the first word of the `Debug` text tells which error it is. -/
theorem C96_variant (x x' : Detail) (e e' : SessionError) (h : variantWord (e.debug x) = variantWord (e'.debug x')) :
    e.ctorIdx = e'.ctorIdx := by
  cases e <;> cases e' <;> first
    | rfl
    | (exfalso; revert h; simp [SessionError.debug, variantWord, List.takeWhile])

/-- C96: so does the `Display` text, unless the error is someone else's (`Boxed`), which shows as itself. -/
theorem C96_tells (x x' : Detail) (e e' : SessionError) (he : ∀ n, e ≠ .boxed n) (he' : ∀ n, e' ≠ .boxed n)
    (h : e.display x = e'.display x') : e.ctorIdx = e'.ctorIdx := by
  cases e <;> cases e' <;> first
    | rfl
    | exact absurd rfl (he _)
    | exact absurd rfl (he' _)
    | (exfalso; revert h; simp [SessionError.display])

/-- The words of a text that are separated by hyphens, each with a capital, run together. -/
def Spec.camelCase : Bool → Bytes → Str
  | _, [] => []
  | true, b :: bs => (Char.ofNat b.toNat).toUpper :: camelCase false bs
  | false, b :: bs => if b = 45 then camelCase true bs else Char.ofNat b.toNat :: camelCase false bs

/-- C96: a refusal by the server is shown with the words it came with: with spaces for the hyphens by `Display`, run
together by `Debug`. -/
theorem C96_refusal (e : ServerErrorValue) :
    Str.bytes e.display = e.bytes.map (fun b => if b = 45 then 32 else b) ∧
    e.debug = camelCase true e.bytes := by
  cases e <;> decide +kernel

/-! ## Names of mechanisms -/

theorem showNat_digits {n : Nat} {c : Char} (h : c ∈ showNat n) : '0' ≤ c ∧ c ≤ '9' := by
  have := Nat.isDigit_of_mem_toDigits (by decide) (by decide) h
  simp only [Char.isDigit, Bool.and_eq_true, decide_eq_true_eq] at this
  exact this

theorem showNat_inj {m n : Nat} (h : showNat m = showNat n) : m = n := by
  have h1 : Nat.ofDigitChars 10 (showNat m) 0 = m := Nat.ofDigitChars_ten_toDigits
  have h2 : Nat.ofDigitChars 10 (showNat n) 0 = n := Nat.ofDigitChars_ten_toDigits
  rw [← h1, ← h2, h]

theorem showHex_inj {a b : UInt8} (h : showHex a = showHex b) : a = b := by
  have : ∀ m < 256, (Nat.toDigits 16 m).foldl
      (fun n c => n * 16 + (if c.toNat < 58 then c.toNat - 48 else c.toNat - 87)) 0 = m := by decide +kernel
  have h : Nat.toDigits 16 a.toNat = Nat.toDigits 16 b.toNat := by simpa [showHex] using h
  refine UInt8.toNat_inj.1 ?_
  rw [← this _ a.toNat_lt, ← this _ b.toNat_lt, h]

/-- C96: why a mechanism's name was refused is told in one line, and both texts tell exactly what was wrong. -/
theorem C96_mechname (e e' : MechnameError) :
    OneLine e.display ∧ OneLine e.debug ∧ (e.display = e'.display ↔ e = e') ∧ (e.debug = e'.debug ↔ e = e') := by
  have hd : ∀ (n : Nat) (c : Char), ¬ ('0' ≤ c ∧ c ≤ '9') → c ∉ showNat n := fun n c hc h => hc (showNat_digits h)
  refine ⟨?_, ?_, ⟨fun h => ?_, fun h => by rw [h]⟩, ⟨fun h => ?_, fun h => by rw [h]⟩⟩
  · cases e <;> simp only [MechnameError.display, oneLine_append, oneLine_nat, oneLine_hex, and_true] <;> decide
  · cases e <;> simp only [MechnameError.debug, oneLine_append, oneLine_nat, and_true] <;> decide
  · cases e <;> cases e' <;> simp only [MechnameError.display] at h
    · rfl
    · simp at h
    · simp at h
    · simp only [List.append_assoc, List.cons_append, List.nil_append, List.cons.injEq, true_and] at h
      obtain ⟨h1, h2⟩ := append_sep_inj (hd _ _ (by decide)) (hd _ _ (by decide)) h
      rw [showNat_inj h1, showHex_inj (List.cons.inj h2).2]
  · cases e <;> cases e' <;> simp only [MechnameError.debug] at h
    · rfl
    · simp at h
    · simp at h
    · simp only [List.append_assoc, List.cons_append, List.nil_append, List.cons.injEq, true_and] at h
      obtain ⟨h1, h2⟩ := append_sep_inj (hd _ _ (by decide)) (hd _ _ (by decide)) h
      simp only [List.cons.injEq, true_and, List.append_cancel_right_eq] at h2
      rw [showNat_inj h1, UInt8.toNat_inj.1 (showNat_inj h2)]

example : (MechnameError.invalidChar 2 33).display = c!"contains invalid character at offset 2: 0x21" ∧
    (MechnameError.invalidChar 2 33).debug = c!"InvalidChar { index: 2, value: 33 }" := by decide +kernel

/-! ## The interop server -/

namespace Interop

/-- Only the texts of the errors that occur matter. -/
theorem serveLoop_congr (m : Mech) (env : Env) (f g : SessionError → Bytes) (lines : List Line) (ses : Session m.S)
    (input : Option Bytes) (buffer out : Bytes)
    (h : ∀ ops c e, ((ses.afterAll m env ops).step64 m env c).1.res = .err e → f e = g e) :
    serveLoop m env f lines ses input buffer out = serveLoop m env g lines ses input buffer out := by
  induction lines generalizing ses input buffer out with
  | nil =>
    unfold serveLoop
    split
    next r ses' hs =>
    have h0 := h [] ⟨input, []⟩
    simp only [Session.afterAll, Session.performAll, hs] at h0
    split
    · rfl
    · next e he => rw [h0 e he]
    · rfl
  | cons l lines ih =>
    unfold serveLoop
    split
    next r ses' hs =>
    have h0 := h [] ⟨input, []⟩
    simp only [Session.afterAll, Session.performAll, hs] at h0
    split
    · rfl
    · next e he => rw [h0 e he]
    · have h' : ∀ ops c e, ((ses'.afterAll m env ops).step64 m env c).1.res = .err e → f e = g e := by
        intro ops c e he
        refine h (.step64 ⟨input, []⟩ :: ops) c e ?_
        have : ses.afterAll m env (.step64 ⟨input, []⟩ :: ops) = ses'.afterAll m env ops := by
          simp only [Session.afterAll, Session.performAll, Session.perform, hs]
        rw [this]
        exact he
      cases l with
      | none => rfl
      | some l =>
        dsimp only
        split
        · exact ih _ _ _ _ h'
        · rfl

theorem handleClient_congr (deps : Deps) (cfg : Config) (vars : Vars) (f g : SessionError → Bytes) (rng : Nat → Nat)
    (lines : List Line)
    (h : ∀ (a : Auth) (st : Started), a.startServer deps = some st → ∀ m ops c e,
      (((st.session rng).afterAll st.mech (serverEnv vars m) ops).step64 st.mech (serverEnv vars m) c).1.res = .err e →
      f e = g e) :
    handleClient deps cfg vars f rng lines = handleClient deps cfg vars g rng lines := by
  unfold handleClient
  dsimp only
  split
  · split
    · rfl
    · split
      · rfl
      · split
        · rfl
        · rfl
        · next a m hs =>
          split
          · rfl
          · next st hst =>
            have := fun lines input buffer out =>
              serveLoop_congr st.mech (serverEnv vars m.desc) f g lines (st.session rng) input buffer out (h a st hst _)
            split
            · exact this _ _ _ _
            · split
              · exact this _ _ _ _
              · split
                · exact this _ _ _ _
                · rfl
  · rfl

/-- The callback of the server has no errors of its own. -/
theorem serverEnv_errs (vars : Vars) (m : MechDesc) (E : SessionError → Prop) : (serverEnv vars m).ErrsIn E := by
  have ha : ∀ p v (F : SessionError → Prop), (answer p v).Errs F := by
    intro p v F r hr
    cases r with
    | error e => intro e' he'; cases he'; exact hr e rfl
    | ok u => cases u; intro e' he'; cases he'
  have hn : ∀ F : SessionError → Prop, F (.callbackError .noValue) → noVar.Errs F := by
    intro F h e he
    cases he
    exact h
  intro log ctx
  show (callback vars ctx).Errs _
  unfold callback
  rintro (_ | _)
  · rintro (_ | _)
    · rintro (_ | _)
      · exact fun _ he => nomatch he
      · dsimp only
        split
        · exact ha _ _ _
        · exact fun _ he => nomatch he
    · dsimp only
      split
      · exact hn _ (.inr (.inr rfl))
      · exact ha _ _ _
  · dsimp only
    split
    · exact hn _ (.inr (.inr rfl))
    · exact ha _ _ _

theorem newline_of_oneLine {s : Str} (h : OneLine s) : (10 : UInt8) ∉ Str.bytes s := by
  intro hm
  have := h _ ((mem_bytes_ascii (b := 10) (by decide) s).1 hm)
  exact absurd this (by decide)

/-- C74: a client whose session fails is told why in one line, whatever it sent. -/
theorem C74_error_line (deps : Deps) (cfg : Config) (hcfg : ∀ m ∈ cfg.mechs, m ∈ shipped) (vars : Vars)
    (x : SessionError → Detail) (hx : ∀ e, Plainly (x e)) (rng : Nat → Nat) (lines : List Line)
    (hres : (handleClient deps cfg vars (errorText x) rng lines).res ≠ .ok) :
    ∃ greeting msgs closing : List Bytes,
      splitOn 10 (handleClient deps cfg vars (errorText x) rng lines).out =
        nameLine (cfg.getAvailable.map (·.name)) :: (greeting ++ msgs.map Base64.encode ++ closing ++ [[]]) ∧
      (greeting = [] ∨ greeting = [b!"-"]) ∧
      (closing = [] ∨ ∃ e, closing = [b!"ERR " ++ errorText x e] ∧ NamesLine e) := by
  have hcongr : handleClient deps cfg vars (errorText x) rng lines =
      handleClient deps cfg vars (fun e => if OneLine (e.display (x e)) then errorText x e else errorText x .base64)
        rng lines := by
    refine handleClient_congr deps cfg vars _ _ rng lines fun a st hst m ops c e he => ?_
    have hline : NamesLine e := by
      rcases C67_step64 _ _ _ _ _ he with ⟨rfl, -⟩ | ⟨input, -, he⟩
      · exact trivial
      · exact C67_server deps a st hst _ rng ops _ NamesLine (fun _ => serverErrors_line) (serverEnv_errs _ _ _) e he
    rw [if_pos ((C96_display (x e) (hx e) e).2 hline)]
  have hnamed : ∀ e, ∃ e', (if OneLine (e.display (x e)) then errorText x e else errorText x .base64) = errorText x e' ∧
      NamesLine e' := by
    intro e
    by_cases h : OneLine (e.display (x e))
    · exact ⟨e, by rw [if_pos h], (C96_display (x e) (hx e) e).1 h⟩
    · exact ⟨.base64, by rw [if_neg h], trivial⟩
  have hplain : ∀ e, NamesLine e → (10 : UInt8) ∉ b!"ERR " ++ errorText x e := by
    intro e he
    rw [List.mem_append, not_or]
    refine ⟨by decide, newline_of_oneLine ?_⟩
    rw [oneLine_append, oneLine_append]
    exact ⟨⟨C96_debug _ (hx e) e, by decide⟩, (C96_display _ (hx e) e).2 he⟩
  rw [hcongr] at hres ⊢
  rcases C74_dialogue deps cfg hcfg vars _ rng lines with ⟨h, -⟩ |
    ⟨m, parts, rest, a, st, greeting, texts, calls, closing, -, -, -, ho, -, -, hc, hout, -⟩
  · refine ⟨[], [], [], ?_, .inl rfl, .inl rfl⟩
    rw [h]
    have := (C74_lines cfg hcfg [] [] (.inl rfl) []).1
    simpa [asLines, splitOn] using this
  · have hg : greeting = [] ∨ greeting = [b!"-"] := by
      cases ho
      · exact .inl rfl
      · exact .inl rfl
      · exact .inr rfl
    refine ⟨greeting, messages ((st.session rng).run st.mech (serverEnv vars m.desc) calls).1, closing, ?_, hg, ?_⟩
    rotate_left
    · generalize (handleClient _ _ _ _ _ _).res = res at hc hres
      cases hc with
      | done h => exact absurd rfl hres
      | left => exact .inl rfl
      | panicked => exact .inl rfl
      | refused h e =>
        obtain ⟨e', he, hn⟩ := hnamed e
        exact .inr ⟨e', by rw [he], hn⟩
    · rw [hout]
      have hlines := fun closing => (C74_lines cfg hcfg greeting
        (messages ((st.session rng).run st.mech (serverEnv vars m.desc) calls).1) hg closing).1
      have split : ∀ closing : List Bytes, (∀ l ∈ closing, (10 : UInt8) ∉ l) → closing.length ≤ 1 →
          splitOn 10 (asLines closing) = closing ++ [[]] := by
        intro closing h hl
        rcases closing with _ | ⟨l, _ | ⟨_, _⟩⟩
        · rfl
        · have : asLines [l] = l ++ 10 :: [] := by simp [asLines]
          rw [this, splitOn_append_sep (h l (by simp))]
          rfl
        · simp at hl
      have e : ∀ a b : List Bytes, asLines (a ++ b) = asLines a ++ asLines b := by simp [asLines]
      rw [e, hlines, split]
      · simp
      · generalize (handleClient _ _ _ _ _ _).res = res at hc hres
        cases hc with
        | done h => exact absurd rfl hres
        | left => nofun
        | panicked => nofun
        | refused h e =>
          obtain ⟨e', he, hn⟩ := hnamed e
          intro l hl
          rw [List.mem_singleton.1 hl, he]
          exact hplain e' hn
      · generalize (handleClient _ _ _ _ _ _).res = res at hc
        cases hc <;> simp

end Interop

/-! ## Examples -/

/-- Texts of other crates. -/
def plainDetail : Detail := ⟨⟨0, some 1⟩, c!"broken pipe", c!"Kind(BrokenPipe)", fun _ => c!"rsasl::property::AuthId", fun c => [c]⟩

example : (SessionError.mechanismError (.scramParse (.badCBName 10))).display plainDetail =
    c!"internal mechanism error: failed to parse received message: channel binding name contains invalid byte 0xa" := by
  decide +kernel

example : (SessionError.mechanismError (.plain .badAuthcid)).debug plainDetail =
    c!"MechanismError(BadAuthcid(Utf8Error { valid_up_to: 0, error_len: Some(1) }))" := by
  decide +kernel

/-- A line feed in the name is escaped by `Debug` and not by `Display`. -/
example : (SessionError.missingChannelBindingData (c!"a\nb")).debug plainDetail =
      c!"MissingChannelBindingData(\"a\\nb\")" ∧
    ¬ OneLine ((SessionError.missingChannelBindingData (c!"a\nb")).display plainDetail) := by
  decide +kernel

/-- The hypothesis on the texts of others can be met. -/
example : Plainly { plainDetail with escape := fun _ => c!"\\u{}" } :=
  ⟨by decide, by decide, fun _ => (by decide : OneLine (c!"rsasl::property::AuthId")), fun _ => (by decide : OneLine (c!"\\u{}"))⟩

/-- A client of the interop server that sends no base64. -/
example : (Interop.handleClient toyDeps Interop.config {} (Interop.errorText fun _ => plainDetail) id
    [some (c!"PLAIN"), some (c!"?")]).res = .failed := by decide +kernel

end Rsasl

/-
C112: what a report of an error tells.
-/
import Verif.Spec.Words
import Verif.Props.Display

namespace Rsasl

open Spec

theorem plain_words (x : Detail) (e : PlainError) : e.display x = plainErrorText x e := by
  cases e <;> simp [PlainError.display, plainErrorText, filled]

theorem saslName_words (x : Detail) (e : SaslNameError) : e.display x = saslNameText x e := by
  cases e <;> simp [SaslNameError.display, saslNameText, filled, showNat, decimal]

theorem scramParse_words (x : Detail) (e : SParseError) : e.display x = scramParseText x e := by
  cases e <;> simp [SParseError.display, scramParseText, filled, showHex, hex]

theorem protocol_words (e : ProtocolError) : e.display = protocolText e := by
  cases e <;> rfl

theorem mech_words (x : Detail) (e : MechErr) : e.display x = mechanismText x e := by
  cases e <;> simp [MechErr.display, mechanismText, filled, plain_words, saslName_words, scramParse_words, protocol_words]

/-- C112: the texts of errors are the formats of the source, filled in. -/
theorem C112_words (x : Detail) (e : SessionError) : e.display x = sessionText x e ∧ e.sources x = sourceTexts x e := by
  constructor
  · cases e <;> simp [SessionError.display, sessionText, filled, mech_words]
  · rcases e with _ | _ | _ | _ | _ | _ | c | v | _ | _ | _ | _
    case callbackError => cases c <;> simp [SessionError.sources, sourceTexts, filled, CallbackError.display]
    case validationError => cases v <;> simp [SessionError.sources, sourceTexts, filled, ValidationError.display]
    all_goals rfl

/-- C112: the same of the error about UTF-8 that many of them hold. -/
theorem C112_utf8_words (u : Utf8Error) : u.display = utf8Text u ∧
    u.debug = c!"Utf8Error { valid_up_to: " ++ decimal u.validUpTo ++ c!", error_len: " ++
      (u.errorLen.elim (c!"None") fun n => tuple (c!"Some") [decimal n]) ++ c!" }" := by
  rcases u with ⟨i, _ | n⟩ <;> simp [Utf8Error.display, Utf8Error.debug, utf8Text, filled, showNat, decimal, tuple]

theorem mech_debug_words (x : Detail) (e : MechErr) : e.debug x = mechanismDebug x e := by
  rcases e with e | _ | _ | _ | _ | _ | _ | _ | e | _ | e | e | e | _ | _ | _ | _ | _ | _ | _
  case plain => cases e <;> simp [MechErr.debug, PlainError.debug, mechanismDebug, tuple]
  case oauthParse => cases e <;> simp [MechErr.debug, OParseError.debug, mechanismDebug, tuple]
  case saslName => cases e <;> simp [MechErr.debug, SaslNameError.debug, mechanismDebug, tuple, showNat, decimal]
  case scramProtocol => cases e <;> simp [MechErr.debug, ProtocolError.debug, mechanismDebug, tuple]
  case scramParse => cases e <;> simp [MechErr.debug, SParseError.debug, mechanismDebug, tuple, showNat, decimal]
  all_goals simp [MechErr.debug, mechanismDebug, tuple, Detail.quote, Detail.quoteChar]

/-- C112: so are the `Debug` texts. -/
theorem C112_debug_words (x : Detail) (e : SessionError) : e.debug x = sessionDebug x e := by
  rcases e with _ | _ | _ | _ | _ | _ | c | v | _ | _ | _ | _
  case callbackError => cases c <;> simp [SessionError.debug, CallbackError.debug, sessionDebug, tuple]
  case validationError => cases v <;> simp [SessionError.debug, ValidationError.debug, sessionDebug, tuple]
  all_goals simp [SessionError.debug, sessionDebug, tuple, mech_debug_words]

/-- C112: how names are quoted in a `Debug` text. -/
theorem C112_quoted (x : Detail) (s : Str) (hs : ∀ c ∈ s, c.toNat < 128) : x.quote s = ['"'] ++ s.flatMap asciiDebug ++ ['"'] := by
  have h : ∀ n < 128, plainDetail.quoteChar (Char.ofNat n) = asciiDebug (Char.ofNat n) := by decide +kernel
  have hc : ∀ c ∈ s, x.quoteChar c = asciiDebug c := by
    intro c hc
    have h1 := h c.toNat (hs c hc)
    rw [Char.ofNat_toNat] at h1
    rw [← h1]
    unfold Detail.quoteChar
    repeat' split
    any_goals rfl
    · have := hs c hc
      omega
  have : s.flatMap x.quoteChar = s.flatMap asciiDebug := by
    rw [List.flatMap_def, List.flatMap_def, List.map_congr_left hc]
  unfold Detail.quote
  rw [this]
  simp

theorem plain_tells {x x' : Detail} {e e' : PlainError} (h : e.display x = e'.display x') : e = e' := by
  cases e <;> cases e' <;> first
    | rfl
    | (exfalso; revert h; simp [PlainError.display])

theorem saslName_tells {x x' : Detail} {e e' : SaslNameError} (h : e.display x = e'.display x') : e = e' := by
  cases e <;> cases e' <;> first
    | rfl
    | (exfalso; revert h; simp [SaslNameError.display]; done)
    | skip
  simp only [SaslNameError.display, List.append_cancel_left_eq] at h
  rw [UInt8.toNat_inj.1 (showNat_inj h)]

theorem scramParse_tells {x x' : Detail} {e e' : SParseError} (h : e.display x = e'.display x') : e = e' := by
  cases e <;> cases e' <;> first
    | rfl
    | (exfalso; revert h; simp [SParseError.display]; done)
    | skip
  all_goals
    simp only [SParseError.display, List.append_cancel_left_eq] at h
    rw [showHex_inj h]

theorem protocol_tells {e e' : ProtocolError} (h : e.display = e'.display) : e = e' := by
  revert h
  cases e <;> cases e' <;> decide

theorem refusal_tells {e e' : ServerErrorValue} (h : e.display = e'.display) : e = e' := by
  revert h
  cases e <;> cases e' <;> decide

/-- What the texts of the mechanisms' errors begin with, long enough to tell them. -/
def stems : List Str :=
  [c!"The", c!"authi", c!"invalid f", c!"authz", c!"authc", c!"sa", c!"invalid u", c!"inc", c!"the", c!"an", c!"re",
    c!"provided u", c!"provided b", c!"inp", c!"failed to parse m", c!"failed to s", c!"em", c!"name contains invalid u",
    c!"name contains invalid c", c!"name contains invalid e", c!"SCRAM p", c!"failed to parse r", c!"SCRAM o",
    c!"provided p", c!"ch", c!"GS", c!"fi", c!"pr"]

/-- The stem of a text. -/
def stemOf (s : Str) : Nat := stems.findIdx fun p => p.isPrefixOf s

def MechErr.stemIdx (x : Detail) : MechErr → Nat
  | .plain .containsNull => 0
  | .plain .empty => 1
  | .plain .badFormat => 2
  | .plain .badAuthzid => 3
  | .plain .badAuthcid => 4
  | .plain .saslprep => 5
  | .loginUtf8 => if x.utf8.errorLen.isSome then 6 else 7
  | .externalUtf8 => 8
  | .anonymousUtf8 => 9
  | .xoauth2ClientUtf8 => 10
  | .xoauth2User => 11
  | .xoauth2Token => 12
  | .xoauth2Format => 13
  | .oauthParse _ => 14
  | .oauthSerde => 15
  | .saslName .empty => 16
  | .saslName .invalidUtf8 => 17
  | .saslName (.invalidChar _) => 18
  | .saslName .invalidEscape => 19
  | .scramProtocol _ => 20
  | .scramParse _ => 21
  | .scramServer _ => 22
  | .scramPasswordHashInvalid => 23
  | .scramChannelBindingsNotUsed => 24
  | .gss _ => 25
  | .gssBadFinalToken => 26
  | .gssBadContext => 27
  | .custom _ => 28

theorem stemOf_display (x : Detail) (e : MechErr) (hc : ∀ n, e ≠ .custom n) : stemOf (e.display x) = e.stemIdx x := by
  rcases x with ⟨⟨u, _ | u'⟩, f, fd, t, q⟩ <;>
  rcases e with (_ | _ | _ | _ | _ | _) | _ | _ | _ | _ | _ | _ | _ | _ | _ | (_ | _ | _ | _) | _ | _ | _ | _ | _ | _ | _ | _ | _ <;>
  first
    | exact absurd rfl (hc _)
    | rfl

theorem stemIdx_ctor (x : Detail) (e : MechErr) :
    e.ctorIdx = [0, 0, 0, 0, 0, 0, 1, 1, 2, 3, 4, 5, 6, 7, 8, 9, 10, 10, 10, 10, 11, 12, 13, 14, 15, 16, 17, 18, 19][e.stemIdx x]?.getD 20 := by
  rcases x with ⟨⟨u, _ | u'⟩, f, fd, t, q⟩ <;>
  rcases e with (_ | _ | _ | _ | _ | _) | _ | _ | _ | _ | _ | _ | _ | _ | _ | (_ | _ | _ | _) | _ | _ | _ | _ | _ | _ | _ | _ | _ <;>
  rfl

theorem mech_tells {x x' : Detail} {e e' : MechErr} (hc : ∀ n, e ≠ .custom n) (hc' : ∀ n, e' ≠ .custom n)
    (h : e.display x = e'.display x') : ReadsAs (.mechanismError e) (.mechanismError e') := by
  have hi : e.ctorIdx = e'.ctorIdx := by
    rw [stemIdx_ctor x, stemIdx_ctor x', ← stemOf_display x e hc, ← stemOf_display x' e' hc', h]
  cases e <;> cases e' <;> first
    | (exfalso; revert hi; decide)
    | rfl
    | trivial
    | (focus (cases hi; done))
    | skip
  · rw [plain_tells h]; rfl
  · rw [saslName_tells h]; rfl
  · rw [protocol_tells (List.append_cancel_left h)]; rfl
  · rw [scramParse_tells (List.append_cancel_left h)]; rfl
  · rw [refusal_tells (List.append_cancel_left h)]; rfl
  · exact absurd rfl (hc _)

/-- C112: what is shown of an error together with its sources tells which error it is, except of the errors of
OAUTHBEARER about a message, and of errors of others. -/
theorem C112_report_partial (x x' : Detail) (ht : x.typeName = x'.typeName) (hi : Function.Injective x.typeName)
    (e e' : SessionError) (he : ¬ Foreign e) (he' : ¬ Foreign e') (h : report x e = report x' e') : ReadsAs e e' := by
  obtain ⟨h1, h2⟩ := List.cons.inj h
  have hctor : e.ctorIdx = e'.ctorIdx :=
    C96_tells x x' e e' (by rintro n rfl; exact he trivial) (by rintro n rfl; exact he' trivial) h1
  cases e <;> cases e' <;> first
    | (exfalso; revert hctor; decide)
    | rfl
    | trivial
    | (focus (cases hctor; done))
    | skip
  case mechanismError.mechanismError e e' =>
    exact mech_tells (by rintro n rfl; exact he trivial) (by rintro n rfl; exact he' trivial) (List.append_cancel_left h1)
  case callbackError.callbackError e e' =>
    simp only [SessionError.sources, List.cons.injEq, and_true] at h2
    cases e <;> cases e' <;> first
      | rfl
      | (exfalso; revert h2; simp [CallbackError.display]; done)
      | skip
    simp only [CallbackError.display, List.append_cancel_left_eq] at h2
    rw [← ht] at h2
    rw [hi h2]
    rfl
  case validationError.validationError e e' =>
    cases e <;> cases e' <;> first
      | rfl
      | exact absurd trivial he
      | exact absurd trivial he'
  case missingChannelBindingData.missingChannelBindingData n n' =>
    simp only [SessionError.display] at h1
    rw [List.append_cancel_left (List.append_cancel_right h1)]
    rfl
  all_goals exact absurd trivial he

/-- C112 is false of the errors of OAUTHBEARER about a message: the cause is kept, but `MechanismError` has no `source`, and
every report reads "failed to parse message". -/
theorem C112_oauth_false (x : Detail) : ¬ ∀ e e' : SessionError, ¬ Foreign e → ¬ Foreign e' → report x e = report x e' →
    e = e' ∨ ∃ i i', e = .io i ∧ e' = .io i' := by
  intro h
  rcases h (.mechanismError (.oauthParse .missingEnd)) (.mechanismError (.oauthParse .channelBindings)) (fun h => h)
    (fun h => h) rfl with h | ⟨i, i', h, -⟩ <;> cases h

/-- C112: the causes that no report shows have words of their own. -/
theorem C112_oauth_words (e e' : OParseError) : e.display = oauthText e ∧ (e.display = e'.display ↔ e = e') := by
  refine ⟨by cases e <;> rfl, fun h => ?_, fun h => by rw [h]⟩
  revert h
  cases e <;> cases e' <;> decide

/-! ### Examples -/

section Examples

/-- A number for each property. -/
def propertyNumber : Property → Nat
  | .custom n => n + 100
  | p => p.ctorIdx

def numbered : Detail := { plainDetail with typeName := fun p => showNat (propertyNumber p) }

theorem numbered_injective : Function.Injective numbered.typeName := by
  intro p q h
  have h : propertyNumber p = propertyNumber q := showNat_inj h
  cases p <;> cases q <;> first
    | rfl
    | (exfalso; revert h; decide)
    | (simp only [propertyNumber, Property.ctorIdx] at h; omega)
    | (rw [Nat.add_right_cancel h])

/-- The count of iterations was not a number. -/
example : report numbered (.mechanismError (.scramProtocol .iterationCountFormat)) =
    [c!"internal mechanism error: SCRAM protocol error: iteration count must be decimal"] := by decide +kernel

/-- An error about the callback and its source. -/
example : report numbered (.callbackError .noValue) =
    [c!"callback error", c!"callback could not provide a value for this query type"] := by decide +kernel

example (p : Property) (h : report numbered (.callbackError (.noCallback .authId)) = report numbered (.callbackError (.noCallback p))) :
    ReadsAs (.callbackError (.noCallback .authId)) (.callbackError (.noCallback p)) :=
  C112_report_partial numbered numbered rfl numbered_injective _ _ (fun h => h) (fun h => h) h

end Examples

end Rsasl

/-
The line protocol of the interop server.
-/
import Verif.Spec.Session
import Verif.Model.Interop

namespace Rsasl.Spec

open Interop (Line End)

/-- Lines, each with its end. -/
def asLines (ls : List Bytes) : Bytes := ls.flatMap (· ++ [10])

/-- The messages a peer gets from these replies: one for each reply that has one. -/
def messages (rs : List (Reply State)) : List Bytes :=
  (rs.filter (fun r => r.res ≠ .ok (.finished .no))).map (·.out)

/-- The last line. -/
def verdictText : Option VVal → Bytes
  | some v => b!"OK " ++ v
  | none => b!"ERR NOTVALID"

/-- How a step with the text `text` goes, where `next` says how one with its content goes. -/
inductive Heard (next : Option Bytes → Outcome State) : Option Bytes → Outcome State → Prop where
  | garbled (text : Bytes) (h : ∀ b, text ≠ Base64.encode b) : Heard next (some text) (.err .base64)
  | read (input : Option Bytes) : Heard next (input.map Base64.encode) (next input)

/-- How a dialogue that has come to the replies `rs`, with the validation slot as given, is closed: `todo` are the
texts of the client that were not answered, `next` is how a step with another input would go. -/
inductive Closing (errText : SessionError → Bytes) (rs : List (Reply State)) (slot : Option VVal)
    (todo : List (Option Bytes)) (next : Option Bytes → Outcome State) : End → List Bytes → Prop where
  | done (h : Completed rs) : Closing errText rs slot todo next .ok [verdictText slot]
  | left (h : AllRunning rs) (ht : todo = []) : Closing errText rs slot todo next .failed []
  | refused (h : AllRunning rs) (e : SessionError) (t : Option Bytes) (ht : todo.head? = some t)
      (he : Heard next t (.err e)) : Closing errText rs slot todo next .failed [b!"ERR " ++ errText e]
  | panicked (h : AllRunning rs) (t : Option Bytes) (ht : todo.head? = some t)
      (he : Heard next t .panic) : Closing errText rs slot todo next .panicked []

/-- The lines up to the first that could not be read. -/
def heard (lines : List Line) : List (Option Bytes) :=
  (lines.takeWhile Option.isSome).map (·.map Str.bytes)

/-- How a dialogue for a mechanism in which `first` speaks first begins, after a line of the client
with the words `parts` behind the name, and more lines to come: what the server sends at first, and
the texts it will step its session with. -/
inductive Opening (first : Side) (parts : List Str) (lines : List Line) :
    List Bytes → List (Option Bytes) → Prop where
  | ours (h : first = .server) : Opening first parts lines [] (none :: heard lines)
  | given (h : first = .client) (data : Str) (hd : parts.head? = some data) :
      Opening first parts lines [] (some (Str.bytes data) :: heard lines)
  | asked (h : first = .client) (hp : parts = []) : Opening first parts lines [b!"-"] (heard lines)

/-- The list of mechanisms. -/
def nameLine (names : List Bytes) : Bytes := names.flatMap (· ++ b!" ")

/-- The characters with the property `White_Space` (Unicode's `PropList.txt`). -/
def whiteSpace : List Char :=
  ['\t', '\n', '\x0b', '\x0c', '\r', ' ', '\u0085', '\u00a0', '\u1680', '\u2000', '\u2001', '\u2002',
    '\u2003', '\u2004', '\u2005', '\u2006', '\u2007', '\u2008', '\u2009', '\u200a', '\u2028', '\u2029',
    '\u202f', '\u205f', '\u3000']

/-- The words of a text. -/
inductive WordsOf : Str → List Str → Prop where
  | nil : WordsOf [] []
  | space {c s ws} : c ∈ whiteSpace → WordsOf s ws → WordsOf (c :: s) ws
  | word {w s ws} : w ≠ [] → (∀ c ∈ w, c ∉ whiteSpace) → (∀ c ∈ s.head?, c ∈ whiteSpace) →
      WordsOf s ws → WordsOf (w ++ s) (w :: ws)

/-- A text without the white space around it. -/
def Trimmed (s t : Str) : Prop :=
  ∃ before after, s = before ++ t ++ after ∧ (∀ c ∈ before, c ∈ whiteSpace) ∧
    (∀ c ∈ after, c ∈ whiteSpace) ∧ (∀ c ∈ t.head?, c ∉ whiteSpace) ∧
    ∀ c ∈ t.getLast?, c ∉ whiteSpace

/-- The first line of a client names one of the configuration's mechanisms. -/
def Names (cfg : Config) (lines : List Line) (m : Mechanism) (parts : List Str)
    (rest : List Line) : Prop :=
  ∃ hello name, lines = some hello :: rest ∧ WordsOf hello (name :: parts) ∧ m ∈ cfg.mechs ∧
    m.name = Str.bytes name

/-- What a client makes of a line: the text without the white space around it. -/
inductive Hears : Option Str → Option Bytes → Prop where
  | nothing : Hears none none
  | line {s t : Str} (h : Trimmed s t) : Hears (some s) (some (Str.bytes t))

/-- How the session of a client goes on that has got `input`, with these lines to come: what it prints,
and how the program ends, if it does. -/
inductive Prints (m : Mech) (env : Env) :
    Session m.S → Option Str → List Line → List Bytes → Option End → Prop where
  | panicked {ses ses' : Session m.S} {input text o lines} (ht : Hears input text)
      (h : ses.step64 m env ⟨text, []⟩ = (⟨.panic, o⟩, ses')) :
      Prints m env ses input lines [] (some .panicked)
  | failed {ses ses' : Session m.S} {input text e o lines} (ht : Hears input text)
      (h : ses.step64 m env ⟨text, []⟩ = (⟨.err e, o⟩, ses')) :
      Prints m env ses input lines [] (some .failed)
  | done {ses ses' : Session m.S} {input text sent o lines} (ht : Hears input text)
      (h : ses.step64 m env ⟨text, []⟩ = (⟨.ok (.finished sent), o⟩, ses')) :
      Prints m env ses input lines [o] (some .ok)
  | waits {ses ses' : Session m.S} {input text o} (ht : Hears input text)
      (h : ses.step64 m env ⟨text, []⟩ = (⟨.ok .running, o⟩, ses')) :
      Prints m env ses input [] [o] none
  | unreadable {ses ses' : Session m.S} {input text o lines} (ht : Hears input text)
      (h : ses.step64 m env ⟨text, []⟩ = (⟨.ok .running, o⟩, ses')) :
      Prints m env ses input (none :: lines) [o] (some .failed)
  | next {ses ses' : Session m.S} {input text o line lines ps r} (ht : Hears input text)
      (h : ses.step64 m env ⟨text, []⟩ = (⟨.ok .running, o⟩, ses'))
      (hn : Prints m env ses' (some line) lines ps r) :
      Prints m env ses input (some line :: lines) (o :: ps) r

end Rsasl.Spec

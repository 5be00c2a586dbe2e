/-
What the client of GNU SASL for the interop tests should do, line by line.
-/
import Verif.Model.GsaslClient

namespace Rsasl.Spec

open GsaslClient

/-- `w` is how the line `l` is sent, without its line feed: as it is, or with a carriage return. -/
def OnWire (w l : Bytes) : Prop :=
  10 ∉ w ∧ 0 ∉ w ∧ (w = l ++ [13] ∨ w = l ∧ l.getLast? ≠ some 13)

/-- The lines as they are sent. -/
def stream (ws : List Bytes) : Bytes := (ws.map (· ++ [10])).flatten

/-- The outcome a line tells. -/
def outcomeOf (l : Bytes) : Option Bool :=
  if b!"OK" <+: l then some true else if b!"ERR" <+: l then some false else none

/-- The library is given `input`, then line after line as long as it wants more; each time its output is sent as a
line. The line after that is the outcome. -/
def lineTalk (lib : Lib) : lib.S → Bytes → List Bytes → Run
  | ses, input, lines =>
    let answer := (lib.step64 ses input).2.1.getD [] ++ [10]
    match (lib.step64 ses input).1, lines with
    | .error, _ => ⟨[], .code (-1)⟩
    | .ok, [] => ⟨answer, .waiting⟩
    | .ok, l :: _ => ⟨answer, .outcome (outcomeOf l)⟩
    | .needsMore, [] => ⟨answer, .waiting⟩
    | .needsMore, l :: lines =>
      let r := lineTalk lib (lib.step64 ses input).2.2 l lines
      ⟨answer ++ r.sent, r.res⟩

/-- A word of the list begins with the name. -/
def Begun (name offer : Bytes) : Prop :=
  ∃ pre post, offer = pre ++ name ++ post ∧ (pre = [] ∨ pre.getLast? = some 32)

/-- A word of the list is the name. -/
def Offered (name offer : Bytes) : Prop :=
  ∃ pre post, offer = pre ++ name ++ post ∧ (pre = [] ∨ pre.getLast? = some 32) ∧
    (post = [] ∨ post.head? = some 32)

/-- A line of the server, how it is sent, and the pieces in which it arrives, by itself. -/
structure Arriving where
  line : Bytes
  wire : Bytes
  pieces : List Bytes

/-- It is sent as it should be, is shorter than the buffer, and arrives completely; no piece is empty. -/
structure Arriving.Good (a : Arriving) (cap : Nat) : Prop where
  wire : OnWire a.wire a.line
  short : a.wire.length < cap
  whole : a.pieces.flatten = a.wire ++ [10]
  pieces : ∀ p ∈ a.pieces, p ≠ []

/-- The library's texts fit into `n` bytes. -/
def Fits (lib : Lib) (n : Nat) : Prop :=
  ∀ ses input, ((lib.step64 ses input).2.1.getD []).length ≤ n

end Rsasl.Spec

/-
What a selector picks from an offer.
-/
import Verif.Model.Selectors

namespace Rsasl.Spec

open Selectors

/-- The selection `s`, shown these names one after the other, picks the mechanism `m`, which would be
started with the result `r`: the mechanism it names first is started as it is registered; if it names
one only when it is asked at the end, it has a say in how it is started. -/
inductive SelPicks : Selectors.Selection → List Bytes → Mechanism → Start Auth → Prop where
  | given (m : Mechanism) (offered : List Bytes) : SelPicks (Selectors.Selection.done m) offered m (unwrapStart m.client)
  | named {s : Sel} {o offered m st} (h : s.select o s.st = (some m, st)) :
      SelPicks (Selectors.Selection.nothing s) (o :: offered) m (unwrapStart m.client)
  | next {s : Sel} {o offered m r st} (h : s.select o s.st = (none, st))
      (hp : SelPicks (Selectors.Selection.nothing { s with st := st }) offered m r) : SelPicks (Selectors.Selection.nothing s) (o :: offered) m r
  | last {s : Sel} {m st} (h : s.done s.st = (some m, st)) : SelPicks (Selectors.Selection.nothing s) [] m (s.finalize st)

/-- The result of a start with the mechanism. -/
def startedAs (m : Mechanism) : Start Auth → Start (Auth × Mechanism)
  | .ok a => .ok (a, m)
  | .err e => .err e
  | .panic => .panic

/-- It only picks what was offered. -/
def Honest (s : Selectors.Selection) : Prop := ∀ offered m r, SelPicks s offered m r → m.name ∈ offered

end Rsasl.Spec

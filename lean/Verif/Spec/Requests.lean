/-
What a callback does with a request, told by its program alone: the words in which C17, C18 and
C19 say exactly how every request ends.
-/
import Verif.Spec.Callback

namespace Rsasl.Spec

/-- What a callback does with a request for `p` that was not answered yet: it evaluates closures
of its own `evaluated` times, and then either returns, or gives an answer and goes on with what
`satisfy` reports. -/
inductive Beginning (p : Property) where
  | returns (evaluated : Nat) (r : Except SessionError Unit)
  | answers (evaluated : Nat) (v : p.Value) (k : Except SessionError Unit → CbProg)

/-- `n` closures were evaluated before. -/
def beginning (p : Property) : Nat → CbProg → Beginning p
  | n, .ret r => .returns n r
  | n, .satisfy q v k => if h : q = p then .answers n (h ▸ v) k else beginning p n (k (.ok ()))
  | n, .satisfyWith q (.ok v) k =>
    if h : q = p then .answers (n + 1) (h ▸ v) k else beginning p n (k (.ok ()))
  | n, .satisfyWith q (.error e) k =>
    if q = p then beginning p (n + 1) (k (.error e)) else beginning p n (k (.ok ()))
  | n, .getAction _ k => beginning p n (k none)
  | n, .is q k => beginning p n (k (decide (q = p)))

/-- What a callback does after its first answer: closures evaluated, further answers, and the
result it returns. -/
structure Sequel where
  evaluated : Nat
  answers : Nat
  result : Except SessionError Unit

/-- A further answer is met with the signal to return early. -/
def sequel (p : Property) : CbProg → Sequel
  | .ret r => ⟨0, 0, r⟩
  | .satisfy q _ k =>
    if q = p then
      let t := sequel p (k (.error (.callbackError .earlyReturn)))
      { t with answers := t.answers + 1 }
    else sequel p (k (.ok ()))
  | .satisfyWith q (.ok _) k =>
    if q = p then
      let t := sequel p (k (.error (.callbackError .earlyReturn)))
      { t with evaluated := t.evaluated + 1, answers := t.answers + 1 }
    else sequel p (k (.ok ()))
  | .satisfyWith q (.error e) k =>
    if q = p then
      let t := sequel p (k (.error e))
      { t with evaluated := t.evaluated + 1 }
    else sequel p (k (.ok ()))
  | .getAction _ k => sequel p (k none)
  | .is q k => sequel p (k (decide (q = p)))

/-- What becomes of the result of a callback: "no value" and an early return are no errors. -/
def complaint : Except SessionError Unit → Option SessionError
  | .ok () => none
  | .error e =>
    if e = .callbackError .noValue ∨ e = .callbackError .earlyReturn then none else some e

/-- What a callback does with an action for `p` holding `v`: whether it takes the value, and the
result it returns. -/
def reaction (p : Property) : Option p.Value → CbProg → Bool × Except SessionError Unit
  | held, .ret r => (held.isNone, r)
  | held, .satisfy _ _ k => reaction p held (k (.ok ()))
  | held, .satisfyWith _ _ k => reaction p held (k (.ok ()))
  | held, .getAction q k =>
    if h : q = p then reaction p none (k (h ▸ held)) else reaction p held (k none)
  | held, .is q k => reaction p held (k (decide (q = p)))

end Rsasl.Spec

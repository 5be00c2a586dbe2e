/-
Well-behaved user callbacks, and what a callback may do to the log.
-/
import Verif.Model.Callback

namespace Rsasl

/-- The callback answers a request for `p` with `v`: it may first try to satisfy requests for
other properties, ask what is requested, look for actions; then it satisfies `p` and hands on the
result (`?`). -/
inductive Answers (p : Property) (v : p.Value) : CbProg → Prop where
  | satisfy (k) (hk : ∀ e, k (.error e) = .ret (.error e)) : Answers p v (.satisfy p v k)
  | satisfyWith (k) (hk : ∀ e, k (.error e) = .ret (.error e)) :
      Answers p v (.satisfyWith p (.ok v) k)
  | skip (q) (u) (k) (hq : q ≠ p) (h : Answers p v (k (.ok ()))) : Answers p v (.satisfy q u k)
  | skipWith (q) (u) (k) (hq : q ≠ p) (h : Answers p v (k (.ok ()))) :
      Answers p v (.satisfyWith q u k)
  | skipAction (q) (k) (h : Answers p v (k none)) : Answers p v (.getAction q k)
  | is (q) (k) (h : Answers p v (k (decide (q = p)))) : Answers p v (.is q k)

/-- The callback has nothing to say to a request for `p`: it never satisfies `p` and returns `Ok`
or `CallbackError::NoValue`. -/
inductive Declines (p : Property) : CbProg → Prop where
  | ok : Declines p (.ret (.ok ()))
  | noValue : Declines p (.ret (.error (.callbackError .noValue)))
  | skip (q) (u) (k) (hq : q ≠ p) (h : Declines p (k (.ok ()))) : Declines p (.satisfy q u k)
  | skipWith (q) (u) (k) (hq : q ≠ p) (h : Declines p (k (.ok ()))) :
      Declines p (.satisfyWith q u k)
  | skipAction (q) (k) (h : Declines p (k none)) : Declines p (.getAction q k)
  | is (q) (k) (h : Declines p (k (decide (q = p)))) : Declines p (.is q k)

/-- Only `evaluated` entries: evaluating own closures is all a callback can do to the log besides
being asked and being answered. -/
def Quiet (es : List Event) : Prop := ∀ e ∈ es, ∃ p, e = .evaluated p

/-- The world with events appended to the log. -/
def World.addLog (w : World) (es : List Event) : World := { w with log := w.log ++ es }

/-- The validate callbacks called in a log, with what they were offered. -/
def validations (log : List Event) : List Provider :=
  log.filterMap (fun e => match e with | .validated ctx => some ctx | _ => none)

/-- The properties the callback was asked for in a log. -/
def askedProps (log : List Event) : List Property :=
  log.filterMap (fun e => match e with | .asked p _ => some p | _ => none)

end Rsasl

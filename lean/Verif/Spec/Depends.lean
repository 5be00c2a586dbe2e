/-
Two callbacks that treat requests alike, except for some.
-/
import Verif.Spec.Order
import Verif.Spec.Reads

namespace Rsasl

namespace Spec

/-- Called with a request for the property `p`, the two callbacks give the same values, evaluate the
same closures and return the same: what they do that has no effect on such a request does not matter,
nor how they find out that it is one. -/
inductive AnswerAlike (p : Property) : CbProg → CbProg → Prop where
  | ret (r) : AnswerAlike p (.ret r) (.ret r)
  | satisfy (v : p.Value) {k k'} (h : ∀ r, AnswerAlike p (k r) (k' r)) :
      AnswerAlike p (.satisfy p v k) (.satisfy p v k')
  | satisfyWith (g : Except SessionError p.Value) {k k'} (h : ∀ r, AnswerAlike p (k r) (k' r)) :
      AnswerAlike p (.satisfyWith p g k) (.satisfyWith p g k')
  | other {q : Property} (hq : q ≠ p) (v : q.Value) {k b} (h : AnswerAlike p (k (.ok ())) b) :
      AnswerAlike p (.satisfy q v k) b
  | otherWith {q : Property} (hq : q ≠ p) (g : Except SessionError q.Value) {k b}
      (h : AnswerAlike p (k (.ok ())) b) : AnswerAlike p (.satisfyWith q g k) b
  | noAction (q : Property) {k b} (h : AnswerAlike p (k none) b) : AnswerAlike p (.getAction q k) b
  | is (q : Property) {k b} (h : AnswerAlike p (k (decide (q = p))) b) : AnswerAlike p (.is q k) b
  | symm {a b} (h : AnswerAlike p a b) : AnswerAlike p b a

/-- Called to be told a value of the property `p`, the two callbacks do the same. -/
inductive HearAlike (p : Property) : CbProg → CbProg → Prop where
  | ret (r) : HearAlike p (.ret r) (.ret r)
  | getAction {k k'} (h : ∀ o, HearAlike p (k o) (k' o)) :
      HearAlike p (.getAction p k) (.getAction p k')
  | noRequest (q : Property) (v : q.Value) {k b} (h : HearAlike p (k (.ok ())) b) :
      HearAlike p (.satisfy q v k) b
  | noRequestWith (q : Property) (g : Except SessionError q.Value) {k b}
      (h : HearAlike p (k (.ok ())) b) : HearAlike p (.satisfyWith q g k) b
  | other {q : Property} (hq : q ≠ p) {k b} (h : HearAlike p (k none) b) :
      HearAlike p (.getAction q k) b
  | is (q : Property) {k b} (h : HearAlike p (k (decide (q = p))) b) : HearAlike p (.is q k) b
  | symm {a b} (h : HearAlike p a b) : HearAlike p b a

/-- Two environments that only differ in how they treat the contacts of `X`. -/
structure AlikeBut (X : Contact → Prop) (env env' : Env) : Prop where
  sd : env.sd = env'.sd
  vtag : env.vtag = env'.vtag
  chanbind : env.chanbind = env'.chanbind
  asks : ∀ p, ¬ X (.asks p) → ∀ h ctx,
    AnswerAlike p (env.callback h env.sd ctx) (env'.callback h env.sd ctx)
  tells : ∀ p, ¬ X (.tells p) → ∀ h ctx,
    HearAlike p (env.callback h env.sd ctx) (env'.callback h env.sd ctx)
  shows : ¬ X .shows → ∀ h ctx, env.validate h env.sd ctx = env'.validate h env.sd ctx

/-- None of these events is a contact of `X`. -/
def Without (X : Contact → Prop) (es : List Event) : Prop := ∀ c ∈ contactsOf es, ¬ X c

end Spec

end Rsasl

/-
Two callbacks that do the same, except for some of the values they give.
-/
import Verif.Spec.ScramExchange

namespace Rsasl

namespace Spec

/-- A relation between values of the same property. -/
abbrev ValueRel := (p : Property) → p.Value → p.Value → Prop

/-- Two callbacks that do the same, except that the values they give are related by `V`. -/
inductive ProgsAlike (V : ValueRel) : CbProg → CbProg → Prop where
  | ret (r) : ProgsAlike V (.ret r) (.ret r)
  | satisfy (p : Property) {v v' : p.Value} {k k'} (hv : V p v v')
      (h : ∀ r, ProgsAlike V (k r) (k' r)) : ProgsAlike V (.satisfy p v k) (.satisfy p v' k')
  | satisfyWith (p : Property) {v v' : p.Value} {k k'} (hv : V p v v')
      (h : ∀ r, ProgsAlike V (k r) (k' r)) :
      ProgsAlike V (.satisfyWith p (.ok v) k) (.satisfyWith p (.ok v') k')
  | satisfyErr (p : Property) (e : SessionError) {k k'} (h : ∀ r, ProgsAlike V (k r) (k' r)) :
      ProgsAlike V (.satisfyWith p (.error e) k) (.satisfyWith p (.error e) k')
  | getAction (p : Property) {k k'} (h : ∀ r, ProgsAlike V (k r) (k' r)) :
      ProgsAlike V (.getAction p k) (.getAction p k')
  | is (p : Property) {k k'} (h : ∀ r, ProgsAlike V (k r) (k' r)) :
      ProgsAlike V (.is p k) (.is p k')

/-- The same happened, except that the values that were used are related by `L`. -/
inductive LogsAlike (L : ValueRel) : List Event → List Event → Prop where
  | nil : LogsAlike L [] []
  | same {l l' : List Event} (e : Event) (h : LogsAlike L l l') : LogsAlike L (l ++ [e]) (l' ++ [e])
  | answered {l l' : List Event} {p : Property} {v v' : p.Value} (hv : L p v v')
      (h : LogsAlike L l l') : LogsAlike L (l ++ [.answered p v]) (l' ++ [.answered p v'])

/-- Two environments whose callbacks do the same after the same history, except that the values
they give for a request with context `ctx` are related by `V ctx`. -/
structure EnvsAlike (L : ValueRel) (V : Provider → ValueRel) (env env' : Env) : Prop where
  sd : env.sd = env'.sd
  chanbind : env.chanbind = env'.chanbind
  callback : ∀ l l', LogsAlike L l l' → ∀ ctx,
    ProgsAlike (V ctx) (env.callback l env.sd ctx) (env'.callback l' env'.sd ctx)

/-- Passwords are related by `R`, all other values are equal. -/
def PasswordsBy (R : Bytes → Bytes → Prop) : ValueRel
  | .password, v, v' => R v v'
  | _, v, v' => v = v'

/-- The two passwords give the same key with the salt and the iteration count that the context
offers. -/
def SameKey (d : Scram.Digest) (ctx : Provider) (password password' : Bytes) : Prop :=
  ∀ salt it, ctx.Exactly (saltOffer salt it) →
    d.pbkdf2 password salt it = d.pbkdf2 password' salt it

/-- Two environments whose callbacks do the same except that they may give different passwords,
with the same key. They may tell apart what was given before only as far as `R` does not. -/
abbrev SameButPassword (d : Scram.Digest) (R : Bytes → Bytes → Prop) (env env' : Env) : Prop :=
  EnvsAlike (PasswordsBy R) (fun ctx => PasswordsBy fun v v' => R v v' ∧ SameKey d ctx v v') env env'

end Spec

end Rsasl

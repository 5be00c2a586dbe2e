/-
How the steps of servers end, told by what the application's callbacks do.
-/
import Verif.Spec.ScramSteps
import Verif.Spec.Validate

namespace Rsasl.Spec

variable {S : Type}

/-- How often a validate callback makes `with` run a closure; `free` says whether the slot is still free. -/
def closures (vtag : Nat) : Bool → ValProg → Nat
  | _, .ret _ => 0
  | free, .finalize t _ k => closures vtag (free && t != vtag) k
  | free, .with t f k =>
    if free && t == vtag then
      match f with
      | .ok _ => closures vtag false (k (.ok ())) + 1
      | .error e => closures vtag true (k (.error e)) + 1
    else closures vtag free (k (.ok ()))
  | free, .is t k => closures vtag free (k (decide (t = vtag)))

/-- What a call of `validate` leaves in the slot. -/
def slotAfter (vtag : Nat) (slot : Option VVal) (prog : ValProg) : Option VVal :=
  match slot with
  | some v => some v
  | none => firstValue vtag prog

/-- What it adds to the history. -/
def validation (vtag : Nat) (slot : Option VVal) (ctx : Provider) (prog : ValProg) : List Event :=
  .validated ctx :: List.replicate (closures vtag slot.isNone prog) (.vEvaluated vtag)

/-- A step wrote `out` and then called `validate` with `ctx`, the session being `s`. The callback's error ends the step;
else it returns `st` and leaves the mechanism as `after`. -/
def ruling (env : Env) (s : Session S) (ctx : Provider) (out : Bytes) (st : State) (after : S) : Reply State × Session S :=
  let prog := env.validate s.log env.sd ctx
  match returned env.vtag s.slot.isNone prog with
  | .ok () => (⟨.ok st, out⟩,
      ⟨after, slotAfter env.vtag s.slot prog, s.rng, s.log ++ validation env.vtag s.slot ctx prog⟩)
  | .error e => (⟨.err (.validationError e), out⟩,
      ⟨s.st, slotAfter env.vtag s.slot prog, s.rng, s.log ++ validation env.vtag s.slot ctx prog⟩)

/-- The two OAuth servers: the callback is asked for the outcome of checking the token, then everything is validated.
A refusal that the callback gave first is sent, and the server waits for the client to take note, even if the step
fails afterwards. -/
def tokenChecked (p : Property) (refused : p.Value → Option Bytes) (env : Env) (s : Session OAuthSState) (ctx : Provider) :
    Reply State × Session OAuthSState :=
  let prog := env.callback s.log env.sd ctx
  let sent := (firstAnswer p prog).bind refused
  let s' : Session OAuthSState :=
    ⟨if sent.isSome then .errored else s.st, s.slot, s.rng, s.log ++ settledLog p fine ctx prog⟩
  match settledNeed p fine prog with
  | .error e => (⟨.err e, sent.getD []⟩, s')
  | .ok v => ruling env s' ctx (sent.getD []) (if (refused v).isSome then .running else .finished .no) s'.st

/-- What an OAUTHBEARER message offers. -/
def bearerOffer (authzid : Option Str) (token : Str) (fields : List (Str × Str)) : Provider :=
  .chain (match authzid with
    | none => [⟨.oauthBearerToken, token⟩, ⟨.oauthBearerKV, fields⟩]
    | some z => [⟨.authzId, z⟩, ⟨.oauthBearerToken, token⟩, ⟨.oauthBearerKV, fields⟩])

end Rsasl.Spec

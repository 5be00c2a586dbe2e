/-
User callbacks, property requests and validation (`src/callback.rs`, `src/validate.rs`) and the
`MechanismData` methods mechanisms use (`src/session.rs`).
-/
import Verif.Model.World

namespace Rsasl

/-- `Mechanism`, src/registry.rs:52-67: the parts a session and its callbacks can see. -/
structure MechDesc where
  name : Bytes
  priority : Nat
  first : Side
deriving DecidableEq

/-- `SessionData`, src/session.rs:420-434. -/
structure SessionData where
  mech : MechDesc
  side : Side
deriving DecidableEq

/-- What a user's `callback` can do with the `&mut Request` it gets (src/callback.rs:304-504):
any sequence of the public methods, each continuation depending on the result, ending in a
returned `Result`. `satisfy_with` carries the result its closure would give. -/
inductive CbProg where
  | ret (r : Except SessionError Unit)
  | satisfy (p : Property) (v : p.Value) (k : Except SessionError Unit → CbProg)
  | satisfyWith (p : Property) (f : Except SessionError p.Value)
      (k : Except SessionError Unit → CbProg)
  | getAction (p : Property) (k : Option p.Value → CbProg)
  | is (p : Property) (k : Bool → CbProg)

/-- What a user's `validate` can do with the `&mut Validate` it gets (src/validate.rs:137-164).
A `Validation` type is a number here, all with the same opaque value type. -/
inductive ValProg where
  | ret (r : Except ValidationError Unit)
  | finalize (tag : Nat) (v : VVal) (k : ValProg)
  | with (tag : Nat) (f : Except ValidationError VVal)
      (k : Except ValidationError Unit → ValProg)
  | is (tag : Nat) (k : Bool → ValProg)

/-- What a session is given from outside: the user's `SessionCallback` (src/callback.rs:34-141),
the protocol's `ChannelBindingCallback` (src/channel_bindings.rs:8-13), the tag of the protocol's
`Validation` type and the `SessionData`. The callbacks may depend on everything that happened so
far (the log), so callbacks with own state are covered as long as they are deterministic in it. -/
structure Env where
  callback : List Event → SessionData → Provider → CbProg
  validate : List Event → SessionData → Provider → ValProg
  chanbind : Str → Option Bytes
  vtag : Nat
  sd : SessionData

/-- `Option<ClosureCRState>`, src/callback.rs:221-229; `gone` is `None`. -/
inductive CR (G : Type) where
  | open
  | satisfied (g : G)
  | gone

/-- `ClosureCR::try_unwrap`, src/callback.rs:243-249. -/
def CR.tryUnwrap {G : Type} : CR G → Option G
  | .satisfied g => some g
  | _ => none

/-- `CallbackError::early_return().into()`, src/callback.rs:207-209. -/
def earlyReturn : SessionError := .callbackError .earlyReturn

/-- `ClosureCR::satisfy`, src/callback.rs:257-263: `closure.take()` in every case, so a second
call leaves `None` behind. Returns the result and the new contents. -/
def CR.satisfy {S G : Type} (p : Property) (f : p.Value → M S G) (v : p.Value) :
    CR G → M S (Except SessionError Unit × CR G)
  | .open => do
    M.note (.answered p v)
    match ← M.attempt (f v) with
    | .ok g => pure (.ok (), .satisfied g)
    | .error e => pure (.error e, .gone)
  | .satisfied _ => pure (.ok (), .gone)
  | .gone => pure (.ok (), .gone)

/-- The `mech.satisfy(..)?; Err(early_return)` of src/callback.rs:420-421 and 498-499. -/
def afterSatisfy : Except SessionError Unit → Except SessionError Unit
  | .ok () => .error earlyReturn
  | .error e => .error e

/-- Run a callback program on a satisfiable request for `p` (`Request::satisfy` 415-425,
`satisfy_with` 489-503, `get_action` 349-357, `is` 317-319 of src/callback.rs). -/
def runSat {S G : Type} (p : Property) (f : p.Value → M S G) :
    CbProg → CR G → M S (Except SessionError Unit × CR G)
  | .ret r, cr => pure (r, cr)
  | .satisfy q v k, cr =>
    if h : q = p then do
      let (r, cr) ← cr.satisfy p f (h ▸ v)
      runSat p f (k (afterSatisfy r)) cr
    else runSat p f (k (.ok ())) cr
  | .satisfyWith q g k, cr =>
    if h : q = p then do
      M.note (.evaluated p)
      match g with
      | .error e => runSat p f (k (.error e)) cr
      | .ok v =>
        let (r, cr) ← cr.satisfy p f (h ▸ v)
        runSat p f (k (afterSatisfy r)) cr
    else runSat p f (k (.ok ())) cr
  | .getAction _ k, cr => runSat p f (k none) cr
  | .is q k, cr => runSat p f (k (decide (q = p))) cr

/-- Run a callback program on an actionable request for `p` holding `cur` (the
`Tagged<Action<P>>` of src/session.rs:339; `get_action` takes it). -/
def runAct {S : Type} (p : Property) :
    CbProg → Option p.Value → M S (Except SessionError Unit × Option p.Value)
  | .ret r, cur => pure (r, cur)
  | .satisfy _ _ k, cur => runAct p (k (.ok ())) cur
  | .satisfyWith _ _ k, cur => runAct p (k (.ok ())) cur
  | .getAction q k, cur =>
    if h : q = p then do
      match cur with
      | some v => M.note (.delivered p v)
      | none => pure ()
      runAct p (k (h ▸ cur)) none
    else runAct p (k none) cur
  | .is q k, cur => runAct p (k (decide (q = p))) cur

/-- The filter of `MechanismData::callback`, src/session.rs:325-328. -/
def filterEarly : Except SessionError Unit → Except SessionError Unit
  | .ok () => .ok ()
  | .error (.callbackError .earlyReturn) => .ok ()
  | .error e => .error e

/-- The filter of `maybe_need_with`, src/session.rs:370-374. -/
def filterNoValue : Except SessionError Unit → Except SessionError Unit
  | .ok () => .ok ()
  | .error (.callbackError .noValue) => .ok ()
  | .error e => .error e

section MechanismData

variable {S G : Type} (env : Env)

/-- `MechanismData::maybe_need_with`, src/session.rs:359-376. -/
def maybeNeedWith (p : Property) (ctx : Provider) (f : p.Value → M S G) : M S (Option G) := do
  let h ← M.history
  M.note (.asked p ctx)
  let (r, cr) ← runSat p f (env.callback h env.sd ctx) .open
  M.lift (filterNoValue (filterEarly r))
  pure cr.tryUnwrap

/-- `MechanismData::need_with`, src/session.rs:350-357. -/
def needWith (p : Property) (ctx : Provider) (f : p.Value → M S G) : M S G := do
  let r ← maybeNeedWith env p ctx f
  M.okOr (.callbackError (.noCallback p)) r

/-- `MechanismData::action`, src/session.rs:331-348. -/
def action (p : Property) (ctx : Provider) (v : p.Value) : M S Unit := do
  let h ← M.history
  M.note (.notified p ctx)
  let (r, cur) ← runAct p (env.callback h env.sd ctx) (some v)
  M.lift (filterEarly r)
  match cur with
  | some _ => M.fail (.callbackError (.noCallback p))
  | none => pure ()

/-- `MechanismData::maybe_need_cb_data`, src/session.rs:378-394. -/
def maybeNeedCbData (cbname : Str) (prov : Provider) (f : Bytes → M S G) : M S (Option G) :=
  let prov := Provider.and (.this ⟨.channelBindingName, cbname⟩) prov
  match env.chanbind cbname with
  | some cbdata => do
    let g ← f cbdata
    pure (some g)
  | none => maybeNeedWith env .channelBindings prov f

/-- `MechanismData::need_cb_data`, src/session.rs:396-408. -/
def needCbData (cbname : Str) (prov : Provider) (f : Bytes → M S G) : M S G := do
  let r ← maybeNeedCbData env cbname prov f
  M.okOr (.missingChannelBindingData cbname) r

/-- Run a validate program against the session's validation slot (`Validate::finalize`
147-151, `with` 153-163, `is` 139-141 of src/validate.rs). -/
def runVal (vtag : Nat) : ValProg → M S (Except ValidationError Unit)
  | .ret r => pure r
  | .finalize tag v k => do
    fun s w =>
      runVal vtag k s
        (if tag = vtag ∧ w.slot = none then { w with slot := some v } else w)
  | .with tag f k => fun s w =>
    if tag = vtag ∧ w.slot = none then
      let w := { w with log := w.log ++ [.vEvaluated tag] }
      match f with
      | .error e => runVal vtag (k (.error e)) s w
      | .ok v => runVal vtag (k (.ok ())) s { w with slot := some v }
    else runVal vtag (k (.ok ())) s w
  | .is tag k => runVal vtag (k (decide (tag = vtag)))

/-- `MechanismData::validate`, src/session.rs:313-317, with the `?` of its callers, which turns a
`ValidationError` into `SessionError::ValidationError` (src/error.rs). -/
def validate (ctx : Provider) : M S Unit := do
  let h ← M.history
  M.note (.validated ctx)
  match ← runVal env.vtag (env.validate h env.sd ctx) with
  | .ok () => pure ()
  | .error e => M.fail (.validationError e)

end MechanismData

end Rsasl

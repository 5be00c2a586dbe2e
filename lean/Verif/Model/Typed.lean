/-
The type-erased values behind `Request`, `Context` and `Validate` (`src/typed.rs`), with the casts
their methods make. The rest of the model uses the functions of `Model/Callback` and
`Model/Property`, which have no types at run time; C70 shows that they do the same.

Lifetimes are not modelled: a tag stands for the `'static` tag type, its `Reified` type for that
type at any lifetime.
-/
import Verif.Model.Callback

namespace Rsasl

/-- Types with `MaybeSizedType`, src/typed.rs:19-21: `DemandTag<P>` (src/context.rs:72-75) and
`Satisfy<P>` (src/callback.rs:266-270). -/
inductive UTag where
  | demand (p : Property)
  | satisfy (p : Property)
deriving DecidableEq

/-- Types with `tags::Type`: `Ref`, `RefMut`, `Optional` (src/typed.rs:23-36), `Action<P>`
(src/callback.rs:272-276) and the protocols' `Validation` types (src/validate.rs:107-112), which
are numbers here. -/
inductive Tag where
  | ref (u : UTag)
  | refMut (u : UTag)
  | optional (t : Tag)
  | action (p : Property)
  | validation (n : Nat)
deriving DecidableEq

section

variable (S G : Type)

/-- `Tagged<T>` for a `Satisfy<P>` is a mutable reference to a `dyn CallbackRequest<P::Value>`, which
always is a `ClosureCR` (src/callback.rs:217-229): the closure it was made of and its contents. -/
abbrev ErasedClosure (p : Property) := (p.Value → M S G) × CR G

/-- `MaybeSizedType::Reified` -/
@[reducible] def UTag.Reified : UTag → Type
  | .demand p => p.Value
  | .satisfy p => ErasedClosure S G p

/-- `Type::Reified` -/
@[reducible] def Tag.Reified : Tag → Type
  | .ref u => u.Reified S G
  | .refMut u => u.Reified S G
  | .optional t => Option t.Reified
  | .action p => Option p.Value
  | .validation _ => Option VVal

/-- A `dyn Erased`, src/typed.rs:59-66: some `Tagged<T>`. -/
structure Erased where
  tag : Tag
  val : tag.Reified S G

/-- What a cast gives; `ub` if it takes a value for one of another type. -/
inductive Cast (α : Type) where
  | no
  | got (a : α)
  | ub

end

/-- `TypeId::of` of the standard library. -/
structure TypeIds where
  Id : Type
  eq : DecidableEq Id
  of : Tag → Id

instance (ids : TypeIds) : DecidableEq ids.Id := ids.eq

variable {S G : Type} (ids : TypeIds)

/-- `Erased::tag_id`, src/typed.rs:62-66. -/
def Erased.tagId (e : Erased S G) : ids.Id := ids.of e.tag

/-- `<dyn Erased>::is`, src/typed.rs:67-71. -/
def Erased.is (e : Erased S G) (t : Tag) : Bool := decide (ids.of t = e.tagId ids)

/-- `<dyn Erased>::downcast_mut`, src/typed.rs:73-80. The pointer is cast without a check of what it
points to. -/
def Erased.downcast (e : Erased S G) (t : Tag) : Cast (t.Reified S G) :=
  if e.is ids t then
    if h : e.tag = t then .got (h ▸ e.val) else .ub
  else .no

/-! ## Requests -/

/-- The tag of a satisfiable request. -/
abbrev satisfyTag (p : Property) : Tag := .refMut (.satisfy p)

/-- `Request::new_satisfy`, src/callback.rs:291-295. -/
def newSatisfy (p : Property) (f : p.Value → M S G) (cr : CR G) : Erased S G := ⟨satisfyTag p, (f, cr)⟩

/-- `Request::new_action`, src/callback.rs:297-302. -/
def newAction (p : Property) (v : Option p.Value) : Erased S G := ⟨.action p, v⟩

/-- `Request::is`, src/callback.rs:304-319. -/
def Erased.isFor (e : Erased S G) (p : Property) : Bool :=
  e.is ids (satisfyTag p) || e.is ids (.action p)

/-- `Request::get_action`, src/callback.rs:349-357. `none` outside is undefined behaviour. -/
def Erased.getAction (e : Erased S G) (p : Property) : Option (Option p.Value × Erased S G) :=
  match e.downcast ids (.action p) with
  | .got v => some (v, newAction p none)
  | .no => some (none, e)
  | .ub => none

/-- `Request::satisfy`, src/callback.rs:415-425. -/
def Erased.satisfy (e : Erased S G) (p : Property) (v : p.Value) :
    M S (Option (Except SessionError Unit × Erased S G)) :=
  match e.downcast ids (satisfyTag p) with
  | .got (f, cr) => do
    let (r, cr) ← cr.satisfy p f v
    pure (some (afterSatisfy r, newSatisfy p f cr))
  | .no => pure (some (.ok (), e))
  | .ub => pure none

/-- `Request::satisfy_with`, src/callback.rs:489-503. -/
def Erased.satisfyWith (e : Erased S G) (p : Property) (g : Except SessionError p.Value) :
    M S (Option (Except SessionError Unit × Erased S G)) :=
  match e.downcast ids (satisfyTag p) with
  | .got (f, cr) => do
    M.note (.evaluated p)
    match g with
    | .error err => pure (some (.error err, newSatisfy p f cr))
    | .ok v => do
      let (r, cr) ← cr.satisfy p f v
      pure (some (afterSatisfy r, newSatisfy p f cr))
  | .no => pure (some (.ok (), e))
  | .ub => pure none

/-- A callback's calls on a request. -/
def runErased : CbProg → Erased S G → M S (Option (Except SessionError Unit × Erased S G))
  | .ret r, e => pure (some (r, e))
  | .satisfy p v k, e => do
    match ← e.satisfy ids p v with
    | some (r, e) => runErased (k r) e
    | none => pure none
  | .satisfyWith p g k, e => do
    match ← e.satisfyWith ids p g with
    | some (r, e) => runErased (k r) e
    | none => pure none
  | .getAction p k, e => do
    match e.getAction ids p with
    | some (v, e) => do
      match v with
      | some v => M.note (.delivered p v)
      | none => pure ()
      runErased (k v) e
    | none => pure none
  | .is p k, e => runErased (k (e.isFor ids p)) e

/-- `closurecr` and `tagged` after the callback, seen from the function that owns them
(src/session.rs:341, 375). The second component of a closure, the option of an action. -/
def Erased.closure (p : Property) (e : Erased S G) : CR G :=
  if h : e.tag = satisfyTag p then
    (cast (congrArg (Tag.Reified S G) h) e.val : ErasedClosure S G p).2
  else .gone

def Erased.action (p : Property) (e : Erased S G) : Option p.Value :=
  if h : e.tag = .action p then (cast (congrArg (Tag.Reified S G) h) e.val : Option p.Value) else none

/-- `MechanismData::maybe_need_with`, src/session.rs:359-376. Undefined behaviour is a panic. -/
def maybeNeedWithE (env : Env) (p : Property) (ctx : Provider) (f : p.Value → M S G) :
    M S (Option G) := do
  let h ← M.history
  M.note (.asked p ctx)
  match ← runErased ids (env.callback h env.sd ctx) (newSatisfy p f .open) with
  | none => M.panic
  | some (r, e) => do
    M.lift (filterNoValue (filterEarly r))
    pure (e.closure p).tryUnwrap

/-- `MechanismData::action`, src/session.rs:331-348. -/
def actionE (env : Env) (p : Property) (ctx : Provider) (v : p.Value) : M S Unit := do
  let h ← M.history
  M.note (.notified p ctx)
  match ← runErased ids (env.callback h env.sd ctx) (newAction (S := S) (G := Unit) p (some v)) with
  | none => M.panic
  | some (r, e) => do
    M.lift (filterEarly r)
    match e.action p with
    | some _ => M.fail (.callbackError (.noCallback p))
    | none => pure ()

/-! ## Contexts -/

/-- A value some provider has, lent or lent for changing. -/
inductive Offer where
  | lent (pv : PV)
  | lentMut (pv : PV)

/-- `Demand::provide`, src/context.rs:97-104, for `provide_ref` (107-109) and `provide_mut` (112-117). -/
def Erased.provide (e : Erased S G) : Offer → Option (Flow × Erased S G)
  | .lent pv =>
    match e.downcast ids (.optional (.ref (.demand pv.prop))) with
    | .got _ => some (.break, ⟨.optional (.ref (.demand pv.prop)), some pv.val⟩)
    | .no => some (.continue, e)
    | .ub => none
  | .lentMut pv =>
    match e.downcast ids (.optional (.refMut (.demand pv.prop))) with
    | .got _ => some (.break, ⟨.optional (.refMut (.demand pv.prop)), some pv.val⟩)
    | .no => some (.continue, e)
    | .ub => none

/-- A chain of such calls, each with `?`. -/
def Erased.provideAll : List Offer → Erased S G → Option (Flow × Erased S G)
  | [], e => some (.continue, e)
  | o :: os, e =>
    match e.provide ids o with
    | some (.break, e) => some (.break, e)
    | some (.continue, e) => provideAll os e
    | none => none

/-- `Provider::provide` of the crate's providers. -/
def Provider.provideE : Provider → Erased S G → Option (Flow × Erased S G)
  | .empty, e => some (.continue, e)
  | .this pv, e => e.provideAll ids [.lent pv]
  | .and l r, e =>
    match l.provideE e with
    | some (.break, e) => some (.break, e)
    | some (.continue, e) => r.provideE e
    | none => none
  | .chain pvs, e => e.provideAll ids (pvs.map .lent)

/-- `Provider::provide_mut` of the crate's providers. -/
def Provider.provideMutE : Provider → Erased S G → Option (Flow × Erased S G)
  | .and l r, e =>
    match l.provideMutE e with
    | some (.break, e) => some (.break, e)
    | some (.continue, e) => r.provideMutE e
    | none => none
  | _, e => some (.continue, e)

/-- What a demand for a reference holds. -/
def Erased.demanded (p : Property) (e : Erased S G) : Option p.Value :=
  if h : e.tag = .optional (.ref (.demand p)) then
    (cast (congrArg (Tag.Reified S G) h) e.val : Option p.Value)
  else none

/-- The same for a demand for a mutable reference. -/
def Erased.demandedMut (p : Property) (e : Erased S G) : Option p.Value :=
  if h : e.tag = .optional (.refMut (.demand p)) then
    (cast (congrArg (Tag.Reified S G) h) e.val : Option p.Value)
  else none

/-- The `tagged` of `Context::get_ref`, src/context.rs:169. -/
def newDemand (p : Property) : Erased Unit Unit := ⟨.optional (.ref (.demand p)), none⟩

/-- The `tagged` of `Context::get_mut`, src/context.rs:180. -/
def newDemandMut (p : Property) : Erased Unit Unit := ⟨.optional (.refMut (.demand p)), none⟩

/-- `Context::get_ref`, src/context.rs:168-172. -/
def Provider.getRefE (ctx : Provider) (p : Property) : Option (Option p.Value) :=
  (ctx.provideE ids (newDemand p)).map fun x => x.2.demanded p

/-- `Context::get_mut`, src/context.rs:179-183. -/
def Provider.getMutE (ctx : Provider) (p : Property) : Option (Option p.Value) :=
  (ctx.provideMutE (newDemandMut p)).map fun x => x.2.demandedMut p

/-! ## Validation -/

/-- `Validate::finalize`, src/validate.rs:147-151. -/
def Erased.finalize (e : Erased S G) (tag : Nat) (v : VVal) : Option (Erased S G) :=
  match e.downcast ids (.validation tag) with
  | .got none => some ⟨.validation tag, some v⟩
  | .got (some _) => some e
  | .no => some e
  | .ub => none

/-- A validate callback's calls: result, `Validate` and what was evaluated.
`with` is src/validate.rs:153-163, `is` 139-141. -/
def runValE : ValProg → Erased S G → List Event →
    Option (Except ValidationError Unit × Erased S G × List Event)
  | .ret r, e, log => some (r, e, log)
  | .finalize tag v k, e, log =>
    match e.finalize ids tag v with
    | some e => runValE k e log
    | none => none
  | .with tag f k, e, log =>
    match e.downcast ids (.validation tag) with
    | .got none =>
      match f with
      | .error err => runValE (k (.error err)) e (log ++ [.vEvaluated tag])
      | .ok v => runValE (k (.ok ())) ⟨.validation tag, some v⟩ (log ++ [.vEvaluated tag])
    | .got (some _) => runValE (k (.ok ())) e log
    | .no => runValE (k (.ok ())) e log
    | .ub => none
  | .is tag k, e, log => runValE (k (e.is ids (.validation tag))) e log

end Rsasl

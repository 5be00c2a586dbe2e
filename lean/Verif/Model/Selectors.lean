/-
Selection with selectors of any kind. `Model/Registry` knows those of the crate; with the feature
`unstable_custom_mechanism` a mechanism can bring one of its own (`src/registry.rs:70-94`).
-/
import Verif.Model.Registry

namespace Rsasl.Selectors

/-- `Box<dyn Selector>`, src/registry.rs:295-299, with the state behind the box. Selectors that panic
in `select` or `done` are left out. -/
structure Sel where
  S : Type
  st : S
  select : Bytes → S → Option Mechanism × S
  done : S → Option Mechanism × S
  finalize : S → Start Auth

/-- `Selection`, src/registry.rs:301-305. -/
inductive Selection where
  | nothing (s : Sel)
  | done (m : Mechanism)

/-- `Selection::select`, src/registry.rs:307-313. -/
def Selection.select (name : Bytes) : Selection → Selection
  | .nothing s =>
    match s.select name s.st with
    | (some m, _) => .done m
    | (none, st) => .nothing { s with st := st }
  | .done m => .done m

/-- `Selection::done`, src/registry.rs:315-320, as it is used in src/registry.rs:252: the selection
with the mechanism. -/
def Selection.askDone : Selection → Option (Selection × Mechanism)
  | .nothing s =>
    match s.done s.st with
    | (some m, st) => some (.nothing { s with st := st }, m)
    | (none, _) => none
  | .done m => some (.done m, m)

/-- `Selection::finalize`, src/registry.rs:322-327. -/
def Selection.finalize : Selection → Start Auth
  | .nothing s => s.finalize s.st
  | .done m => unwrapStart m.client

/-- The loops of src/registry.rs:244-248. -/
def offerAll (offered : List Bytes) (selectors : List Selection) : List Selection :=
  offered.foldl (fun selectors o => selectors.map (Selection.select o)) selectors

/-- The closure of the fold, src/registry.rs:253-264. -/
def foldStep (prefer : Prefer) (acc : Option (Selection × Mechanism)) (sm : Selection × Mechanism) :
    Option (Selection × Mechanism) :=
  match prefer (acc.map (·.2)) sm.2 with
  | .gt => acc
  | .eq => some sm
  | .lt => some sm

/-- `Registry::select`, src/registry.rs:230-267, of mechanisms with these `select` functions
(src/registry.rs:64). -/
def select (mechs : List (Bool → Option Selection)) (cb : Bool) (offered : List Bytes)
    (prefer : Prefer) : Start (Auth × Mechanism) :=
  let selectors := mechs.filterMap (fun m => m cb)
  let selectors := offerAll offered selectors
  match (selectors.filterMap Selection.askDone).foldl (foldStep prefer) none with
  | none => .err .noSharedMechanism
  | some (s, m) =>
    match s.finalize with
    | .ok a => .ok (a, m)
    | .err e => .err e
    | .panic => .panic

/-- The selectors of the crate (`Rsasl.Selector`) as such ones. -/
def Sel.ofSelector (s : Selector) : Sel where
  S := Selector
  st := s
  select name s := s.select name
  done s := (s.done, s)
  finalize s := s.finalize

/-- And the selections. -/
def Selection.of : Rsasl.Selection → Selection
  | .nothing s => .nothing (.ofSelector s)
  | .done m => .done m

end Rsasl.Selectors

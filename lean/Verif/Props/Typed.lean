/-
Type-erased requests, contexts and validations: C70.

The casts of `src/typed.rs` are safe, and the methods of `Request`, `Context` and `Validate` built
on them do what the untyped functions of the rest of the model do. Needed is that `TypeId::of`
gives different types different ids.
-/
import Verif.Model.Typed
import Verif.Proofs.Callback

namespace Rsasl

/-- Different types have different ids: what the documentation of `TypeId` guarantees. -/
def TypeIds.Sound (ids : TypeIds) : Prop := ∀ t u, ids.of t = ids.of u → t = u

section

variable {S G : Type} {ids : TypeIds}

/-! ## Casts -/

/-- A cast gives a value exactly for the type of the value, and never takes one for another. -/
theorem C70_cast (hs : ids.Sound) (e : Erased S G) (t : Tag) :
    (e.tag ≠ t ∧ e.downcast ids t = .no) ∨ ∃ v : t.Reified S G, e = ⟨t, v⟩ ∧ e.downcast ids t = .got v := by
  obtain ⟨u, v⟩ := e
  by_cases h : u = t
  · subst h
    exact .inr ⟨v, rfl, by simp [Erased.downcast, Erased.is, Erased.tagId]⟩
  · refine .inl ⟨h, ?_⟩
    have : ¬ ids.of t = ids.of u := fun hi => h (hs _ _ hi).symm
    simp [Erased.downcast, Erased.is, Erased.tagId, this]

theorem Erased.downcast_self (t : Tag) (v : t.Reified S G) :
    (⟨t, v⟩ : Erased S G).downcast ids t = .got v := by
  simp [Erased.downcast, Erased.is, Erased.tagId]

theorem Erased.downcast_other (hs : ids.Sound) {t u : Tag} (v : u.Reified S G) (h : u ≠ t) :
    (⟨u, v⟩ : Erased S G).downcast ids t = .no := by
  have : ¬ ids.of t = ids.of u := fun hi => h (hs _ _ hi).symm
  simp [Erased.downcast, Erased.is, Erased.tagId, this]

/-- Ids that are all the same. -/
def oneId : TypeIds := ⟨Unit, inferInstance, fun _ => ()⟩

/-- The hypothesis on ids is needed: with equal ids a password is taken for a user name. -/
theorem C70_ids_needed (v : Option Bytes) :
    ¬ oneId.Sound ∧
      (newAction (S := S) (G := G) .password v).getAction oneId .authId = none := by
  refine ⟨fun h => ?_, ?_⟩
  · have := h (.action .authId) (.action .password) rfl
    simp at this
  · have hd : (newAction (S := S) (G := G) .password v).downcast oneId (.action .authId) = .ub := by
      unfold Erased.downcast
      have hi : (newAction (S := S) (G := G) .password v).is oneId (.action .authId) = true := rfl
      rw [if_pos hi, dif_neg (by simp [newAction])]
    unfold Erased.getAction
    rw [hd]

/-- Ids that tell types apart, as an example for the hypothesis. -/
def ownIds : TypeIds := ⟨Tag, inferInstance, id⟩

theorem ownIds_sound : ownIds.Sound := fun _ _ h => h

/-! ## Requests -/

/-- A request is for the property it was made for. -/
theorem C70_is_satisfiable (hs : ids.Sound) (p q : Property) (f : p.Value → M S G) (cr : CR G) :
    (newSatisfy p f cr).isFor ids q = decide (q = p) := by
  have h1 : ids.of (satisfyTag q) = ids.of (satisfyTag p) ↔ q = p :=
    ⟨fun h => by have := hs _ _ h; simp [satisfyTag] at this; exact this, fun h => h ▸ rfl⟩
  have h2 : ¬ ids.of (.action q) = ids.of (satisfyTag p) := fun h => by
    have := hs _ _ h; simp [satisfyTag] at this
  simp [Erased.isFor, Erased.is, Erased.tagId, newSatisfy, h1, h2]

theorem C70_is_actionable (hs : ids.Sound) (p q : Property) (v : Option p.Value) :
    (newAction (S := S) (G := G) p v).isFor ids q = decide (q = p) := by
  have h1 : ids.of (.action q) = ids.of (.action p) ↔ q = p :=
    ⟨fun h => by have := hs _ _ h; simp at this; exact this, fun h => h ▸ rfl⟩
  have h2 : ¬ ids.of (satisfyTag q) = ids.of (.action p) := fun h => by
    have := hs _ _ h; simp [satisfyTag] at this
  simp [Erased.isFor, Erased.is, Erased.tagId, newAction, h1, h2]

/-- Whatever a callback calls on a satisfiable request, all casts are safe, and the calls do to the
closure what they do in the untyped model. -/
theorem C70_satisfiable (hs : ids.Sound) (p : Property) (f : p.Value → M S G) (prog : CbProg)
    (cr : CR G) :
    runErased ids prog (newSatisfy p f cr) =
      (do let (r, cr) ← runSat p f prog cr; pure (some (r, newSatisfy p f cr))) := by
  induction prog generalizing cr with
  | ret r => rfl
  | satisfy q v k ih =>
    by_cases h : q = p
    · subst h
      have hd : (newSatisfy q f cr).downcast ids (satisfyTag q) = .got (f, cr) :=
        Erased.downcast_self _ _
      funext s w
      simp only [runErased, runSat, Erased.satisfy, hd, dif_pos, M.bind_assoc]
      rw [M.bind_apply, M.bind_apply]
      rcases cr.satisfy q f v s w with ⟨o, s, w⟩
      cases o with
      | ok x => exact congrFun (congrFun (ih _ _) s) w
      | err e => rfl
      | panic => rfl
    · have hd : (newSatisfy p f cr).downcast ids (satisfyTag q) = .no :=
        Erased.downcast_other hs _ (by simpa [satisfyTag] using fun h' : p = q => h h'.symm)
      simp only [runErased, runSat, Erased.satisfy, hd, dif_neg h]
      exact ih _ cr
  | satisfyWith q g k ih =>
    by_cases h : q = p
    · subst h
      have hd : (newSatisfy q f cr).downcast ids (satisfyTag q) = .got (f, cr) :=
        Erased.downcast_self _ _
      funext s w
      simp only [runErased, runSat, Erased.satisfyWith, hd, dif_pos, M.bind_assoc]
      cases g with
      | error e =>
        exact congrFun (congrFun (ih _ cr) s) _
      | ok v =>
        simp only [M.bind_assoc]
        rw [M.bind_apply, M.bind_apply]
        rcases M.note (.evaluated q) s w with ⟨o, s, w⟩
        cases o with
        | ok x =>
          dsimp only
          rw [M.bind_apply, M.bind_apply]
          rcases cr.satisfy q f v s w with ⟨o, s, w⟩
          cases o with
          | ok x => exact congrFun (congrFun (ih _ _) s) w
          | err e => rfl
          | panic => rfl
        | err e => rfl
        | panic => rfl
    · have hd : (newSatisfy p f cr).downcast ids (satisfyTag q) = .no :=
        Erased.downcast_other hs _ (by simpa [satisfyTag] using fun h' : p = q => h h'.symm)
      simp only [runErased, runSat, Erased.satisfyWith, hd, dif_neg h]
      exact ih _ cr
  | getAction q k ih =>
    have hd : (newSatisfy p f cr).downcast ids (.action q) = .no :=
      Erased.downcast_other hs _ (by simp [satisfyTag])
    simp only [runErased, runSat, Erased.getAction, hd]
    exact ih _ cr
  | is q k ih =>
    simp only [runErased, runSat, C70_is_satisfiable hs]
    exact ih _ cr

/-- The same for an actionable request: it can't be satisfied, and its value is taken by the first
`get_action` for its property. -/
theorem C70_actionable (hs : ids.Sound) (p : Property) (prog : CbProg) (v : Option p.Value) :
    runErased ids prog (newAction (S := S) (G := G) p v) =
      (do let (r, v) ← runAct p prog v; pure (some (r, newAction p v))) := by
  induction prog generalizing v with
  | ret r => rfl
  | satisfy q u k ih =>
    have hd : (newAction (S := S) (G := G) p v).downcast ids (satisfyTag q) = .no :=
      Erased.downcast_other hs _ (by simp [satisfyTag])
    simp only [runErased, runAct, Erased.satisfy, hd]
    exact ih _ v
  | satisfyWith q u k ih =>
    have hd : (newAction (S := S) (G := G) p v).downcast ids (satisfyTag q) = .no :=
      Erased.downcast_other hs _ (by simp [satisfyTag])
    simp only [runErased, runAct, Erased.satisfyWith, hd]
    exact ih _ v
  | getAction q k ih =>
    by_cases h : q = p
    · subst h
      have hd : (newAction (S := S) (G := G) q v).downcast ids (.action q) = .got v :=
        Erased.downcast_self _ _
      simp only [runErased, runAct, Erased.getAction, hd, dif_pos]
      cases v with
      | none => exact ih _ none
      | some v =>
        funext s w
        exact congrFun (congrFun (ih _ none) s) _
    · have hd : (newAction (S := S) (G := G) p v).downcast ids (.action q) = .no :=
        Erased.downcast_other hs _ (by simpa using fun h' : p = q => h h'.symm)
      simp only [runErased, runAct, Erased.getAction, hd, dif_neg h]
      exact ih _ v
  | is q k ih =>
    simp only [runErased, runAct, C70_is_actionable hs]
    exact ih _ v

theorem Erased.closure_newSatisfy (p : Property) (f : p.Value → M S G) (cr : CR G) :
    (newSatisfy p f cr).closure p = cr := by
  exact dif_pos rfl

theorem Erased.action_newAction (p : Property) (v : Option p.Value) :
    (newAction (S := S) (G := G) p v).action p = v := by
  exact dif_pos rfl

/-- `MechanismData::maybe_need_with` over erased requests is the one of the model. -/
theorem C70_maybe_need_with (hs : ids.Sound) (env : Env) (p : Property) (ctx : Provider)
    (f : p.Value → M S G) : maybeNeedWithE ids env p ctx f = maybeNeedWith env p ctx f := by
  unfold maybeNeedWithE maybeNeedWith
  simp only [C70_satisfiable hs, M.bind_assoc]
  congr 1; funext h; congr 1; funext u
  funext s w
  rw [M.bind_apply, M.bind_apply]
  rcases runSat p f (env.callback h env.sd ctx) .open s w with ⟨o, s, w⟩
  cases o with
  | ok x =>
    show (do M.lift (filterNoValue (filterEarly x.1)); pure ((newSatisfy p f x.2).closure p).tryUnwrap : M S _) s w = _
    rw [Erased.closure_newSatisfy]
  | err e => rfl
  | panic => rfl

/-- `MechanismData::action` likewise. -/
theorem C70_action (hs : ids.Sound) (env : Env) (p : Property) (ctx : Provider) (v : p.Value) :
    actionE (S := S) ids env p ctx v = action env p ctx v := by
  unfold actionE action
  simp only [C70_actionable hs, M.bind_assoc]
  congr 1; funext h; congr 1; funext u
  funext s w
  rw [M.bind_apply, M.bind_apply]
  rcases runAct p (env.callback h env.sd ctx) (some v) s w with ⟨o, s, w⟩
  cases o with
  | ok x =>
    obtain ⟨r, cur⟩ := x
    show (do
      M.lift (filterEarly r)
      match (newAction (S := S) (G := Unit) p cur).action p with
      | some _ => M.fail (.callbackError (.noCallback p))
      | none => pure () : M S Unit) s w = _
    rw [Erased.action_newAction]
    rfl
  | err e => rfl
  | panic => rfl

/-- No calls of a callback take any erased value for one of another type, whichever type it has. -/
theorem C70_safe (hs : ids.Sound) (prog : CbProg) (e : Erased S G) (s : S) (w : World) :
    ∀ s' w', runErased ids prog e s w ≠ (.ok none, s', w') := by
  induction prog generalizing e s w with
  | ret r => intro s' w' h; cases h
  | satisfy q v k ih =>
    intro s' w' h
    unfold runErased at h
    obtain ⟨x, s₁, w₁, hx, h⟩ := M.bind_eq_ok h
    rcases C70_cast hs e (satisfyTag q) with ⟨_, hd⟩ | ⟨⟨f, cr⟩, rfl, hd⟩ <;>
      simp only [Erased.satisfy, hd] at hx
    · cases hx; exact ih _ _ _ _ _ _ h
    · obtain ⟨y, s₂, w₂, _, hy⟩ := M.bind_eq_ok hx
      cases hy; exact ih _ _ _ _ _ _ h
  | satisfyWith q g k ih =>
    intro s' w' h
    unfold runErased at h
    obtain ⟨x, s₁, w₁, hx, h⟩ := M.bind_eq_ok h
    rcases C70_cast hs e (satisfyTag q) with ⟨_, hd⟩ | ⟨⟨f, cr⟩, rfl, hd⟩ <;>
      simp only [Erased.satisfyWith, hd] at hx
    · cases hx; exact ih _ _ _ _ _ _ h
    · obtain ⟨y, s₂, w₂, _, hy⟩ := M.bind_eq_ok hx
      cases g with
      | error err => cases hy; exact ih _ _ _ _ _ _ h
      | ok v =>
        obtain ⟨z, s₃, w₃, _, hz⟩ := M.bind_eq_ok hy
        cases hz; exact ih _ _ _ _ _ _ h
  | getAction q k ih =>
    intro s' w' h
    simp only [runErased] at h
    rcases C70_cast hs e (.action q) with ⟨_, hd⟩ | ⟨v, rfl, hd⟩ <;>
      simp only [Erased.getAction, hd] at h
    · exact ih _ _ _ _ _ _ h
    · cases v with
      | none => exact ih _ _ _ _ _ _ h
      | some v => exact ih _ _ _ _ _ _ h
  | is q k ih => intro s' w' h; exact ih _ _ _ _ _ _ h

/-! ## Contexts -/

/-- A demand for a reference to `p`, holding `slot`. -/
abbrev demandFor (p : Property) (slot : Option p.Value) : Erased S G :=
  ⟨.optional (.ref (.demand p)), slot⟩

/-- A demand for a mutable reference. -/
abbrev demandMutFor (p : Property) (slot : Option p.Value) : Erased S G :=
  ⟨.optional (.refMut (.demand p)), slot⟩

/-- The first value of `p` among offers that are lent. -/
def firstLent (p : Property) : List Offer → Option p.Value :=
  List.findSome? fun o => match o with
    | .lent pv => if h : pv.prop = p then some (h ▸ pv.val) else none
    | .lentMut _ => none

/-- The first value of `p` among offers that are lent for changing. -/
def firstLentMut (p : Property) : List Offer → Option p.Value :=
  List.findSome? fun o => match o with
    | .lent _ => none
    | .lentMut pv => if h : pv.prop = p then some (h ▸ pv.val) else none

/-- A demand for a reference takes the first fitting value lent, ends there, and takes none lent for
changing. -/
theorem C70_offers (hs : ids.Sound) (p : Property) (os : List Offer) (slot : Option p.Value) :
    (demandFor (S := S) (G := G) p slot).provideAll ids os =
      some (match firstLent p os with
        | some v => (.break, demandFor p (some v))
        | none => (.continue, demandFor p slot)) := by
  induction os with
  | nil => rfl
  | cons o os ih =>
    unfold Erased.provideAll
    cases o with
    | lent pv =>
      obtain ⟨q, v⟩ := pv
      by_cases h : q = p
      · subst h
        have hd : (demandFor (S := S) (G := G) q slot).downcast ids
            (.optional (.ref (.demand q))) = .got slot := Erased.downcast_self _ _
        simp only [Erased.provide, hd]
        simp [firstLent]
      · have hd : (demandFor (S := S) (G := G) p slot).downcast ids
            (.optional (.ref (.demand q))) = .no :=
          Erased.downcast_other hs _ (by simpa using fun h' : p = q => h h'.symm)
        simp only [Erased.provide, hd, ih]
        simp [firstLent, h]
    | lentMut pv =>
      have hd : (demandFor (S := S) (G := G) p slot).downcast ids
          (.optional (.refMut (.demand pv.prop))) = .no :=
        Erased.downcast_other hs _ (by simp)
      simp only [Erased.provide, hd, ih]
      simp [firstLent]

/-- A demand for a mutable reference takes the first fitting value lent for changing and no other. -/
theorem C70_offers_mut (hs : ids.Sound) (p : Property) (os : List Offer) (slot : Option p.Value) :
    (demandMutFor (S := S) (G := G) p slot).provideAll ids os =
      some (match firstLentMut p os with
        | some v => (.break, demandMutFor p (some v))
        | none => (.continue, demandMutFor p slot)) := by
  induction os with
  | nil => rfl
  | cons o os ih =>
    unfold Erased.provideAll
    cases o with
    | lentMut pv =>
      obtain ⟨q, v⟩ := pv
      by_cases h : q = p
      · subst h
        have hd : (demandMutFor (S := S) (G := G) q slot).downcast ids
            (.optional (.refMut (.demand q))) = .got slot := Erased.downcast_self _ _
        simp only [Erased.provide, hd]
        simp [firstLentMut]
      · have hd : (demandMutFor (S := S) (G := G) p slot).downcast ids
            (.optional (.refMut (.demand q))) = .no :=
          Erased.downcast_other hs _ (by simpa using fun h' : p = q => h h'.symm)
        simp only [Erased.provide, hd, ih]
        simp [firstLentMut, h]
    | lent pv =>
      have hd : (demandMutFor (S := S) (G := G) p slot).downcast ids
          (.optional (.ref (.demand pv.prop))) = .no :=
        Erased.downcast_other hs _ (by simp)
      simp only [Erased.provide, hd, ih]
      simp [firstLentMut]

theorem firstLent_lent (p : Property) (pvs : List PV) (slot : Option p.Value) :
    chainProvide p pvs slot =
      match firstLent p (pvs.map .lent) with
      | some v => (.break, some v)
      | none => (.continue, slot) := by
  induction pvs with
  | nil => rfl
  | cons pv pvs ih =>
    obtain ⟨q, v⟩ := pv
    by_cases h : q = p
    · subst h; simp [chainProvide, demandProvide, firstLent]
    · simp only [chainProvide, demandProvide, dif_neg h, ih]
      simp [firstLent, h]

/-- Every provider of the crate gives an erased demand what it gives in the untyped model. -/
theorem C70_provide (hs : ids.Sound) (p : Property) (ctx : Provider) (slot : Option p.Value) :
    ctx.provideE ids (demandFor (S := S) (G := G) p slot) =
      some ((ctx.provide p slot).1, demandFor p (ctx.provide p slot).2) := by
  induction ctx generalizing slot with
  | empty => rfl
  | this pv =>
    unfold Provider.provideE Provider.provide
    rw [C70_offers hs]
    have := firstLent_lent p [pv] slot
    simp only [chainProvide] at this
    have h2 : chainProvide p [pv] slot = demandProvide p slot pv := by
      unfold chainProvide chainProvide
      rcases demandProvide p slot pv with ⟨_ | _, _⟩ <;> rfl
    rw [← h2, firstLent_lent]
    simp only [List.map]
    cases firstLent p [.lent pv] <;> rfl
  | chain pvs =>
    unfold Provider.provideE Provider.provide
    rw [C70_offers hs, firstLent_lent]
    cases firstLent p (pvs.map .lent) <;> rfl
  | and l r ihl ihr =>
    unfold Provider.provideE Provider.provide
    rw [ihl]
    rcases l.provide p slot with ⟨_ | _, slot'⟩
    · exact ihr slot'
    · rfl

theorem Provider.provideMutE_apply (ctx : Provider) (e : Erased S G) :
    ctx.provideMutE e = some (.continue, e) := by
  induction ctx generalizing e with
  | and l r ihl ihr => unfold Provider.provideMutE; rw [ihl]; exact ihr e
  | _ => rfl

theorem Provider.provideMut_apply (p : Property) (ctx : Provider) (slot : Option p.Value) :
    ctx.provideMut p slot = (.continue, slot) := by
  induction ctx generalizing slot with
  | and l r ihl ihr => unfold Provider.provideMut; rw [ihl]; exact ihr slot
  | _ => rfl

/-- `Context::get_ref` over erased demands is the one of the model. -/
theorem C70_get_ref (hs : ids.Sound) (ctx : Provider) (p : Property) :
    ctx.getRefE ids p = some (ctx.getRef p) := by
  unfold Provider.getRefE
  rw [show newDemand p = demandFor p none from rfl, C70_provide hs]
  show some ((demandFor (S := Unit) (G := Unit) p (ctx.provide p none).2).demanded p) = _
  unfold Erased.demanded
  rw [dif_pos rfl]
  rfl

/-- `Context::get_mut` gives nothing: no provider of the crate lends a value for changing. -/
theorem C70_get_mut (ctx : Provider) (p : Property) :
    ctx.getMutE p = some none ∧ ctx.getMut p = none := by
  refine ⟨?_, by rw [Provider.getMut, Provider.provideMut_apply]⟩
  unfold Provider.getMutE
  rw [Provider.provideMutE_apply]
  show some ((demandMutFor (S := Unit) (G := Unit) p none).demandedMut p) = _
  unfold Erased.demandedMut
  rw [dif_pos rfl]
  rfl

/-! ## Validation -/

/-- A validate callback's calls on the erased slot of the session do what they do in the model, and
all casts are safe. -/
theorem C70_validate (hs : ids.Sound) (vtag : Nat) (prog : ValProg) (s : S) (w : World) :
    ∃ r slot log,
      runValE (S := S) (G := G) ids prog ⟨.validation vtag, w.slot⟩ w.log =
        some (r, ⟨.validation vtag, slot⟩, log) ∧
      runVal vtag prog s w = (.ok r, s, { w with slot := slot, log := log }) := by
  induction prog generalizing w with
  | ret r => exact ⟨r, w.slot, w.log, rfl, rfl⟩
  | finalize tag v k ih =>
    by_cases h : tag = vtag
    · subst h
      cases hw : w.slot with
      | none =>
        obtain ⟨r, slot, log, h1, h2⟩ := ih { w with slot := some v }
        refine ⟨r, slot, log, ?_, ?_⟩
        · unfold runValE Erased.finalize
          rw [Erased.downcast_self]
          exact h1
        · unfold runVal
          simp only [hw]
          exact h2
      | some x =>
        obtain ⟨r, slot, log, h1, h2⟩ := ih w
        rw [hw] at h1
        refine ⟨r, slot, log, ?_, ?_⟩
        · unfold runValE Erased.finalize
          rw [Erased.downcast_self]
          exact h1
        · unfold runVal
          simp only [hw]
          exact h2
    · obtain ⟨r, slot, log, h1, h2⟩ := ih w
      refine ⟨r, slot, log, ?_, ?_⟩
      · unfold runValE Erased.finalize
        rw [Erased.downcast_other hs _ (by simpa using fun h' : vtag = tag => h h'.symm)]
        exact h1
      · unfold runVal
        simp only [h, false_and, if_false]
        exact h2
  | «with» tag f k ih =>
    by_cases h : tag = vtag
    · subst h
      cases hw : w.slot with
      | none =>
        cases f with
        | error err =>
          obtain ⟨r, slot, log, h1, h2⟩ := ih (.error err) { w with log := w.log ++ [.vEvaluated tag] }
          refine ⟨r, slot, log, ?_, ?_⟩
          · unfold runValE
            rw [Erased.downcast_self]
            simp only [hw] at h1
            exact h1
          · unfold runVal
            simp only [hw]
            simp only [hw] at h2
            exact h2
        | ok v =>
          obtain ⟨r, slot, log, h1, h2⟩ :=
            ih (.ok ()) { w with log := w.log ++ [.vEvaluated tag], slot := some v }
          refine ⟨r, slot, log, ?_, ?_⟩
          · unfold runValE
            rw [Erased.downcast_self]
            exact h1
          · unfold runVal
            simp only [hw]
            exact h2
      | some x =>
        obtain ⟨r, slot, log, h1, h2⟩ := ih (.ok ()) w
        rw [hw] at h1
        refine ⟨r, slot, log, ?_, ?_⟩
        · unfold runValE
          rw [Erased.downcast_self]
          exact h1
        · unfold runVal
          simp only [hw]
          exact h2
    · obtain ⟨r, slot, log, h1, h2⟩ := ih (.ok ()) w
      refine ⟨r, slot, log, ?_, ?_⟩
      · unfold runValE
        rw [Erased.downcast_other hs _ (by simpa using fun h' : vtag = tag => h h'.symm)]
        exact h1
      · unfold runVal
        simp only [h, false_and, if_false]
        exact h2
  | is tag k ih =>
    obtain ⟨r, slot, log, h1, h2⟩ := ih (decide (tag = vtag)) w
    have hi : ids.of (.validation tag) = ids.of (.validation vtag) ↔ tag = vtag :=
      ⟨fun h => by have := hs _ _ h; simpa using this, fun h => h ▸ rfl⟩
    refine ⟨r, slot, log, ?_, h2⟩
    unfold runValE
    simp only [Erased.is, Erased.tagId, hi]
    exact h1

end

/-! ## Examples -/

/-- A callback with an answer for two properties, asked for the second. -/
def twoAnswers : CbProg :=
  .satisfy .authId (c!"user") fun
    | .error e => .ret (.error e)
    | .ok () => .satisfy .password (b!"secret") fun r => .ret r

example (w : World) : (runErased (S := Unit) ownIds twoAnswers
    (newSatisfy .password (fun (v : Bytes) => pure v.length) .open) () w).1 =
      .ok (some (.error earlyReturn, newSatisfy .password (fun (v : Bytes) => pure v.length) (.satisfied 6))) := by
  rw [C70_satisfiable ownIds_sound]
  rfl

example : (Provider.and (.this ⟨.authId, c!"user"⟩) (.chain [⟨.password, b!"secret"⟩])).getRefE
    ownIds .password = some (some (b!"secret")) := rfl

example : (demandFor (S := Unit) (G := Unit) .realm none).provideAll ownIds
    [.lentMut ⟨.realm, c!"a"⟩, .lent ⟨.authId, c!"b"⟩, .lent ⟨.realm, c!"c"⟩] =
      some (.break, demandFor .realm (some (c!"c"))) := rfl

example : (runValE (S := Unit) (G := Unit) ownIds (.finalize 1 [1] (.finalize 2 [2] (.ret (.ok ()))))
    ⟨.validation 2, none⟩ []) = some (.ok (), ⟨.validation 2, some [2]⟩, []) := rfl

end Rsasl

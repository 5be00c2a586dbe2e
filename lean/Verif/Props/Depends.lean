/-
C95: what a session does depends on the callback only through the requests it makes.
-/
import Verif.Proofs.Depends
import Verif.Props.Contacts
import Verif.Props.Order

namespace Rsasl

open Spec

variable {X : Contact → Prop} {env env' : Env}

/-! ## Specification -/

namespace Spec

/-- Two runs from the same session: they are the same and make no contact of `X`, or both make the
same contacts up to one of `X`, which is the first. -/
def SameUntil {S A : Type} (X : Contact → Prop) (ses : Session S) (x y : A × Session S) : Prop :=
  (x = y ∧ ∃ es, x.2.log = ses.log ++ es ∧ Without X es) ∨
  ∃ es e c after after', x.2.log = ses.log ++ es ++ e :: after ∧
    y.2.log = ses.log ++ es ++ e :: after' ∧ Without X es ∧ e.contact = some c ∧ X c

/-- What may be asked of a callback before a SCRAM client or a client of LOGIN has sent its first
message: nothing secret. -/
def beforeFirst : List Contact :=
  [.asks .overrideCBType, .asks .channelBindings, .asks .authzId, .asks .authId]

end Spec

/-! ## Theorems -/

theorem sameUntil_exec {S α A : Type} {m m' : M S α} (h : Same X m m') (ses : Session S)
    (sched : List WResp) (f : Reply α → A) :
    SameUntil X ses (f (ses.exec m sched).1, (ses.exec m sched).2)
      (f (ses.exec m' sched).1, (ses.exec m' sched).2) := by
  unfold Session.exec
  rcases h.on ses.st { wr := ⟨[], sched⟩, rng := ses.rng, slot := ses.slot, log := ses.log } with
    ⟨heq, d, h1, h2⟩ | ⟨wc, ⟨d, e, c, h1, h2, h3, h4⟩, ⟨-, r, h5⟩, ⟨-, r', h6⟩⟩
  · rw [← heq]
    exact .inl ⟨rfl, d, h1, h2⟩
  · refine .inr ⟨d, e, c, r, r', ?_, ?_, h2, h3, h4⟩
    · show World.log _ = _
      rw [← h5, h1]
      simp
    · show World.log _ = _
      rw [← h6, h1]
      simp

theorem layer_same {deps : Deps} {st : Started} (h : BuiltinServer deps st ∨ BuiltinClient deps st)
    (input : Bytes) :
    Same X (st.mech.encode input) (st.mech.encode input) ∧
    Same X (st.mech.decode input) (st.mech.decode input) := by
  have key : ∀ {α : Type} {m : M st.mech.S α}, Grows m → Within {} (fun _ => True) m → Same X m m := by
    intro α m hg hw
    refine .refl hg ⟨fun s w _ => ?_⟩
    obtain ⟨-, es, h1, h2⟩ := hw.logs s w trivial
    refine ⟨trivial, es, h1, fun e he => ?_⟩
    have := h2 e he
    cases e with
    | asked p ctx => obtain ⟨_, h, _⟩ := this; cases h
    | notified p ctx => obtain ⟨_, h, _⟩ := this; cases h
    | validated ctx => obtain ⟨_, h, _⟩ := this; cases h
    | _ => rfl
  obtain ⟨-, he, hd⟩ := builtin_code h ⟨fun _ _ _ => .ret (.ok ()), fun _ _ _ => .ret (.ok ()),
    fun _ => none, 0, ⟨⟨[], 0, .client⟩, .client⟩⟩
  refine ⟨key (he input).grows ?_, key (hd input).grows ?_⟩
  all_goals rcases h with ⟨a, h⟩ | ⟨a, h⟩ <;> cases a <;> cases h
  all_goals first
    | exact Within.fail _
    | exact (Gssapi.layers_within _ _).1
    | exact (Gssapi.layers_within _ _).2.1
    | exact (Gssapi.layers_within _ _).2.2.1
    | exact (Gssapi.layers_within _ _).2.2.2

theorem perform_sameUntil {deps : Deps} {st : Started}
    (h : BuiltinServer deps st ∨ BuiltinClient deps st) (hE : AlikeBut X env env')
    (ses : Session st.mech.S) (op : Op) :
    SameUntil X ses (ses.perform st.mech env op) (ses.perform st.mech env' op) := by
  have hr : ∀ {A : Type} (x : A), SameUntil X ses (x, ses) (x, ses) :=
    fun x => .inl ⟨rfl, [], by simp, without_nil⟩
  cases op with
  | step c => exact sameUntil_exec (builtin_same hE h c.input) ses c.sched Answer.state
  | step64 c =>
    show SameUntil X ses (Answer.state (ses.step64 st.mech env c).1, (ses.step64 st.mech env c).2)
      (Answer.state (ses.step64 st.mech env' c).1, (ses.step64 st.mech env' c).2)
    unfold Session.step64
    split
    · split
      · exact hr _
      · exact sameUntil_exec (builtin_same hE h _) ses c.sched
          fun r => Answer.state ⟨r.res, Base64.encode r.out⟩
    · next hc =>
      exact sameUntil_exec (builtin_same hE h c.input) ses c.sched
          fun r => Answer.state ⟨r.res, Base64.encode r.out⟩
  | encode i sched => exact sameUntil_exec (layer_same h i).1 ses sched Answer.count
  | decode i sched => exact sameUntil_exec (layer_same h i).2 ses sched Answer.count
  | validation => exact .inl ⟨rfl, [], by simp [Session.perform, Session.validation], without_nil⟩

theorem answerAlike_refl (p : Property) (prog : CbProg) : AnswerAlike p prog prog := by
  induction prog with
  | ret r => exact .ret r
  | satisfy q v k ih =>
    by_cases h : q = p
    · subst h; exact .satisfy v ih
    · exact .other h v (.symm (.other h v (ih _)))
  | satisfyWith q g k ih =>
    by_cases h : q = p
    · subst h; exact .satisfyWith g ih
    · exact .otherWith h g (.symm (.otherWith h g (ih _)))
  | getAction q k ih => exact .noAction q (.symm (.noAction q (ih _)))
  | is q k ih => exact .is q (.symm (.is q (ih _)))

theorem hearAlike_refl (p : Property) (prog : CbProg) : HearAlike p prog prog := by
  induction prog with
  | ret r => exact .ret r
  | satisfy q v k ih => exact .noRequest q v (.symm (.noRequest q v (ih _)))
  | satisfyWith q g k ih => exact .noRequestWith q g (.symm (.noRequestWith q g (ih _)))
  | getAction q k ih =>
    by_cases h : q = p
    · subst h; exact .getAction ih
    · exact .other h (.symm (.other h (ih _)))
  | is q k ih => exact .is q (.symm (.is q (ih _)))

theorem alikeBut_refl (env : Env) : AlikeBut X env env :=
  ⟨rfl, rfl, rfl, fun p _ _ _ => answerAlike_refl p _, fun p _ _ _ => hearAlike_refl p _,
    fun _ _ _ => rfl⟩

theorem performAll_grows {deps : Deps} {st : Started}
    (h : BuiltinServer deps st ∨ BuiltinClient deps st) (env : Env) (ops : List Op) :
    ∀ ses : Session st.mech.S, ∃ es, (ses.performAll st.mech env ops).2.log = ses.log ++ es := by
  induction ops with
  | nil => exact fun ses => ⟨[], by simp [Session.performAll]⟩
  | cons op ops ih =>
    intro ses
    obtain ⟨es, h1⟩ : ∃ es, (ses.perform st.mech env op).2.log = ses.log ++ es := by
      rcases perform_sameUntil (X := fun _ => False) h (alikeBut_refl env) ses op with
        ⟨-, es, h1, -⟩ | ⟨es, e, c, after, -, -, -, -, -, hx⟩
      · exact ⟨es, h1⟩
      · exact hx.elim
    obtain ⟨es', h2⟩ := ih (ses.perform st.mech env op).2
    exact ⟨es ++ es', by rw [show (ses.performAll st.mech env (op :: ops)).2 =
      ((ses.perform st.mech env op).2.performAll st.mech env ops).2 from rfl, h2, h1]; simp⟩

/-- C95: whatever is done with a session, two callbacks that differ only in how they treat the contacts
of `X` give the same results, messages and states, as long as no such contact is made; and the first
one that is made is the same with both. -/
theorem C95 {deps : Deps} {st : Started} (h : BuiltinServer deps st ∨ BuiltinClient deps st)
    (hE : AlikeBut X env env') (ops : List Op) : ∀ ses : Session st.mech.S,
    SameUntil X ses (ses.performAll st.mech env ops) (ses.performAll st.mech env' ops) := by
  induction ops with
  | nil => exact fun ses => .inl ⟨rfl, [], by simp [Session.performAll], without_nil⟩
  | cons op ops ih =>
    intro ses
    have hcons : ∀ e : Env, ses.performAll st.mech e (op :: ops) =
        ((ses.perform st.mech e op).1 ::
          ((ses.perform st.mech e op).2.performAll st.mech e ops).1,
          ((ses.perform st.mech e op).2.performAll st.mech e ops).2) := fun _ => rfl
    rw [hcons, hcons]
    rcases perform_sameUntil h hE ses op with ⟨heq, es, h1, h2⟩ |
      ⟨es, e, c, after, after', h1, h1', h2, h3, h4⟩
    · rw [← heq]
      rcases ih (ses.perform st.mech env op).2 with ⟨heq', es', h1', h2'⟩ |
        ⟨es', e, c, after, after', h3, h3', h4, h5, h6⟩
      · exact .inl ⟨by rw [← heq'], es ++ es', by rw [h1', h1]; simp, Without.append h2 h2'⟩
      · exact .inr ⟨es ++ es', e, c, after, after', by rw [h3, h1]; simp, by rw [h3', h1]; simp,
          Without.append h2 h4, h5, h6⟩
    · obtain ⟨r, hr⟩ := performAll_grows h env ops (ses.perform st.mech env op).2
      obtain ⟨r', hr'⟩ := performAll_grows h env' ops (ses.perform st.mech env' op).2
      exact .inr ⟨es, e, c, after ++ r, after' ++ r', by rw [hr, h1]; simp, by rw [hr', h1']; simp,
        h2, h3, h4⟩

/-- If no contact of `X` can be made, the two do the same. -/
theorem sameUntil_never {S A : Type} {ses : Session S} {x y : A × Session S}
    (h : SameUntil X ses x y) (hn : Without X x.2.log) : x = y := by
  rcases h with ⟨h, -⟩ | ⟨es, e, c, after, -, h1, -, -, h3, h4⟩
  · exact h
  · refine absurd h4 (hn c ?_)
    rw [h1]
    exact List.mem_filterMap.2 ⟨e, by simp, h3⟩

/-- C95: as long as none of these contacts was made with one of the callbacks, the answers to the calls
so far are the same, and so are those to the calls so far if more are made. -/
theorem C95_so_far {deps : Deps} {st : Started} (h : BuiltinServer deps st ∨ BuiltinClient deps st)
    (hE : AlikeBut X env env') (rng : Nat → Nat) (ops : List Op)
    (hn : Without X ((st.session rng).afterAll st.mech env ops).log) :
    (st.session rng).performAll st.mech env ops = (st.session rng).performAll st.mech env' ops :=
  sameUntil_never (C95 h hE ops _) hn

theorem without_of_allows {t : Contacts} {l : List Contact} {es : List Event}
    (h : ∀ e ∈ es, t.Allows e) (ha : ∀ p ps, (p, ps) ∈ t.asks → .asks p ∈ l)
    (ht : ∀ p ps, (p, ps) ∈ t.tells → .tells p ∈ l) (hs : t.shows ≠ [] → .shows ∈ l) :
    Without (fun c => c ∉ l) es := by
  intro c hc hx
  obtain ⟨e, he, hc⟩ := List.mem_filterMap.1 hc
  have := h e he
  cases e with
  | asked p ctx => cases hc; obtain ⟨ps, h1, -⟩ := this; exact hx (ha p ps h1)
  | notified p ctx => cases hc; obtain ⟨ps, h1, -⟩ := this; exact hx (ht p ps h1)
  | validated ctx => cases hc; obtain ⟨ps, h1, -⟩ := this; exact hx (hs (List.ne_nil_of_mem h1))
  | _ => cases hc

/-- C95: what a client does depends on how the callback treats the contacts documented for its
mechanism, and on nothing else of it. -/
theorem C95_client (deps : Deps) (a : Auth) (st : Started) (h : a.startClient deps = some st)
    (hE : AlikeBut (fun c => c ∉ clientOrder a) env env') (rng : Nat → Nat) (ops : List Op) :
    (st.session rng).performAll st.mech env ops = (st.session rng).performAll st.mech env' ops := by
  refine C95_so_far (.inr ⟨a, h⟩) hE rng ops (without_of_allows (C65_client deps a st h env rng ops)
    ?_ ?_ ?_)
  · clear h hE
    cases a <;> simp [clientContacts, clientOrder] <;> aesop
  · clear h hE
    cases a <;> simp [clientContacts, clientOrder] <;> aesop
  · clear h hE
    cases a <;> simp [clientContacts, clientOrder]

/-- C95: so it is for servers. -/
theorem C95_server (deps : Deps) (a : Auth) (st : Started) (h : a.startServer deps = some st)
    (hE : AlikeBut (fun c => c ∉ serverOrder a) env env') (rng : Nat → Nat) (ops : List Op) :
    (st.session rng).performAll st.mech env ops = (st.session rng).performAll st.mech env' ops := by
  refine C95_so_far (.inl ⟨a, h⟩) hE rng ops (without_of_allows (C65_server deps a st h env rng ops)
    ?_ ?_ ?_)
  · clear h hE
    cases a <;> simp [serverContacts, serverOrder] <;> aesop
  · clear h hE
    cases a <;> simp [serverContacts, serverOrder]
  · clear h hE
    cases a <;> simp [serverContacts, serverOrder]

/-- The contacts of a first message. -/
def firstContacts : Contacts :=
  { asks := [(.overrideCBType, []), (.channelBindings, [.channelBindingName]), (.authzId, []),
      (.authId, [])] }

theorem scram_first_within (d : Scram.Digest) (n : Nat) (env : Env) (input : Option Bytes)
    (plus : Scram.CbSupport) (w : World) :
    ∃ es, (Scram.clientStep d n env input (some (.initial plus)) w).2.2.log = w.log ++ es ∧
      ∀ e ∈ es, firstContacts.Allows e := by
  have key : Within firstContacts (fun _ => True)
      (do
        let new ← M.withLocal ({} : Scram.Gs2) (Scram.sendClientFirst n env plus)
        M.set (some new)
        Pure.pure State.running) :=
    Within.bind (Within.withLocal (Scram.sendClientFirst_within (P := fun _ => True) n plus (by listed)
      (by listed) fun _ => ⟨by listed, by listed⟩)) fun _ => Within.bind (.set trivial) fun _ => .pure _
  obtain ⟨-, es, h1, h2⟩ := key.logs none w trivial
  exact ⟨es, h1, h2⟩

theorem login_first_within (env : Env) (input : Option Bytes) (w : World) :
    ∃ es, (Login.clientStep env input .authid w).2.2.log = w.log ++ es ∧
      ∀ e ∈ es, firstContacts.Allows e := by
  have key : Within firstContacts (fun _ => True)
      (do
        needWith env .authId .empty (fun authid => M.writeAll (Str.bytes authid))
        M.set .password
        Pure.pure State.running : M Login.CState State) :=
    Within.bind (Within.needWith (Contacts.mayAsk_empty (by listed)) fun _ => .writeAll _) fun _ =>
      Within.bind (.set trivial) fun _ => .pure _
  obtain ⟨-, es, h1, h2⟩ := key.logs .authid w trivial
  exact ⟨es, h1, h2⟩

/-- C95: the first message of a SCRAM client, and that of a client of LOGIN, depends on the names and
the channel bindings the callback gives, but on no secret. -/
theorem C95_first (deps : Deps) (a : Auth) (st : Started) (h : a.startClient deps = some st)
    (ha : a = .login ∨ a.isScram = true) (hE : AlikeBut (fun c => c ∉ beforeFirst) env env')
    (rng : Nat → Nat) (c : Call) :
    (st.session rng).step st.mech env c = (st.session rng).step st.mech env' c := by
  suffices hn : Without (fun c => c ∉ beforeFirst) ((st.session rng).step st.mech env c).2.log by
    have := sameUntil_never (perform_sameUntil (.inr ⟨a, h⟩) hE (st.session rng) (.step c)) hn
    simp only [Session.perform, Prod.mk.injEq, Answer.state.injEq] at this
    exact Prod.ext this.1 this.2
  suffices hw : ∀ w : World, ∃ es, (st.mech.step env c.input st.init w).2.2.log = w.log ++ es ∧
      ∀ e ∈ es, firstContacts.Allows e by
    obtain ⟨es, h1, h2⟩ := hw { wr := ⟨[], c.sched⟩, rng := rng, slot := none, log := [] }
    refine without_of_allows (t := firstContacts) (fun e he => h2 e ?_) ?_ ?_ ?_
    · have h1 : ((st.session rng).step st.mech env c).2.log = [] ++ es := h1
      rw [h1] at he
      simpa using he
    all_goals simp [firstContacts, beforeFirst]
    all_goals aesop
  intro w
  cases a <;> cases h
  case login => exact login_first_within env c.input w
  case scramClient hash b => exact scram_first_within _ _ env c.input _ w
  case scramClientPlus hash => exact scram_first_within _ _ env c.input _ w
  all_goals rcases ha with ha | ha <;> cases ha

/-! ## Examples -/

/-- Two callbacks that know the same user with different passwords, and find out about it in
different ways. -/
def asking (password : Bytes) : Env :=
  { exampleEnv [] with callback := fun _ _ _ => .is .password fun b =>
      if b then .satisfy .password password .ret else .satisfy .authId (c!"me") .ret }

theorem asking_alike (x y : Bytes) :
    AlikeBut (· = .asks .password) (exampleEnv [⟨.authId, c!"me"⟩, ⟨.password, x⟩]) (asking y) := by
  refine ⟨rfl, rfl, rfl, fun p hp h ctx => ?_, fun p _ h ctx => ?_, fun _ _ _ => rfl⟩
  · have hp : Property.password ≠ p := fun h => hp (by rw [h])
    refine .symm (.is .password ?_)
    rw [show decide (Property.password = p) = false from decide_eq_false hp]
    by_cases ha : p = .authId
    · subst ha
      refine .satisfy _ fun r => ?_
      rcases r with e | ⟨⟩
      · exact .ret _
      · exact .symm (.other hp _ (.ret _))
    · exact .other (Ne.symm ha) _ (.symm (.other (Ne.symm ha) _ (.other hp _ (.ret _))))
  · refine .noRequest _ _ (.noRequest _ _ (.symm (.is .password ?_)))
    by_cases hb : Property.password = p
    · rw [show decide (Property.password = p) = true from decide_eq_true hb]
      exact .noRequest _ _ (.ret _)
    · rw [show decide (Property.password = p) = false from decide_eq_false hb]
      exact .noRequest _ _ (.ret _)

/-- With them, LOGIN's client says the same name, whatever the passwords, … -/
example (x y : Bytes) (rng : Nat → Nat) (c : Call) :
    (Started.session ⟨Login.client, .authid⟩ rng).step Login.client
        (exampleEnv [⟨.authId, c!"me"⟩, ⟨.password, x⟩]) c =
      (Started.session ⟨Login.client, .authid⟩ rng).step Login.client (asking y) c := by
  have h := asking_alike x y
  refine C95_first toyDeps .login ⟨Login.client, .authid⟩ rfl (.inl rfl) ⟨h.sd, h.vtag, h.chanbind,
    fun p hp => h.asks p fun e => hp (by rw [e]; decide), fun p hp => h.tells p nofun,
    fun _ => h.shows nofun⟩ rng c

/-- … and then each its own password: what comes after the request is not the same. -/
example (x y : Bytes) (rng : Nat → Nat) :
    ((Started.session ⟨Login.client, .authid⟩ rng).run Login.client
        (exampleEnv [⟨.authId, c!"me"⟩, ⟨.password, x⟩]) [⟨none, []⟩, ⟨none, []⟩]).1.map (·.out) =
      [b!"me", x] ∧
    ((Started.session ⟨Login.client, .authid⟩ rng).run Login.client
        (asking y) [⟨none, []⟩, ⟨none, []⟩]).1.map (·.out) = [b!"me", y] := by
  constructor
  · cases x <;> rfl
  · cases y <;> rfl

end Rsasl

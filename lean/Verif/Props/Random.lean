/-
C90: random numbers.
-/
import Verif.Spec.Random
import Verif.Proofs.Random
import Verif.Props.Interleaving
import Verif.Props.ScramReplay

namespace Rsasl

open Spec Scram

/-! ## Mechanisms without random numbers -/

/-- None of the mechanism's methods draws. -/
structure Mech.Sober (m : Mech) : Prop where
  step : ∀ env input, Drawless (m.step env input)
  encode : ∀ input, Drawless (m.encode input)
  decode : ∀ input, Drawless (m.decode input)

theorem Drawless.exec {S α : Type} {m : M S α} (h : Drawless m) (ses : Session S) (sched : List WResp)
    (rng : Nat → Nat) : Session.exec { ses with rng := rng } m sched =
      ((ses.exec m sched).1, { (ses.exec m sched).2 with rng := rng }) := by
  unfold Session.exec
  simp only [h.run ses.st ⟨⟨[], sched⟩, ses.rng, ses.slot, ses.log⟩ rng]

theorem Mech.Sober.perform {m : Mech} (h : m.Sober) (env : Env) (ses : Session m.S) (op : Op)
    (rng : Nat → Nat) : Session.perform m env { ses with rng := rng } op =
      ((ses.perform m env op).1, { (ses.perform m env op).2 with rng := rng }) := by
  have hs : ∀ c : Call, Session.step m env { ses with rng := rng } c =
      ((ses.step m env c).1, { (ses.step m env c).2 with rng := rng }) :=
    fun c => (h.step env c.input).exec ses c.sched rng
  cases op with
  | step c => simp only [Session.perform, hs]
  | encode i sched => simp only [Session.perform, Session.encode, (h.encode i).exec ses sched rng]
  | decode i sched => simp only [Session.perform, Session.decode, (h.decode i).exec ses sched rng]
  | validation => rfl
  | step64 c =>
    unfold Session.perform Session.step64
    dsimp only
    cases c.input with
    | none => simp only [hs]
    | some t =>
      dsimp only
      cases Base64.decode t with
      | none => rfl
      | some b => simp only [hs]

theorem Mech.Sober.consumes {m : Mech} (h : m.Sober) (env : Env) (ses : Session m.S)
    (ops : List Op) : Consumes m env ses ops 0 := by
  intro rng _
  induction ops generalizing ses with
  | nil => rfl
  | cons op ops ih =>
    simp only [Session.performAll, h.perform env ses op rng]
    have := ih (ses.perform m env op).2 
    simp only [Nat.add_zero] at this ⊢
    rw [this]
    exact fun _ h => nomatch h

/-! ## SCRAM -/

/-- A mechanism that draws numbers in the step from a state in `New` and leaves these states then. -/
structure DrawsOnce (m : Mech) (K : Nat → Prop) (New Dead : m.S → Prop) : Prop where
  encode : m.encode = fun _ => M.fail .noSecurityLayer
  decode : m.decode = fun _ => M.fail .noSecurityLayer
  first : ∀ env input s w, New s →
    (DrawsAt (m.step env input) s w 0 ∧ (m.step env input s w).2.2.wr.out = w.wr.out ∧
      Dead (m.step env input s w).2.1) ∨
    ((∃ k, K k ∧ DrawsAt (m.step env input) s w k) ∧ ¬ New (m.step env input s w).2.1)
  later : ∀ env input s w, ¬ New s →
    DrawsAt (m.step env input) s w 0 ∧ ¬ New (m.step env input s w).2.1
  dead : ∀ env input s w, Dead s → ¬ New s ∧ (m.step env input s w).2.2.wr.out = w.wr.out ∧
    Dead (m.step env input s w).2.1

theorem consumes_cons {m : Mech} {env : Env} {ses : Session m.S} {op : Op} {ops : List Op}
    {k l : Nat} (h1 : CallDraws m env ses op k)
    (h2 : Consumes m env (ses.perform m env op).2 ops l) :
    Consumes m env ses (op :: ops) (k + l) := by
  have hr := congrArg (fun x => x.2.rng) (h1 ses.rng fun _ _ => rfl)
  simp only at hr
  intro rng h
  have h3 := h1 rng fun i hi => h i (by omega)
  have h4 := h2 (fun i => rng (i + k)) fun i hi => by
    refine (h (i + k) (by omega)).trans ?_
    exact (congrFun hr i).symm
  have : (fun i => rng (i + l + k)) = fun i => rng (i + (k + l)) := by
    funext i; congr 1; omega
  simp only [Session.performAll, h3, h4, this]

theorem encode_nil : Base64.encode [] = [] := rfl

theorem DrawsAt.exec {S α : Type} {m : M S α} {ses : Session S} {sched : List WResp} {k : Nat}
    (h : DrawsAt m ses.st ⟨⟨[], sched⟩, ses.rng, ses.slot, ses.log⟩ k) (rng : Nat → Nat)
    (hr : ∀ i < k, rng i = ses.rng i) : Session.exec { ses with rng := rng } m sched =
      ((ses.exec m sched).1, { (ses.exec m sched).2 with rng := fun i => rng (i + k) }) := by
  have := h rng hr
  unfold Session.exec
  simp only at this ⊢
  rw [this]

/-- Without a security layer a call either does nothing or steps. -/
theorem perform_cases {m : Mech} (he : m.encode = fun _ => M.fail .noSecurityLayer)
    (hd : m.decode = fun _ => M.fail .noSecurityLayer) (env : Env) (ses : Session m.S) (op : Op) :
    (CallDraws m env ses op 0 ∧ (ses.perform m env op).1.out = [] ∧
      (ses.perform m env op).2.st = ses.st) ∨
    ∃ (c : Call) (f : Reply State → Answer),
      (∀ rng, Session.perform m env { ses with rng := rng } op =
        (f (Session.step m env { ses with rng := rng } c).1,
          (Session.step m env { ses with rng := rng } c).2)) ∧
      ∀ r, r.out = [] → (f r).out = [] := by
  cases op with
  | step c => exact .inr ⟨c, .state, fun _ => rfl, fun _ h => h⟩
  | encode i sched =>
    refine .inl ⟨fun rng _ => ?_, ?_, ?_⟩ <;>
      simp [Session.perform, Session.encode, he, Session.exec, M.fail, Answer.out]
  | decode i sched =>
    refine .inl ⟨fun rng _ => ?_, ?_, ?_⟩ <;>
      simp [Session.perform, Session.decode, hd, Session.exec, M.fail, Answer.out]
  | validation => exact .inl ⟨fun rng _ => rfl, rfl, rfl⟩
  | step64 c =>
    unfold CallDraws Session.perform Session.step64
    dsimp only
    cases hc : c.input with
    | none =>
      refine .inr ⟨c, fun r => .state ⟨r.res, Base64.encode r.out⟩, fun _ => rfl, fun r h => ?_⟩
      simp only [Answer.out, h, encode_nil]
    | some t =>
      dsimp only
      cases Base64.decode t with
      | none => exact .inl ⟨fun rng _ => rfl, rfl, rfl⟩
      | some b =>
        refine .inr ⟨{ c with input := some b }, fun r => .state ⟨r.res, Base64.encode r.out⟩,
          fun _ => rfl, fun r h => ?_⟩
        simp only [Answer.out, h, encode_nil]

namespace DrawsOnce

variable {m : Mech} {K : Nat → Prop} {New Dead : m.S → Prop}

theorem call {env : Env} {ses : Session m.S} {op : Op} {c : Call} {f : Reply State → Answer}
    (hf : ∀ rng, Session.perform m env { ses with rng := rng } op =
        (f (Session.step m env { ses with rng := rng } c).1,
          (Session.step m env { ses with rng := rng } c).2)) {k : Nat}
    (hk : DrawsAt (m.step env c.input) ses.st ⟨⟨[], c.sched⟩, ses.rng, ses.slot, ses.log⟩ k) :
    CallDraws m env ses op k := by
  intro rng h
  have h0 : ses.perform m env op = (f (ses.step m env c).1, (ses.step m env c).2) := hf ses.rng
  have h1 : Session.step m env { ses with rng := rng } c = ((ses.step m env c).1,
      { (ses.step m env c).2 with rng := fun i => rng (i + k) }) := hk.exec rng h
  rw [hf, h0, h1]

theorem perform (h : DrawsOnce m K New Dead) (env : Env) (ses : Session m.S) (op : Op) :
    (New ses.st → (CallDraws m env ses op 0 ∧ (ses.perform m env op).1.out = [] ∧
        (New (ses.perform m env op).2.st ∨ Dead (ses.perform m env op).2.st)) ∨
      ((∃ k, K k ∧ CallDraws m env ses op k) ∧ ¬ New (ses.perform m env op).2.st)) ∧
    (¬ New ses.st → CallDraws m env ses op 0 ∧ ¬ New (ses.perform m env op).2.st) ∧
    (Dead ses.st → (ses.perform m env op).1.out = [] ∧ Dead (ses.perform m env op).2.st) := by
  rcases perform_cases h.encode h.decode env ses op with ⟨h1, h2, h3⟩ | ⟨c, f, hf, ho⟩
  · rw [h3]
    exact ⟨fun hn => .inl ⟨h1, h2, .inl hn⟩, fun hn => ⟨h1, hn⟩, fun hd => ⟨h2, hd⟩⟩
  · have h0 : ses.perform m env op = (f (ses.step m env c).1, (ses.step m env c).2) := hf ses.rng
    have ho' := ho (ses.step m env c).1
    refine ⟨fun hn => ?_, fun hn => ?_, fun hd => ?_⟩
    · rcases h.first env c.input ses.st ⟨⟨[], c.sched⟩, ses.rng, ses.slot, ses.log⟩ hn with
        ⟨i1, i2, i3⟩ | ⟨⟨k, hK, hk⟩, i⟩
      · refine .inl ⟨call hf i1, ?_, ?_⟩
        · rw [h0]; exact ho' i2
        · rw [h0]; exact .inr i3
      · refine .inr ⟨⟨k, hK, call hf hk⟩, ?_⟩
        rw [h0]; exact i
    · obtain ⟨i1, i2⟩ := h.later env c.input ses.st ⟨⟨[], c.sched⟩, ses.rng, ses.slot, ses.log⟩ hn
      exact ⟨call hf i1, by rw [h0]; exact i2⟩
    · obtain ⟨-, i1, i2⟩ :=
        h.dead env c.input ses.st ⟨⟨[], c.sched⟩, ses.rng, ses.slot, ses.log⟩ hd
      rw [h0]
      exact ⟨ho' i1, i2⟩

theorem consumes_later (h : DrawsOnce m K New Dead) (env : Env) (ops : List Op) (ses : Session m.S)
    (hn : ¬ New ses.st) : Consumes m env ses ops 0 := by
  induction ops generalizing ses with
  | nil => exact fun rng _ => rfl
  | cons op ops ih =>
    obtain ⟨i1, i2⟩ := (h.perform env ses op).2.1 hn
    exact consumes_cons i1 (ih _ i2)

theorem mute_dead (h : DrawsOnce m K New Dead) (env : Env) (ops : List Op) (ses : Session m.S)
    (hd : Dead ses.st) : ∀ x ∈ (ses.performAll m env ops).1, x.out = [] := by
  induction ops generalizing ses with
  | nil => nofun
  | cons op ops ih =>
    obtain ⟨i1, i2⟩ := (h.perform env ses op).2.2 hd
    intro x hx
    rcases List.mem_cons.1 hx with rfl | hx
    · exact i1
    · exact ih _ i2 x hx

theorem consumes (h : DrawsOnce m K New Dead) (env : Env) (ops : List Op) (ses : Session m.S)
    (hn : New ses.st) :
    (Consumes m env ses ops 0 ∧ ∀ x ∈ (ses.performAll m env ops).1, x.out = []) ∨
    ∃ k, K k ∧ Consumes m env ses ops k := by
  induction ops generalizing ses with
  | nil => exact .inl ⟨fun rng _ => rfl, nofun⟩
  | cons op ops ih =>
    rcases (h.perform env ses op).1 hn with ⟨i1, i2, i3 | i3⟩ | ⟨⟨k, hK, hk⟩, i⟩
    · rcases ih _ i3 with ⟨j1, j2⟩ | ⟨k, hK, hk⟩
      · refine .inl ⟨consumes_cons i1 j1, fun x hx => ?_⟩
        rcases List.mem_cons.1 hx with rfl | hx
        · exact i2
        · exact j2 x hx
      · refine .inr ⟨k, hK, ?_⟩
        have := consumes_cons i1 hk
        rwa [Nat.zero_add] at this
    · have hnn : ¬ New (ses.perform m env op).2.st := by
        have := h.dead env none (ses.perform m env op).2.st ⟨⟨[], []⟩, id, none, []⟩ i3
        exact this.1
      refine .inl ⟨consumes_cons i1 (h.consumes_later env ops _ hnn), fun x hx => ?_⟩
      rcases List.mem_cons.1 hx with rfl | hx
      · exact i2
      · exact h.mute_dead env ops _ i3 x hx
    · exact .inr ⟨k, hK, consumes_cons hk (h.consumes_later env ops _ i)⟩

end DrawsOnce


/-! ## SCRAM's two sides -/

/-- The client before its first step. -/
def Scram.ClientNew (s : Scram.CS) : Prop := ∃ plus, s = some (.initial plus)

/-- The server before its first step. -/
def Scram.ServerNew (s : Scram.SS) : Prop := ∃ canCb, s = some (.waitingClientFirst canCb)

theorem Scram.client_drawsOnce (d : Digest) :
    DrawsOnce (Scram.client d) (· = 24) ClientNew (· = none) := by
  refine ⟨rfl, rfl, ?_, ?_, ?_⟩
  · rintro env input _ w ⟨plus, rfl⟩
    have h := ((sendClientFirst_draws (env := env) 24 plus).withLocal (S := CS) (t := {})).before
      (f := fun new => do M.set (some new); pure State.running) (by drawless)
    have hl := (clientStep_initial_log d 24 env input plus w).2
    rcases h.run none w with ⟨i1, i2, i3⟩ | ⟨k, hK, hk⟩
    · exact .inl ⟨i1, i2, hl i3⟩
    · refine .inr ⟨⟨k, hK, hk⟩, ?_⟩
      rintro ⟨plus', hp⟩
      replace hp : (clientStep d 24 env input (some (.initial plus)) w).2.1 = some (.initial plus') := hp
      rcases hx : clientStep d 24 env input (some (.initial plus)) w with ⟨o, s', w'⟩
      rw [hx] at hl hp
      dsimp only at hl hp
      subst hp
      cases o with
      | ok st =>
        obtain ⟨-, new, header, cbdata, name, user, nonce, o, sched, es, h1, h2⟩ :=
          clientStep_initial_ok hx
        cases h1
        exact nomatch h2.hnew
      | err e => exact nomatch hl nofun
      | panic => exact nomatch hl nofun
  · intro env input s w hn
    rcases s with _ | ⟨plus⟩ | ⟨cb, nonce, user⟩ | ⟨v, ck, sk, salt, it⟩
    · exact ⟨Drawless.panic.at_ (S := CS) (α := State) none w, hn⟩
    · exact absurd ⟨plus, rfl⟩ hn
    · have h : Drawless (do
          let serverFirst ← M.okOr .inputDataRequired input
          let new ← handleServerFirst d env cb nonce user serverFirst
          M.set (some new)
          pure .running : M CS State) := by
        unfold handleServerFirst clientKeys useCached useSalted usePassword
        drawless
      refine ⟨h.at_ none w, ?_⟩
      rintro ⟨plus', hp⟩
      replace hp : (clientStep d 24 env input (some (.clientFirst cb nonce user)) w).2.1 =
        some (.initial plus') := hp
      rcases hx : clientStep d 24 env input (some (.clientFirst cb nonce user)) w with ⟨o, s', w'⟩
      rw [hx] at hp
      dsimp only at hp
      subst hp
      rcases clientStep_second hx with ⟨-, h, -⟩ | ⟨_, _, _, _, _, _, _, -, -, -, -, ⟨-, h⟩ |
        ⟨-, new, _, _, _, _, _, h1, h2⟩⟩
      · exact nomatch h
      · exact nomatch h
      · cases h1
        exact nomatch h2.hnew
    · have h : Drawless (do
          let serverFinal ← M.okOr .inputDataRequired input
          handleServerFinal env v ck sk salt it serverFinal
          pure (.finished .no) : M CS State) := by
        unfold handleServerFinal
        drawless
      refine ⟨h.at_ none w, ?_⟩
      rintro ⟨plus', hp⟩
      replace hp : (clientStep d 24 env input (some (.serverFirst v ck sk salt it)) w).2.1 =
        some (.initial plus') := hp
      obtain ⟨o, s', w', hx⟩ : ∃ o s' w', clientStep d 24 env input
        (some (.serverFirst v ck sk salt it)) w = (o, s', w') := ⟨_, _, _, rfl⟩
      rw [hx] at hp
      dsimp only at hp
      rw [(clientStep_third hx).1] at hp
      exact nomatch hp
  · rintro env input _ w rfl
    exact ⟨fun ⟨_, h⟩ => (nomatch h), rfl, rfl⟩

theorem Scram.server_drawsOnce (d : Digest) :
    DrawsOnce (Scram.server d) (fun k => k = 24 ∨ k = 56) ServerNew
      (fun s => s = none ∨ s = some .finished) := by
  refine ⟨rfl, rfl, ?_, ?_, ?_⟩
  · rintro env input _ w ⟨canCb, rfl⟩
    have h : DrawsFirst (fun k => k = 24 ∨ k = 24 + 32) (do
        let input ← M.okOr .inputDataRequired input
        let msg ← M.liftOutcome (ClientFirst.parse input)
        let new ← M.withLocal msg.gs2Header (handleClientFirst d 24 env canCb msg)
        M.set (some new)
        pure .running : M SS State) :=
      .after (.okOr _ _) (.okOr _ _) fun _ => .after (.liftOutcome _) (.liftOutcome _) fun msg =>
        ((handleClientFirst_draws (env := env) d 24 canCb msg).withLocal).before (by drawless)
    have hl := (serverStep_first_log d 24 env input canCb w).2
    rcases h.run none w with ⟨i1, i2, i3⟩ | ⟨k, hK, hk⟩
    · exact .inl ⟨i1, i2, .inl (hl i3)⟩
    · refine .inr ⟨⟨k, hK, hk⟩, ?_⟩
      rintro ⟨canCb', hp⟩
      replace hp : (serverStep d 24 env input (some (.waitingClientFirst canCb)) w).2.1 =
        some (.waitingClientFirst canCb') := hp
      rcases hx : serverStep d 24 env input (some (.waitingClientFirst canCb)) w with ⟨o, s', w'⟩
      rw [hx] at hl hp
      dsimp only at hl hp
      subst hp
      cases o with
      | ok st =>
        obtain ⟨-, new, _, _, _, _, _, _, _, _, _, h1, h2⟩ := serverStep_first_ok hx
        cases h1
        rcases h2.hknown with ⟨h, -⟩ | ⟨_, -, -, -, -, -, -, -, h⟩ <;> exact nomatch h
      | err e => exact nomatch hl nofun
      | panic => exact nomatch hl nofun
  · intro env input s w hn
    rcases s with _ | ⟨canCb⟩ | ⟨data⟩ | _
    · exact ⟨Drawless.panic.at_ (S := SS) (α := State) none w, hn⟩
    · exact absurd ⟨canCb, rfl⟩ hn
    · have h : Drawless (do
          let input ← M.okOr .inputDataRequired input
          handleClientFinal d env data input
          M.set (some .finished)
          pure (.finished .yes) : M SS State) := by
        unfold handleClientFinal
        drawless
      refine ⟨h.at_ none w, ?_⟩
      rintro ⟨canCb', hp⟩
      obtain ⟨o, s', w', hx⟩ : ∃ o s' w', serverStep d 24 env input
        (some (.waitingClientFinal data)) w = (o, s', w') := ⟨_, _, _, rfl⟩
      replace hp : (serverStep d 24 env input (some (.waitingClientFinal data)) w).2.1 =
        some (.waitingClientFirst canCb') := hp
      rw [hx] at hp
      dsimp only at hp
      subst hp
      rcases serverStep_second hx with ⟨-, h, -⟩ | ⟨_, _, _, _, _, -, -, -, -, h, -⟩ |
        ⟨_, _, _, _, _, _, _, -, -, -, h1, h2, -⟩
      · exact nomatch h
      · exact nomatch h
      · cases o with
        | ok st => exact nomatch (h1 st rfl).2
        | err e => exact nomatch h2 nofun
        | panic => exact nomatch h2 nofun
    · exact ⟨(Drawless.fail (α := State) .mechanismDone).at_ (none : SS) w, fun ⟨_, h⟩ => nomatch h⟩
  · rintro env input _ w (rfl | rfl)
    · exact ⟨fun ⟨_, h⟩ => (nomatch h), rfl, .inl rfl⟩
    · exact ⟨fun ⟨_, h⟩ => (nomatch h), rfl, .inl rfl⟩

/-! ## The other mechanisms -/

theorem sober {deps : Deps} {a : Auth} {st : Started}
    (h : a.startClient deps = some st ∨ a.startServer deps = some st) (hs : a.isScram = false) :
    st.mech.Sober := by
  rcases h with h | h <;> cases a <;> cases h <;> try cases hs
  · exact ⟨fun _ => Plain.client_drawless, fun _ => .fail _, fun _ => .fail _⟩
  · exact ⟨fun _ => Login.client_drawless, fun _ => .fail _, fun _ => .fail _⟩
  · exact ⟨fun _ => External.client_drawless, fun _ => .fail _, fun _ => .fail _⟩
  · exact ⟨fun _ => Anonymous.client_drawless, fun _ => .fail _, fun _ => .fail _⟩
  · exact ⟨fun _ => XOAuth2.client_drawless, fun _ => .fail _, fun _ => .fail _⟩
  · exact ⟨fun _ => OAuthBearer.client_drawless _, fun _ => .fail _, fun _ => .fail _⟩
  · exact ⟨fun _ => Gssapi.client_drawless _, Gssapi.clientEncode_drawless _,
      Gssapi.clientDecode_drawless _⟩
  · exact ⟨fun _ => Plain.server_drawless _, fun _ => .fail _, fun _ => .fail _⟩
  · exact ⟨fun _ => Login.server_drawless, fun _ => .fail _, fun _ => .fail _⟩
  · exact ⟨fun _ => External.server_drawless, fun _ => .fail _, fun _ => .fail _⟩
  · exact ⟨fun _ => Anonymous.server_drawless, fun _ => .fail _, fun _ => .fail _⟩
  · exact ⟨fun _ => XOAuth2.server_drawless, fun _ => .fail _, fun _ => .fail _⟩
  · exact ⟨fun _ => OAuthBearer.server_drawless _, fun _ => .fail _, fun _ => .fail _⟩
  · exact ⟨fun _ => Gssapi.server_drawless _, Gssapi.serverEncode_drawless _,
      Gssapi.serverDecode_drawless _⟩

/-! ## C90 -/

/-- All calls of a session together draw as many numbers as its mechanism needs, once, and their
results depend on no others. A SCRAM session that has not drawn a nonce has written nothing. -/
theorem C90_draws {deps : Deps} {st : Started} {l : List Nat} (h : MayDraw deps st l) (env : Env)
    (rng : Nat → Nat) (ops : List Op) :
    ∃ k ∈ l, Consumes st.mech env (st.session rng) ops k ∧
      (24 ∈ l → k = 0 → ∀ x ∈ ((st.session rng).performAll st.mech env ops).1, x.out = []) := by
  obtain ⟨a, h⟩ := h
  cases hs : a.isScram with
  | false =>
    have hl : l = [0] := by
      rcases h with ⟨-, rfl⟩ | ⟨-, rfl⟩
      · simp [clientDraws, hs]
      · simp [serverDraws, hs]
    subst hl
    exact ⟨0, by simp, (sober (h.imp (·.1) (·.1)) hs).consumes env _ ops, fun h => absurd h (by decide)⟩
  | true =>
    rcases h with ⟨h, rfl⟩ | ⟨h, rfl⟩
    · have key : ∃ d, ∃ s, ClientNew s ∧ st = ⟨Scram.client d, s⟩ := by
        cases a <;> cases hs <;> cases h
        · next b => exact ⟨_, _, ⟨_, rfl⟩, rfl⟩
        · exact ⟨_, _, ⟨_, rfl⟩, rfl⟩
      obtain ⟨d, s, hn, rfl⟩ := key
      simp only [clientDraws, hs, if_true]
      rcases (Scram.client_drawsOnce d).consumes env ops (Started.session ⟨Scram.client d, s⟩ rng) hn with ⟨h1, h2⟩ | ⟨k, rfl, hk⟩
      · exact ⟨0, by simp, h1, fun _ _ => h2⟩
      · exact ⟨24, by simp, hk, fun _ h => nomatch h⟩
    · have key : ∃ d, ∃ s, ServerNew s ∧ st = ⟨Scram.server d, s⟩ := by
        cases a <;> cases hs <;> cases h
        · next b => exact ⟨_, _, ⟨_, rfl⟩, rfl⟩
        · exact ⟨_, _, ⟨_, rfl⟩, rfl⟩
      obtain ⟨d, s, hn, rfl⟩ := key
      simp only [serverDraws, hs, if_true]
      rcases (Scram.server_drawsOnce d).consumes env ops (Started.session ⟨Scram.server d, s⟩ rng) hn with ⟨h1, h2⟩ | ⟨k, rfl | rfl, hk⟩
      · exact ⟨0, by simp, h1, fun _ _ => h2⟩
      · exact ⟨24, by simp, hk, fun _ h => nomatch h⟩
      · exact ⟨56, by simp, hk, fun _ h => nomatch h⟩

/-- The character for a drawn number: each of the 88 is there for one residue. -/
theorem C90_chars_partial (b : UInt8) :
    Printable b ∧ b.toNat ≤ 0x79 ↔ ∃ i < 88, nonceChar i = b ∧ ∀ j, nonceChar j = b ↔ j % 88 = i := by
  have len : printable.length = 88 := by decide
  have hin : ∀ i < 88, ∀ j < 88, nonceChar i = nonceChar j → i = j := by decide +kernel
  have hmod : ∀ j, nonceChar j = nonceChar (j % 88) := by
    intro j
    unfold nonceChar
    simp only [len, Nat.mod_mod]
  have hall : ∀ n < 256, Printable (UInt8.ofNat n) ∧ (UInt8.ofNat n).toNat ≤ 0x79 →
      ∃ i < 88, nonceChar i = UInt8.ofNat n := by
    unfold Printable
    decide +kernel
  have hback : ∀ i < 88, Printable (nonceChar i) ∧ (nonceChar i).toNat ≤ 0x79 := by
    unfold Printable
    decide +kernel
  constructor
  · intro h
    have hb : UInt8.ofNat b.toNat = b := UInt8.ofNat_toNat
    obtain ⟨i, hi, he⟩ := hall b.toNat b.toNat_lt (by rw [hb]; exact h)
    rw [hb] at he
    refine ⟨i, hi, he, fun j => ⟨fun hj => ?_, fun hj => ?_⟩⟩
    · rw [hmod, ← he] at hj
      exact hin _ (Nat.mod_lt _ (by decide)) _ hi hj
    · rw [hmod, hj, he]
  · rintro ⟨i, hi, rfl, -⟩
    exact hback i hi

/-- Full: a nonce can have every character RFC 5802 allows. The list in the code ends with `y`. -/
def C90_chars : Prop := ∀ b, Printable b → ∃ i, nonceChar i = b

theorem C90_chars_false : ¬ C90_chars := by
  intro h
  obtain ⟨i, hi⟩ := h 122 ⟨by decide, by decide, by decide⟩
  have hm : nonceChar i ∈ printable := nonceChar_mem i
  rw [hi] at hm
  exact absurd hm (by decide)

/-- Two nonces are the same only if all numbers they were made of are, up to multiples of 88. -/
theorem C90_differ (rng rng' : Nat → Nat) :
    drawnNonce rng = drawnNonce rng' ↔ ∀ i < 24, rng i % 88 = rng' i % 88 := by
  have hc : ∀ i j, nonceChar i = nonceChar j ↔ i % 88 = j % 88 := by
    intro i j
    have hb : Printable (nonceChar j) ∧ (nonceChar j).toNat ≤ 0x79 := by
      have h : ∀ b ∈ printable, Printable b ∧ b.toNat ≤ 0x79 := by
        unfold Printable
        decide +kernel
      exact h _ (nonceChar_mem j)
    obtain ⟨k, -, -, h⟩ := (C90_chars_partial (nonceChar j)).1 hb
    rw [h i, (h j).1 rfl]
  unfold drawnNonce
  rw [List.map_inj_left]
  simp only [List.mem_range, hc]

/-- Two sessions drawing from one generator, called in any order: the numbers are split between
them, each gets as many as its mechanism needs, and does with them what it would do alone. -/
theorem C90_apart {deps₁ deps₂ : Deps} {st₁ st₂ : Started} {l₁ l₂ : List Nat}
    (h1 : MayDraw deps₁ st₁ l₁) (h2 : MayDraw deps₂ st₂ l₂) (e₁ e₂ : Env) (rng : Nat → Nat)
    (ops : List (Op ⊕ Op)) :
    let p : Pair st₁.mech.S st₂.mech.S := ⟨st₁.session rng, st₂.session rng, rng⟩
    ∃ n das dbs, Interleaves das dbs ((List.range n).map rng) ∧
      das.length ∈ l₁ ∧ dbs.length ∈ l₂ ∧
      (∀ rng', StartsWith rng' das →
        (Session.performAll st₁.mech e₁ (st₁.session rng') (lefts ops)).1 =
          lefts (p.performAll st₁.mech st₂.mech e₁ e₂ ops).1) ∧
      (∀ rng', StartsWith rng' dbs →
        (Session.performAll st₂.mech e₂ (st₂.session rng') (rights ops)).1 =
          rights (p.performAll st₁.mech st₂.mech e₁ e₂ ops).1) := by
  intro p
  have builtin : ∀ {deps : Deps} {st : Started} {l : List Nat}, MayDraw deps st l →
      BuiltinServer deps st ∨ BuiltinClient deps st := by
    rintro deps st l ⟨a, ⟨h, -⟩ | ⟨h, -⟩⟩
    · exact .inr ⟨a, h⟩
    · exact .inl ⟨a, h⟩
  obtain ⟨n, das, dbs, h3, h4, h5⟩ := C47_interleaving (builtin h1) (builtin h2) e₁ e₂ p ops
  have key : ∀ {deps : Deps} {st : Started} {l : List Nat} (h : MayDraw deps st l) (env : Env)
      (ops : List Op) (ds : List Nat) (as : List Answer) (ses : Session st.mech.S),
      (∀ rng', StartsWith rng' ds → Session.performAll st.mech env (st.session rng') ops =
        (as, { ses with rng := fun i => rng' (i + ds.length) })) → ds.length ∈ l := by
    intro deps st l h env ops ds as ses hr
    let rng' : Nat → Nat := fun i => if hi : i < ds.length then ds[i] else i
    have hs : StartsWith rng' ds := fun i hi => by simp [rng', hi]
    obtain ⟨k, hk, hc, -⟩ := C90_draws h env rng' ops
    have e1 := hc rng' fun _ _ => rfl
    have e2 := hr rng' hs
    have e3 : Session.performAll st.mech env { st.session rng' with rng := rng' } ops =
      Session.performAll st.mech env (st.session rng') ops := rfl
    rw [e3, e2] at e1
    have e4 := congrFun (congrArg (fun x => x.2.rng) e1) (ds.length + k)
    simp only at e4
    have e5 : k = ds.length := by
      rw [show rng' (ds.length + k + ds.length) = ds.length + k + ds.length from by
        simp only [rng']; rw [dif_neg (by omega)],
        show rng' (ds.length + k + k) = ds.length + k + k from by
        simp only [rng']; rw [dif_neg (by omega)]] at e4
      omega
    rwa [e5] at hk
  exact ⟨n, das, dbs, h3, key h1 e₁ _ _ _ _ h4, key h2 e₂ _ _ _ _ h5,
    fun rng' h => by rw [show st₁.session rng' = { p.a with rng := rng' } from rfl, h4 rng' h],
    fun rng' h => by rw [show st₂.session rng' = { p.b with rng := rng' } from rfl, h5 rng' h]⟩

/-! A client and a server of SCRAM: the client draws 24, the server, who doesn't know the user, 56. -/

example : MayDraw toyDeps ⟨Scram.client toyDigest, Scram.clientNew true⟩ [0, 24] :=
  ⟨.scramClient .sha1 true, .inl ⟨rfl, rfl⟩⟩

example : MayDraw toyDeps ⟨Scram.server toyDigest, Scram.serverNew true⟩ [0, 24, 56] :=
  ⟨.scramServer .sha1 true, .inr ⟨rfl, rfl⟩⟩

example : (Session.performAll (Scram.server toyDigest) (exampleEnv [])
    { st := Scram.serverNew true, rng := fun i => i }
    [.validation, .step ⟨some (b!"n,,n=ann,r=abc"), []⟩]).2.rng 0 = 56 := by decide +kernel

example : drawnNonce (fun _ => 0) ≠ drawnNonce (fun i => i) := fun h =>
  absurd ((C90_differ _ _).1 h 1 (by decide)) (by decide)

end Rsasl

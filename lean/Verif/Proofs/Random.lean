/-
How many random numbers code draws.
-/
import Verif.Proofs.Draws
import Verif.Props.Message

namespace Rsasl

variable {S T α β G : Type}

/-- The code draws nothing and does not depend on what there is to draw. -/
structure Drawless (m : M S α) : Prop where
  run : ∀ s w rng, m s { w with rng := rng } =
    ((m s w).1, (m s w).2.1, { (m s w).2.2 with rng := rng })

namespace Drawless

variable {env : Env}

theorem at_ {m : M S α} (h : Drawless m) (s : S) (w : World) : DrawsAt m s w 0 :=
  fun rng _ => h.run s w rng

theorem pure (a : α) : Drawless (Pure.pure a : M S α) := ⟨fun _ _ _ => rfl⟩
theorem fail (e : SessionError) : Drawless (M.fail e : M S α) := ⟨fun _ _ _ => rfl⟩
theorem panic : Drawless (M.panic : M S α) := ⟨fun _ _ _ => rfl⟩
theorem get : Drawless (M.get : M S S) := ⟨fun _ _ _ => rfl⟩
theorem set (s : S) : Drawless (M.set s) := ⟨fun _ _ _ => rfl⟩
theorem modify (f : S → S) : Drawless (M.modify f) := ⟨fun _ _ _ => rfl⟩
theorem history : Drawless (M.history : M S (List Event)) := ⟨fun _ _ _ => rfl⟩
theorem note (e : Event) : Drawless (M.note e : M S Unit) := ⟨fun _ _ _ => rfl⟩

theorem okOr (e : SessionError) (o : Option α) : Drawless (M.okOr e o : M S α) := by
  cases o with
  | none => exact fail e
  | some a => exact Drawless.pure a

theorem lift (r : Except SessionError α) : Drawless (M.lift r : M S α) := by
  cases r with
  | error e => exact fail e
  | ok a => exact Drawless.pure a

theorem liftOutcome (o : Outcome α) : Drawless (M.liftOutcome o : M S α) := by
  cases o with
  | ok a => exact Drawless.pure a
  | err e => exact fail e
  | panic => exact panic

theorem liftGss (r : Except Nat α) : Drawless (Gssapi.liftGss r : M S α) := by
  cases r with
  | error e => exact fail _
  | ok a => exact Drawless.pure a

theorem writeAll (b : Bytes) : Drawless (M.writeAll b : M S Unit) := by
  refine ⟨fun s w rng => ?_⟩
  unfold M.writeAll
  dsimp only
  split <;> rfl

theorem writeVectored (bs : List Bytes) : Drawless (M.writeVectored bs : M S Unit) := by
  refine ⟨fun s w rng => ?_⟩
  unfold M.writeVectored
  dsimp only
  split <;> rfl

theorem bind {m : M S α} {f : α → M S β} (h1 : Drawless m) (h2 : ∀ a, Drawless (f a)) :
    Drawless (m >>= f) := by
  refine ⟨fun s w rng => ?_⟩
  have h := h1.run s w rng
  rcases hm : m s w with ⟨o, s1, w1⟩
  rw [hm] at h
  cases o with
  | ok a => rw [M.bind_ok hm, M.bind_ok h]; exact (h2 a).run s1 w1 rng
  | err e => rw [M.bind_err hm, M.bind_err h]
  | panic => rw [M.bind_panic hm, M.bind_panic h]

theorem attempt {m : M S α} (h : Drawless m) : Drawless (M.attempt m) := by
  refine ⟨fun s w rng => ?_⟩
  unfold M.attempt
  rw [h.run s w rng]
  rcases m s w with ⟨o, s', w'⟩
  cases o <;> rfl

theorem withLocal {t : T} {m : M (S × T) α} (h : Drawless m) : Drawless (M.withLocal t m) := by
  refine ⟨fun s w rng => ?_⟩
  unfold M.withLocal
  rw [h.run (s, t) w rng]

theorem writeJson (bs : List Bytes) : Drawless (OAuthBearer.writeJson bs : M S Unit) := by
  induction bs with
  | nil => exact Drawless.pure _
  | cons b bs ih =>
    unfold OAuthBearer.writeJson
    refine bind (attempt (writeAll b)) fun r => ?_
    split
    · exact ih
    · exact fail _

theorem satisfy {p : Property} {f : p.Value → M S G} (hf : ∀ v, Drawless (f v)) (v : p.Value)
    (cr : CR G) : Drawless (cr.satisfy p f v) := by
  cases cr with
  | «open» =>
    refine bind (note _) fun _ => bind (attempt (hf v)) fun r => ?_
    split
    · exact Drawless.pure _
    · exact Drawless.pure _
  | satisfied g => exact Drawless.pure _
  | gone => exact Drawless.pure _

theorem runSat {p : Property} {f : p.Value → M S G} (hf : ∀ v, Drawless (f v)) (prog : CbProg)
    (cr : CR G) : Drawless (Rsasl.runSat p f prog cr) := by
  induction prog generalizing cr with
  | ret r => exact Drawless.pure _
  | satisfy q v k ih =>
    unfold Rsasl.runSat
    split
    · exact bind (satisfy hf _ _) fun _ => ih _ _
    · exact ih _ _
  | satisfyWith q v k ih =>
    unfold Rsasl.runSat
    split
    · refine bind (note _) fun _ => ?_
      split
      · exact ih _ _
      · exact bind (satisfy hf _ _) fun _ => ih _ _
    · exact ih _ _
  | getAction q k ih => exact ih _ _
  | is q k ih => exact ih _ _

theorem ask {p : Property} {ctx : Provider} {f : p.Value → M S G} (hf : ∀ v, Drawless (f v)) :
    Drawless (maybeNeedWith env p ctx f) :=
  bind history fun _ => bind (note _) fun _ => bind (runSat hf _ _) fun _ =>
    bind (lift _) fun _ => Drawless.pure _

theorem needWith {p : Property} {ctx : Provider} {f : p.Value → M S G}
    (hf : ∀ v, Drawless (f v)) : Drawless (needWith env p ctx f) :=
  bind (ask hf) fun _ => okOr _ _

theorem maybeNeedCbData {n : Str} {ctx : Provider} {f : Bytes → M S G}
    (hf : ∀ v, Drawless (f v)) : Drawless (maybeNeedCbData env n ctx f) := by
  unfold Rsasl.maybeNeedCbData
  dsimp only
  split
  · exact bind (hf _) fun _ => Drawless.pure _
  · exact ask hf

theorem needCbData {n : Str} {ctx : Provider} {f : Bytes → M S G} (hf : ∀ v, Drawless (f v)) :
    Drawless (needCbData env n ctx f) := bind (maybeNeedCbData hf) fun _ => okOr _ _

theorem runAct {p : Property} (prog : CbProg) (cur : Option p.Value) :
    Drawless (Rsasl.runAct p prog cur : M S _) := by
  induction prog generalizing cur with
  | ret r => exact Drawless.pure _
  | satisfy q v k ih => exact ih _ cur
  | satisfyWith q v k ih => exact ih _ cur
  | is q k ih => exact ih _ cur
  | getAction q k ih =>
    unfold Rsasl.runAct
    split
    · split
      · exact bind (note _) fun _ => ih _ _
      · exact ih _ _
    · exact ih _ cur

theorem action {p : Property} {ctx : Provider} {v : p.Value} :
    Drawless (action env p ctx v : M S Unit) := by
  refine bind history fun _ => bind (note _) fun _ => bind (runAct _ _) fun _ =>
    bind (lift _) fun _ => ?_
  split
  · exact fail _
  · exact Drawless.pure _

theorem runVal (vtag : Nat) (prog : ValProg) : Drawless (Rsasl.runVal vtag prog : M S _) := by
  refine ⟨?_⟩
  induction prog with
  | ret r => exact fun _ _ _ => rfl
  | finalize t v k ih =>
    intro s w rng
    unfold Rsasl.runVal
    dsimp only
    split
    · exact ih s { w with slot := some v } rng
    · exact ih s w rng
  | «with» t f k ih =>
    intro s w rng
    unfold Rsasl.runVal
    dsimp only
    split
    · cases f with
      | error e => exact ih _ s { w with log := w.log ++ [.vEvaluated t] } rng
      | ok v => exact ih _ s { w with log := w.log ++ [.vEvaluated t], slot := some v } rng
    · exact ih _ s w rng
  | is t k ih => exact ih _

theorem validate {ctx : Provider} : Drawless (validate env ctx : M S Unit) := by
  refine bind history fun _ => bind (note _) fun _ => bind (runVal _ _) fun r => ?_
  split
  · exact Drawless.pure _
  · exact fail _

end Drawless

/-- Decompose code that draws nothing. -/
macro "drawless" : tactic => `(tactic|
  repeat (first
    | assumption
    | exact Drawless.pure _ | exact Drawless.fail _ | exact Drawless.panic | exact Drawless.get
    | exact Drawless.set _ | exact Drawless.modify _ | exact Drawless.writeAll _
    | exact Drawless.writeVectored _ | exact Drawless.writeJson _ | exact Drawless.okOr _ _
    | exact Drawless.lift _ | exact Drawless.liftOutcome _ | exact Drawless.liftGss _
    | exact Drawless.action | exact Drawless.validate
    | refine Drawless.needWith ?_ | refine Drawless.ask ?_ | refine Drawless.needCbData ?_
    | refine Drawless.maybeNeedCbData ?_ | refine Drawless.attempt ?_
    | apply Drawless.withLocal | apply Drawless.bind | intro _ | split | dsimp only))

/-! ## A number of draws -/

theorem DrawsAt.bind {m : M S α} {f : α → M S β} {s s' : S} {w w' : World} {a : α} {k l : Nat}
    (hk : DrawsAt m s w k) (hx : m s w = (.ok a, s', w')) (hl : DrawsAt (f a) s' w' l) :
    DrawsAt (m >>= f) s w (k + l) := by
  have hr := hk.rng
  unfold DrawsAt at hk
  rw [hx] at hk hr
  simp only at hk hr
  intro rng h
  rw [M.bind_ok (hk rng fun i hi => h i (by omega)), M.bind_ok hx]
  refine (hl (fun i => rng (i + k)) fun i hi => ?_).trans ?_
  · rw [hr]; exact h (i + k) (by omega)
  · have : (fun i => rng (i + l + k)) = fun i => rng (i + (k + l)) := by
      funext i; congr 1; omega
    simp only [this]

theorem DrawsAt.bindFail {m : M S α} {f : α → M S β} {s : S} {w : World} {k : Nat}
    (hk : DrawsAt m s w k) (hx : ∀ a, (m s w).1 ≠ .ok a) : DrawsAt (m >>= f) s w k := by
  intro rng h
  have := hk rng h
  rcases hm : m s w with ⟨o, s1, w1⟩
  rw [hm] at this hx
  cases o with
  | ok a => exact absurd rfl (hx a)
  | err e => rw [M.bind_err hm, M.bind_err this]
  | panic => rw [M.bind_panic hm, M.bind_panic this]

theorem drawsAt_draw (n : Nat) (s : S) (w : World) :
    DrawsAt (M.draw n : M S (List Nat)) s w n := by
  intro rng h
  unfold M.draw
  have : (List.range n).map rng = (List.range n).map w.rng :=
    List.map_congr_left fun i hi => h i (List.mem_range.1 hi)
  simp only [this]

/-- The code draws as many numbers as `K` allows. -/
structure DrawsIn (K : Nat → Prop) (m : M S α) : Prop where
  run : ∀ s w, ∃ k, K k ∧ DrawsAt m s w k

theorem DrawsIn.drawless {K : Nat → Prop} {m : M S α} (h0 : K 0) (h : Drawless m) : DrawsIn K m :=
  ⟨fun s w => ⟨0, h0, h.at_ s w⟩⟩

theorem DrawsIn.draw {K : Nat → Prop} {n : Nat} {f : List Nat → M S β}
    (h : ∀ l, DrawsIn (fun k => K (n + k)) (f l)) : DrawsIn K (M.draw n >>= f) := by
  refine ⟨fun s w => ?_⟩
  obtain ⟨k, hK, hk⟩ := (h ((List.range n).map w.rng)).run s { w with rng := fun i => w.rng (i + n) }
  exact ⟨n + k, hK, (drawsAt_draw n s w).bind rfl hk⟩

/-- The code draws as many numbers as `K` allows, or it fails before it draws or writes anything. -/
structure DrawsFirst (K : Nat → Prop) (m : M S α) : Prop where
  run : ∀ s w, (DrawsAt m s w 0 ∧ (m s w).2.2.wr.out = w.wr.out ∧ ∀ a, (m s w).1 ≠ .ok a) ∨
    ∃ k, K k ∧ DrawsAt m s w k

namespace DrawsFirst

variable {K : Nat → Prop}

theorem fail (e : SessionError) : DrawsFirst K (M.fail e : M S α) :=
  ⟨fun s w => .inl ⟨(Drawless.fail e).at_ s w, rfl, nofun⟩⟩

theorem panic : DrawsFirst K (M.panic : M S α) :=
  ⟨fun s w => .inl ⟨Drawless.panic.at_ s w, rfl, nofun⟩⟩

theorem after {m : M S α} {f : α → M S β} (h1 : Drawless m) (h2 : Still m)
    (h3 : ∀ a, DrawsFirst K (f a)) : DrawsFirst K (m >>= f) := by
  refine ⟨fun s w => ?_⟩
  have h := h1.at_ s w
  have hw := h2.wr s w
  rcases hm : m s w with ⟨o, s1, w1⟩
  rw [hm] at hw
  cases o with
  | ok a =>
    rcases (h3 a).run s1 w1 with ⟨i1, i2, i3⟩ | ⟨k, hK, hk⟩
    · refine .inl ⟨h.bind hm i1, ?_, ?_⟩
      · rw [M.bind_ok hm, i2, hw]
      · rw [M.bind_ok hm]; exact i3
    · refine .inr ⟨k, hK, ?_⟩
      have := h.bind hm hk
      rwa [Nat.zero_add] at this
  | err e =>
    refine .inl ⟨h.bindFail (by rw [hm]; nofun), ?_, ?_⟩
    · rw [M.bind_err hm]; exact congrArg _ hw
    · rw [M.bind_err hm]; nofun
  | panic =>
    refine .inl ⟨h.bindFail (by rw [hm]; nofun), ?_, ?_⟩
    · rw [M.bind_panic hm]; exact congrArg _ hw
    · rw [M.bind_panic hm]; nofun

theorem here {m : M S α} (h : DrawsIn K m) : DrawsFirst K m := ⟨fun s w => .inr (h.run s w)⟩

theorem withLocal {t : T} {m : M (S × T) α} (h : DrawsFirst K m) : DrawsFirst K (M.withLocal t m) := by
  have key : ∀ {s w k}, DrawsAt m (s, t) w k → DrawsAt (M.withLocal t m) s w k := by
    intro s w k hk rng hr
    unfold M.withLocal
    rw [hk rng hr]
  refine ⟨fun s w => ?_⟩
  rcases h.run (s, t) w with ⟨i1, i2, i3⟩ | ⟨k, hK, hk⟩
  · exact .inl ⟨key i1, i2, i3⟩
  · exact .inr ⟨k, hK, key hk⟩

/-- What follows draws nothing. -/
theorem before {m : M S α} {f : α → M S β} (h1 : DrawsFirst K m) (h2 : ∀ a, Drawless (f a)) :
    DrawsFirst K (m >>= f) := by
  refine ⟨fun s w => ?_⟩
  rcases h1.run s w with ⟨i1, i2, i3⟩ | ⟨k, hK, hk⟩
  · refine .inl ⟨i1.bindFail i3, ?_⟩
    rcases hm : m s w with ⟨o, s1, w1⟩
    rw [hm] at i2 i3
    cases o with
    | ok a => exact absurd rfl (i3 a)
    | err e => rw [M.bind_err hm]; exact ⟨i2, nofun⟩
    | panic => rw [M.bind_panic hm]; exact ⟨i2, nofun⟩
  · refine .inr ⟨k, hK, ?_⟩
    rcases hm : m s w with ⟨o, s1, w1⟩
    cases o with
    | ok a => exact hk.bind hm ((h2 a).at_ s1 w1)
    | err e => exact hk.bindFail (by rw [hm]; nofun)
    | panic => exact hk.bindFail (by rw [hm]; nofun)

end DrawsFirst

/-! ## The mechanisms -/

section

variable {env : Env}

theorem Scram.sendClientFirst_draws (n : Nat) (plus : CbSupport) :
    DrawsFirst (· = n) (sendClientFirst n env plus) := by
  have h1 : Drawless (clientCb env plus) := by
    unfold clientCb pushHeader setCbdata
    drawless
  have h1' : Still (clientCb env plus) := by
    unfold clientCb pushHeader setCbdata
    still
  have h2 : ∀ v, Drawless (clientAuthzid v) := by
    unfold clientAuthzid pushHeader escapeM; drawless
  have h2' : ∀ v, Still (clientAuthzid v) := by
    unfold clientAuthzid pushHeader escapeM; still
  have h3 : ∀ b, Drawless (pushHeader b) := by unfold pushHeader; drawless
  have h3' : ∀ b, Still (pushHeader b) := by unfold pushHeader; still
  have h4 : ∀ v, Drawless (escapeM v : M (CS × Gs2) Str) := by unfold escapeM; drawless
  have h4' : ∀ v, Still (escapeM v : M (CS × Gs2) Str) := by unfold escapeM; still
  unfold sendClientFirst
  refine .after h1 h1' fun _ => .after (h3 _) (h3' _) fun _ =>
    .after (.ask h2) (.ask h2') fun _ => .after (h3 _) (h3' _) fun _ =>
    .after (.needWith h4) (.needWith h4') fun _ => .here ?_
  have : ∀ {β : Type} (f : Bytes → M (CS × Gs2) β), (generateNonce n >>= f) =
      M.draw n >>= fun l => f (l.map nonceChar) := fun f => rfl
  rw [this]
  exact .draw fun l => .drawless rfl (by drawless)

theorem Scram.handleClientFirst_draws (d : Digest) (n : Nat) (canCb : Bool) (msg : ClientFirst) :
    DrawsFirst (fun k => k = n ∨ k = n + 32) (handleClientFirst d n env canCb msg) := by
  have h1 : ∀ p f, Drawless (serverCb env canCb p f) := by
    intro p f
    unfold serverCb; drawless
  have h1' : ∀ p f, Still (serverCb env canCb p f) := by
    intro p f
    unfold serverCb; still
  have h2 : ∀ v, Drawless (useStored d v : M Hdr Params) := by unfold useStored; drawless
  have h2' : ∀ v, Still (useStored d v : M Hdr Params) := by unfold useStored; still
  unfold handleClientFirst
  dsimp only
  refine .after (h1 _ _) (h1' _ _) fun _ => .after (.ask h2) (.ask h2') fun params => .here ?_
  have : ∀ {β : Type} (f : Bytes → M Hdr β), (generateNonce n >>= f) =
      M.draw n >>= fun l => f (l.map nonceChar) := fun f => rfl
  rw [this]
  refine .draw fun l => ?_
  cases params with
  | some p => exact .drawless (.inl rfl) (by drawless)
  | none => exact .draw fun l' => .drawless (.inr rfl) (by drawless)

theorem Plain.client_drawless (input : Option Bytes) : Drawless (Plain.clientStep env input) := by
  have h1 : ∀ v, Drawless (Plain.clientAuthzid v) := by unfold Plain.clientAuthzid; drawless
  have h2 : ∀ v, Drawless (Plain.clientAuthid v) := by unfold Plain.clientAuthid; drawless
  have h3 : ∀ v, Drawless (Plain.clientPassword v) := by unfold Plain.clientPassword; drawless
  have h1 := Drawless.ask (env := env) (p := .authzId) (ctx := .empty) h1
  have h2 := Drawless.needWith (env := env) (p := .authId) (ctx := .empty) h2
  have h3 := Drawless.needWith (env := env) (p := .password) (ctx := .empty) h3
  unfold Plain.clientStep; drawless

theorem Plain.server_drawless (prep : Str → Option Str) (input : Option Bytes) :
    Drawless (Plain.serverStep prep env input) := by
  unfold Plain.serverStep; drawless

theorem Login.client_drawless (input : Option Bytes) :
    Drawless (Login.clientStep env input) := by
  unfold Login.clientStep; drawless

theorem Login.server_drawless (input : Option Bytes) :
    Drawless (Login.serverStep env input) := by
  unfold Login.serverStep; drawless

theorem External.client_drawless (input : Option Bytes) :
    Drawless (External.clientStep env input) := by
  unfold External.clientStep; drawless

theorem External.server_drawless (input : Option Bytes) :
    Drawless (External.serverStep env input) := by
  unfold External.serverStep; drawless

theorem Anonymous.client_drawless (input : Option Bytes) :
    Drawless (Anonymous.clientStep env input) := by
  unfold Anonymous.clientStep; drawless

theorem Anonymous.server_drawless (input : Option Bytes) :
    Drawless (Anonymous.serverStep env input) := by
  unfold Anonymous.serverStep; drawless

theorem XOAuth2.client_drawless (input : Option Bytes) :
    Drawless (XOAuth2.clientStep env input) := by
  unfold XOAuth2.clientStep; drawless

theorem XOAuth2.server_drawless (input : Option Bytes) :
    Drawless (XOAuth2.serverStep env input) := by
  unfold XOAuth2.serverStep XOAuth2.onResult; drawless

theorem OAuthBearer.writeKVs_drawless (kvs : List (Str × Str)) :
    Drawless (OAuthBearer.writeKVs kvs : M S Unit) := by
  induction kvs with
  | nil => exact Drawless.pure _
  | cons kv kvs ih => unfold OAuthBearer.writeKVs; drawless

theorem OAuthBearer.client_drawless (json : OAuthBearer.Json) (input : Option Bytes) :
    Drawless (OAuthBearer.clientStep json env input) := by
  have h := fun kvs => OAuthBearer.writeKVs_drawless (S := OAuthCState) kvs
  have h := Drawless.ask (env := env) (p := .oauthBearerKV) (ctx := .empty) h
  unfold OAuthBearer.clientStep; drawless

theorem OAuthBearer.server_drawless (json : OAuthBearer.Json) (input : Option Bytes) :
    Drawless (OAuthBearer.serverStep json env input) := by
  unfold OAuthBearer.serverStep OAuthBearer.onResult; drawless

namespace Gssapi

variable (lib : Lib)

theorem clientPending_drawless (ctx : lib.Ctx) (input : Option Bytes) :
    Drawless (clientPending lib env ctx input) := by
  have h1 : ∀ ctx v, Drawless (clientAcceptable lib ctx v) := by
    unfold clientAcceptable; drawless
  have h1 := fun ctx => Drawless.ask (env := env) (p := .gssSecurityLayer) (ctx := .empty) (h1 ctx)
  unfold clientPending
  dsimp only
  refine Drawless.bind (.liftGss _) fun _ => ?_
  have h2 : Drawless (if lib.isComplete (lib.clientStep ctx input).2 = true then (do
      let acceptable ← maybeNeedWith env .gssSecurityLayer .empty
        (clientAcceptable lib (lib.clientStep ctx input).2)
      M.set (.last (lib.clientStep ctx input).2 (match acceptable with
        | some a => a
        | none => .all))
      pure State.running)
    else do
      M.set (.pending (lib.clientStep ctx input).2)
      pure State.running) := by
    split
    · exact Drawless.bind (h1 _) fun _ => Drawless.bind (.set _) fun _ => .pure _
    · drawless
  split
  · split
    · exact h2
    · exact Drawless.bind (.writeAll _) fun _ => h2
  · exact h2

theorem client_drawless (input : Option Bytes) : Drawless (clientStep lib env input) := by
  have h := clientPending_drawless (env := env) lib
  unfold clientStep
  refine Drawless.bind .get fun st => Drawless.bind (.set _) fun _ => ?_
  split
  · refine Drawless.bind ?_ fun _ => Drawless.bind ?_ fun _ => Drawless.bind (.liftGss _) fun _ => h _ _
    · drawless
    · drawless
  · exact h _ _
  · drawless
  · drawless
  · drawless

theorem server_drawless (input : Option Bytes) : Drawless (serverStep lib env input) := by
  have h0 : ∀ ctx l, Drawless (serverInstalled lib ctx l) := by
    unfold serverInstalled; drawless
  have h : ∀ ctx input, Drawless (serverPending lib env ctx input) := by
    intro ctx input
    unfold serverPending
    refine Drawless.bind (.okOr _ _) fun _ => ?_
    dsimp only
    refine Drawless.bind (.liftGss _) fun _ => ?_
    split
    · refine Drawless.bind ?_ fun _ => Drawless.bind (.liftGss _) fun _ => ?_
      · drawless
      · have := h0
        split <;> split
        all_goals first
          | exact Drawless.fail _
          | refine Drawless.bind (.set _) fun _ => ?_
        all_goals
          split
          · drawless
          · exact Drawless.bind (.set _) fun _ => h0 _ _
    · drawless
  unfold serverStep
  refine Drawless.bind .get fun st => Drawless.bind (.set _) fun _ => ?_
  split
  · exact Drawless.bind (.liftGss _) fun _ => h _ _
  · exact h _ _
  · exact h0 _ _
  · drawless
  · drawless
  · drawless

theorem clientEncode_drawless (input : Bytes) : Drawless (clientEncode lib input) := by
  unfold clientEncode layerEncode; drawless

theorem clientDecode_drawless (input : Bytes) : Drawless (clientDecode lib input) := by
  unfold clientDecode layerDecode; drawless

theorem serverEncode_drawless (input : Bytes) : Drawless (serverEncode lib input) := by
  unfold serverEncode layerEncode; drawless

theorem serverDecode_drawless (input : Bytes) : Drawless (serverDecode lib input) := by
  unfold serverDecode layerDecode; drawless

end Gssapi

end

end Rsasl

/-
Code run with two callbacks that treat requests alike, except for some: it does the same until one of
those is made.
-/
import Verif.Spec.Depends
import Verif.Proofs.Grows
import Verif.Proofs.Order

namespace Rsasl

open Spec

variable {S T α β G : Type} {X : Contact → Prop} {env env' : Env}

/-- Nothing of `X` happens between the two worlds. -/
def Untouched (X : Contact → Prop) (w w' : World) : Prop :=
  ∃ d, w'.log = w.log ++ d ∧ Without X d

/-- The first contact of `X` that happens after `w` is made in `w'`. -/
def Reached (X : Contact → Prop) (w w' : World) : Prop :=
  ∃ d e c, w'.log = w.log ++ d ++ [e] ∧ Without X d ∧ e.contact = some c ∧ X c

theorem Without.append {a b : List Event} (ha : Without X a) (hb : Without X b) :
    Without X (a ++ b) := by
  intro c hc
  rw [contactsOf_append, List.mem_append] at hc
  exact hc.elim (ha c) (hb c)

theorem without_nil : Without X [] := fun _ h => nomatch h

theorem Untouched.refl (w : World) : Untouched X w w := ⟨[], by simp, without_nil⟩

theorem Untouched.trans {w w' w'' : World} (h : Untouched X w w') (h' : Untouched X w' w'') :
    Untouched X w w'' := by
  obtain ⟨d, h1, h2⟩ := h
  obtain ⟨d', h1', h2'⟩ := h'
  exact ⟨d ++ d', by rw [h1', h1, List.append_assoc], Without.append h2 h2'⟩

theorem Untouched.reached {w w' w'' : World} (h : Untouched X w w') (h' : Reached X w' w'') :
    Reached X w w'' := by
  obtain ⟨d, h1, h2⟩ := h
  obtain ⟨d', e, c, h1', h2', hc, hx⟩ := h'
  exact ⟨d ++ d', e, c, by rw [h1', h1]; simp, Without.append h2 h2', hc, hx⟩

/-- The two do the same until a contact of `X` is made. -/
structure Same (X : Contact → Prop) (m m' : M S α) : Prop where
  grows : Grows m
  grows' : Grows m'
  on : ∀ s w, (m s w = m' s w ∧ Untouched X w (m s w).2.2) ∨
    ∃ wc, Reached X w wc ∧ Behind wc (m s w).2.2 ∧ Behind wc (m' s w).2.2

namespace Same

theorem bind {m m' : M S α} {f f' : α → M S β} (h : Same X m m') (hf : ∀ a, Same X (f a) (f' a)) :
    Same X (m >>= f) (m' >>= f') := by
  refine ⟨h.grows.bind fun a => (hf a).grows, h.grows'.bind fun a => (hf a).grows', fun s w => ?_⟩
  have hgrow : ∀ {n : M S α} {g : α → M S β}, (∀ a, Grows (g a)) → ∀ {wc : World},
      Behind wc (n s w).2.2 → Behind wc ((n >>= g) s w).2.2 := by
    intro n g hg wc hb
    rcases hx : n s w with ⟨o, s1, w1⟩
    rw [hx] at hb
    cases o with
    | ok a => rw [M.bind_ok hx]; exact hb.trans ((hg a).on _ _)
    | err e => rw [M.bind_err hx]; exact hb
    | panic => rw [M.bind_panic hx]; exact hb
  rcases h.on s w with ⟨heq, hu⟩ | ⟨wc, h1, h2, h3⟩
  · rcases hx : m s w with ⟨o, s1, w1⟩
    rw [hx] at heq hu
    have hx' := heq.symm
    cases o with
    | ok a =>
      rw [M.bind_ok hx, M.bind_ok hx']
      rcases (hf a).on s1 w1 with ⟨he, hu'⟩ | ⟨wc, h1, h2⟩
      · exact .inl ⟨he, hu.trans hu'⟩
      · exact .inr ⟨wc, hu.reached h1, h2⟩
    | err e => rw [M.bind_err hx, M.bind_err hx']; exact .inl ⟨rfl, hu⟩
    | panic => rw [M.bind_panic hx, M.bind_panic hx']; exact .inl ⟨rfl, hu⟩
  · exact .inr ⟨wc, h1, hgrow (fun a => (hf a).grows) h2, hgrow (fun a => (hf a).grows') h3⟩

theorem attempt {m m' : M S α} (h : Same X m m') : Same X (M.attempt m) (M.attempt m') := by
  refine ⟨h.grows.attempt, h.grows'.attempt, fun s w => ?_⟩
  have hgrow : ∀ {n : M S α} {wc : World}, Behind wc (n s w).2.2 →
      Behind wc (M.attempt n s w).2.2 := by
    intro n wc hb
    unfold M.attempt
    generalize n s w = x at hb
    rcases x with ⟨o, s', w'⟩
    cases o <;> exact hb
  rcases h.on s w with ⟨heq, hu⟩ | ⟨wc, h1, h2, h3⟩
  · refine .inl ⟨by unfold M.attempt; rw [heq], ?_⟩
    unfold M.attempt
    generalize m s w = x at hu
    rcases x with ⟨o, s', w'⟩
    cases o <;> exact hu
  · exact .inr ⟨wc, h1, hgrow h2, hgrow h3⟩

theorem withLocal (t : T) {m m' : M (S × T) α} (h : Same X m m') :
    Same X (M.withLocal t m) (M.withLocal t m') := by
  refine ⟨⟨fun s w => h.grows.on (s, t) w⟩, ⟨fun s w => h.grows'.on (s, t) w⟩, fun s w => ?_⟩
  rcases h.on (s, t) w with ⟨heq, hu⟩ | h
  · exact .inl ⟨by unfold M.withLocal; rw [heq], hu⟩
  · exact .inr h

theorem symm {m m' : M S α} (h : Same X m m') : Same X m' m := by
  refine ⟨h.grows', h.grows, fun s w => ?_⟩
  rcases h.on s w with ⟨heq, hu⟩ | ⟨wc, h1, h2, h3⟩
  · exact .inl ⟨heq.symm, heq ▸ hu⟩
  · exact .inr ⟨wc, h1, h3, h2⟩

/-- Code that does not contact anybody. -/
theorem refl {m : M S α} (hg : Grows m) (h : Uncalling (fun _ => True) m) : Same X m m := by
  refine ⟨hg, hg, fun s w => .inl ⟨rfl, ?_⟩⟩
  obtain ⟨-, d, h2, h3⟩ := h.logs s w trivial
  refine ⟨d, h2, fun c hc => ?_⟩
  obtain ⟨e, he, hc⟩ := List.mem_filterMap.1 hc
  rw [h3 e he] at hc
  cases hc

theorem note {e : Event} (h : ∀ c, e.contact = some c → ¬ X c) :
    Same X (M.note e : M S Unit) (M.note e) := by
  refine ⟨.note e, .note e, fun s w => .inl ⟨rfl, [e], rfl, fun c hc => ?_⟩⟩
  obtain ⟨e', he, hc⟩ := List.mem_filterMap.1 hc
  rw [List.mem_singleton.1 he] at hc
  exact h c hc

theorem pure (a : α) : Same X (Pure.pure a : M S α) (Pure.pure a) :=
  refl (.still fun _ _ => rfl) (.pure a)
theorem fail (e : SessionError) : Same X (M.fail e : M S α) (M.fail e) :=
  refl (.still fun _ _ => rfl) (.fail e)
theorem panic : Same X (M.panic : M S α) M.panic := refl (.still fun _ _ => rfl) .panic
theorem get : Same X (M.get : M S S) M.get := refl (.still fun _ _ => rfl) .get
theorem set (s : S) : Same X (M.set s) (M.set s) := refl (.still fun _ _ => rfl) (.set trivial)
theorem modify (f : S → S) : Same X (M.modify f) (M.modify f) :=
  refl (.still fun _ _ => rfl) (.modify fun _ h => h)
theorem draw (n : Nat) : Same X (M.draw n : M S (List Nat)) (M.draw n) :=
  refl ⟨fun _ _ => ⟨List.prefix_rfl, List.prefix_rfl⟩⟩ (.draw n)
theorem writeAll (b : Bytes) : Same X (M.writeAll b : M S Unit) (M.writeAll b) :=
  refl (.writeAll b) (.writeAll b)
theorem writeVectored (bs : List Bytes) :
    Same X (M.writeVectored bs : M S Unit) (M.writeVectored bs) :=
  refl (.writeVectored bs) (.writeVectored bs)
theorem writeJson (bs : List Bytes) :
    Same X (OAuthBearer.writeJson bs : M S Unit) (OAuthBearer.writeJson bs) :=
  refl (.writeJson bs) (.writeJson bs)
theorem history : Same X (M.history : M S (List Event)) M.history :=
  refl (.still fun _ _ => rfl) .history

theorem okOr (e : SessionError) (o : Option α) : Same X (M.okOr e o : M S α) (M.okOr e o) := by
  cases o
  · exact fail e
  · exact pure _

theorem lift (r : Except SessionError α) : Same X (M.lift r : M S α) (M.lift r) := by
  cases r
  · exact fail _
  · exact pure _

theorem liftOutcome (o : Outcome α) : Same X (M.liftOutcome o : M S α) (M.liftOutcome o) := by
  cases o
  · exact pure _
  · exact fail _
  · exact panic

theorem liftGss (r : Except Nat α) :
    Same X (Gssapi.liftGss r : M S α) (Gssapi.liftGss r) := by
  cases r
  · exact fail _
  · exact pure _

/-! ## Requests -/

theorem satisfy (p : Property) {f f' : p.Value → M S G} (hf : ∀ v, Same X (f v) (f' v))
    (v : p.Value) (cr : CR G) : Same X (cr.satisfy p f v) (cr.satisfy p f' v) := by
  cases cr with
  | «open» =>
    unfold CR.satisfy
    refine bind (note fun c h => nomatch h) fun _ => bind (attempt (hf v)) fun r => ?_
    cases r <;> exact pure _
  | satisfied g => exact pure _
  | gone => exact pure _

theorem runSat {p : Property} {prog prog' : CbProg} (hp : AnswerAlike p prog prog')
    {f f' : p.Value → M S G} (hf : ∀ v, Same X (f v) (f' v)) (cr : CR G) :
    Same X (Rsasl.runSat p f prog cr) (Rsasl.runSat p f' prog' cr) := by
  induction hp generalizing f f' cr with
  | ret r => exact pure _
  | satisfy v h ih =>
    unfold Rsasl.runSat
    rw [dif_pos rfl, dif_pos rfl]
    exact bind (satisfy p hf v cr) fun _ => ih _ hf _
  | satisfyWith g h ih =>
    unfold Rsasl.runSat
    rw [dif_pos rfl, dif_pos rfl]
    refine bind (note fun c h => nomatch h) fun _ => ?_
    cases g with
    | error e => exact ih _ hf _
    | ok v => exact bind (satisfy p hf v cr) fun _ => ih _ hf _
  | other hq v h ih =>
    rw [Rsasl.runSat, dif_neg hq]
    exact ih hf cr
  | otherWith hq g h ih =>
    rw [Rsasl.runSat, dif_neg hq]
    exact ih hf cr
  | noAction q h ih =>
    rw [Rsasl.runSat]
    exact ih hf cr
  | is q h ih =>
    rw [Rsasl.runSat]
    exact ih hf cr
  | symm h ih => exact (ih (fun v => (hf v).symm) cr).symm

theorem runAct {p : Property} {prog prog' : CbProg} (hp : HearAlike p prog prog')
    (cur : Option p.Value) :
    Same X (Rsasl.runAct p prog cur : M S _) (Rsasl.runAct p prog' cur) := by
  induction hp generalizing cur with
  | ret r => exact pure _
  | getAction h ih =>
    unfold Rsasl.runAct
    rw [dif_pos rfl, dif_pos rfl]
    cases cur with
    | none => exact ih _ none
    | some v => exact bind (note fun c h => nomatch h) fun _ => ih _ none
  | noRequest q v h ih => rw [Rsasl.runAct]; exact ih cur
  | noRequestWith q g h ih => rw [Rsasl.runAct]; exact ih cur
  | other hq h ih => rw [Rsasl.runAct, dif_neg hq]; exact ih cur
  | is q h ih => rw [Rsasl.runAct]; exact ih cur
  | symm h ih => exact (ih cur).symm

/-- A contact of `X` is made: whatever follows, both have come that far. -/
theorem contact {e : Event} {c : Contact} (hc : e.contact = some c) (hx : X c)
    {k k' : List Event → M S α} (hk : ∀ h, Grows (k h)) (hk' : ∀ h, Grows (k' h)) :
    Same X (M.history >>= fun h => M.note e >>= fun _ => k h)
      (M.history >>= fun h => M.note e >>= fun _ => k' h) := by
  refine ⟨.bind (.still fun _ _ => rfl) fun h => .bind (.note e) fun _ => hk h,
    .bind (.still fun _ _ => rfl) fun h => .bind (.note e) fun _ => hk' h,
    fun s w => .inr ⟨w.addLog [e], ?_, (hk _).on s _, (hk' _).on s _⟩⟩
  exact ⟨[], e, c, by simp [World.addLog], without_nil, hc, hx⟩

theorem ask (h : AlikeBut X env env') (p : Property) (ctx : Provider) {f f' : p.Value → M S G}
    (hf : ∀ v, Same X (f v) (f' v)) :
    Same X (maybeNeedWith env p ctx f) (maybeNeedWith env' p ctx f') := by
  unfold maybeNeedWith
  by_cases hx : X (.asks p)
  · exact contact rfl hx
      (fun _ => .bind (.runSat p (fun v => (hf v).grows) _ _) fun _ => .bind (.lift _) fun _ =>
        .still fun _ _ => rfl)
      (fun _ => .bind (.runSat p (fun v => (hf v).grows') _ _) fun _ => .bind (.lift _) fun _ =>
        .still fun _ _ => rfl)
  · refine bind history fun l => bind (note fun c hc => ?_) fun _ => bind (runSat ?_ hf _) fun r =>
      bind (lift _) fun _ => pure _
    · cases hc; exact hx
    · rw [← h.sd]; exact h.asks p hx l ctx

theorem action (h : AlikeBut X env env') (p : Property) (ctx : Provider) (v : p.Value) :
    Same X (Rsasl.action env p ctx v : M S Unit) (Rsasl.action env' p ctx v) := by
  have hend : ∀ r : Except SessionError Unit × Option p.Value, Grows (do
      M.lift (filterEarly r.1)
      match r.2 with
      | some _ => M.fail (.callbackError (.noCallback p))
      | none => Pure.pure () : M S Unit) := by
    rintro ⟨r, cur⟩
    refine .bind (.lift _) fun _ => ?_
    cases cur <;> exact .still fun _ _ => rfl
  unfold Rsasl.action
  by_cases hx : X (.tells p)
  · exact contact rfl hx (fun _ => .bind (.runAct _ _ _) hend) (fun _ => .bind (.runAct _ _ _) hend)
  · refine bind history fun l => bind (note fun c hc => ?_) fun _ => bind (runAct ?_ _) fun ⟨r, cur⟩ =>
      bind (lift _) fun _ => ?_
    · cases hc; exact hx
    · rw [← h.sd]; exact h.tells p hx l ctx
    · cases cur <;> first | exact pure _ | exact fail _

theorem runVal (vtag : Nat) (prog : ValProg) :
    Same X (Rsasl.runVal vtag prog : M S _) (Rsasl.runVal vtag prog) := by
  refine ⟨.runVal vtag prog, .runVal vtag prog, fun s w => .inl ⟨rfl, ?_⟩⟩
  induction prog generalizing w with
  | ret r => exact .refl w
  | finalize t v k ih =>
    unfold Rsasl.runVal
    split
    · exact ih _
    · exact ih w
  | «with» t f k ih =>
    unfold Rsasl.runVal
    split
    · have h0 : Untouched X w { w with log := w.log ++ [.vEvaluated t] } :=
        ⟨[.vEvaluated t], rfl, fun _ h => nomatch h⟩
      cases f with
      | error e => exact h0.trans (ih _ _)
      | ok v => exact h0.trans (ih _ { w with log := w.log ++ [.vEvaluated t], slot := some v })
    · exact ih _ w
  | is t k ih => exact ih _ w

theorem validate (h : AlikeBut X env env') (ctx : Provider) :
    Same X (Rsasl.validate env ctx : M S Unit) (Rsasl.validate env' ctx) := by
  have hend : ∀ r : Except ValidationError Unit, Grows (match r with
      | .ok () => Pure.pure ()
      | .error e => M.fail (.validationError e) : M S Unit) := by
    intro r
    rcases r with e | u <;> exact .still fun _ _ => rfl
  unfold Rsasl.validate
  by_cases hx : X .shows
  · exact contact rfl hx (fun _ => .bind (.runVal _ _) hend) (fun _ => .bind (.runVal _ _) hend)
  · rw [← h.sd, ← h.vtag]
    refine bind history fun l => bind (note fun c hc => ?_) fun _ => ?_
    · cases hc; exact hx
    · rw [h.shows hx l ctx]
      refine bind (runVal _ _) fun r => ?_
      rcases r with e | u
      · exact fail _
      · exact pure _

theorem needWith (h : AlikeBut X env env') (p : Property) (ctx : Provider) {f f' : p.Value → M S G}
    (hf : ∀ v, Same X (f v) (f' v)) :
    Same X (Rsasl.needWith env p ctx f) (Rsasl.needWith env' p ctx f') :=
  bind (ask h p ctx hf) fun _ => okOr _ _

theorem maybeNeedCbData (h : AlikeBut X env env') (n : Str) (ctx : Provider) {f f' : Bytes → M S G}
    (hf : ∀ v, Same X (f v) (f' v)) :
    Same X (Rsasl.maybeNeedCbData env n ctx f) (Rsasl.maybeNeedCbData env' n ctx f') := by
  unfold Rsasl.maybeNeedCbData
  dsimp only
  rw [← h.chanbind]
  split
  · exact bind (hf _) fun _ => pure _
  · exact ask h _ _ hf

theorem needCbData (h : AlikeBut X env env') (n : Str) (ctx : Provider) {f f' : Bytes → M S G}
    (hf : ∀ v, Same X (f v) (f' v)) :
    Same X (Rsasl.needCbData env n ctx f) (Rsasl.needCbData env' n ctx f') :=
  bind (maybeNeedCbData h n ctx hf) fun _ => okOr _ _

end Same

/-- Decompose two runs of a piece of mechanism code. -/
macro "same" h:ident : tactic => `(tactic|
  repeat (first
    | exact Same.pure _ | exact Same.fail _ | exact Same.panic | exact Same.get | exact Same.set _
    | exact Same.modify _ | exact Same.draw _ | exact Same.writeAll _
    | exact Same.writeVectored _ | exact Same.writeJson _ | exact Same.okOr _ _
    | exact Same.lift _ | exact Same.liftOutcome _ | exact Same.liftGss _
    | exact Same.action $h _ _ _ | exact Same.attempt (Same.action $h _ _ _) | exact Same.validate $h _
    | assumption
    | apply Same.needWith $h | apply Same.ask $h | apply Same.needCbData $h
    | apply Same.maybeNeedCbData $h
    | apply Same.withLocal | apply Same.bind | intro _ | split | dsimp only))

section

variable (hE : AlikeBut X env env')
include hE

theorem Plain.client_same (input : Option Bytes) :
    Same X (Plain.clientStep env input) (Plain.clientStep env' input) := by
  have h1 : ∀ v, Same X (Plain.clientAuthzid v) (Plain.clientAuthzid v) := by
    unfold Plain.clientAuthzid; same hE
  have h2 : ∀ v, Same X (Plain.clientAuthid v) (Plain.clientAuthid v) := by
    unfold Plain.clientAuthid; same hE
  have h3 : ∀ v, Same X (Plain.clientPassword v) (Plain.clientPassword v) := by
    unfold Plain.clientPassword; same hE
  have h1 := Same.ask hE .authzId .empty h1
  have h2 := Same.needWith hE .authId .empty h2
  have h3 := Same.needWith hE .password .empty h3
  unfold Plain.clientStep
  same hE

theorem Plain.server_same (prep : Str → Option Str) (input : Option Bytes) :
    Same X (Plain.serverStep prep env input) (Plain.serverStep prep env' input) := by
  unfold Plain.serverStep; same hE

theorem Login.client_same (input : Option Bytes) :
    Same X (Login.clientStep env input) (Login.clientStep env' input) := by
  unfold Login.clientStep; same hE

theorem Login.server_same (input : Option Bytes) :
    Same X (Login.serverStep env input) (Login.serverStep env' input) := by
  unfold Login.serverStep; same hE

theorem External.client_same (input : Option Bytes) :
    Same X (External.clientStep env input) (External.clientStep env' input) := by
  unfold External.clientStep; same hE

theorem External.server_same (input : Option Bytes) :
    Same X (External.serverStep env input) (External.serverStep env' input) := by
  unfold External.serverStep; same hE

theorem Anonymous.client_same (input : Option Bytes) :
    Same X (Anonymous.clientStep env input) (Anonymous.clientStep env' input) := by
  unfold Anonymous.clientStep; same hE

theorem Anonymous.server_same (input : Option Bytes) :
    Same X (Anonymous.serverStep env input) (Anonymous.serverStep env' input) := by
  unfold Anonymous.serverStep; same hE

theorem XOAuth2.client_same (input : Option Bytes) :
    Same X (XOAuth2.clientStep env input) (XOAuth2.clientStep env' input) := by
  unfold XOAuth2.clientStep; same hE

theorem XOAuth2.server_same (input : Option Bytes) :
    Same X (XOAuth2.serverStep env input) (XOAuth2.serverStep env' input) := by
  unfold XOAuth2.serverStep XOAuth2.onResult; same hE

theorem OAuthBearer.writeKVs_same (kvs : List (Str × Str)) :
    Same X (OAuthBearer.writeKVs kvs : M S Unit) (OAuthBearer.writeKVs kvs) := by
  induction kvs with
  | nil => exact .pure _
  | cons kv kvs ih => unfold OAuthBearer.writeKVs; same hE

theorem OAuthBearer.client_same (json : OAuthBearer.Json) (input : Option Bytes) :
    Same X (OAuthBearer.clientStep json env input) (OAuthBearer.clientStep json env' input) := by
  have h := Same.ask hE .oauthBearerKV .empty (OAuthBearer.writeKVs_same (S := OAuthCState) hE)
  unfold OAuthBearer.clientStep; same hE

theorem OAuthBearer.server_same (json : OAuthBearer.Json) (input : Option Bytes) :
    Same X (OAuthBearer.serverStep json env input) (OAuthBearer.serverStep json env' input) := by
  unfold OAuthBearer.serverStep OAuthBearer.onResult; same hE

namespace Scram

theorem escapeM_same (x : Str) : Same X (escapeM x : M S Str) (escapeM x) := by
  unfold escapeM; same hE

theorem generateNonce_same (n : Nat) : Same X (generateNonce n : M S Bytes) (generateNonce n) := by
  unfold generateNonce; same hE

theorem clientCb_same (plus : CbSupport) : Same X (clientCb env plus) (clientCb env' plus) := by
  unfold clientCb pushHeader setCbdata; same hE

theorem sendClientFirst_same (n : Nat) (plus : CbSupport) :
    Same X (sendClientFirst n env plus) (sendClientFirst n env' plus) := by
  have h1 := clientCb_same hE plus
  have h2 : ∀ v, Same X (clientAuthzid v) (clientAuthzid v) := by
    intro v
    have := escapeM_same (S := CS × Gs2) hE v
    unfold clientAuthzid pushHeader; same hE
  have h2 := Same.ask hE .authzId .empty h2
  have h3 := Same.needWith hE .authId .empty (escapeM_same (S := CS × Gs2) hE)
  have h4 := generateNonce_same (S := CS × Gs2) hE n
  unfold sendClientFirst pushHeader; same hE

theorem clientKeys_same (d : Digest) (prov : Provider) (i : UInt32) (salt : Bytes) :
    Same X (clientKeys d env prov i salt) (clientKeys d env' prov i salt) := by
  unfold clientKeys useCached useSalted usePassword; same hE

theorem client_same (d : Digest) (n : Nat) (input : Option Bytes) :
    Same X (clientStep d n env input) (clientStep d n env' input) := by
  have h1 := sendClientFirst_same hE n
  have h2 := clientKeys_same hE d
  unfold clientStep handleServerFirst handleServerFinal
  refine Same.bind .get fun st => Same.bind (.set _) fun _ => ?_
  split
  · have := Same.withLocal {} (h1 ‹_›); same hE
  · refine Same.bind (.okOr _ _) fun i => Same.bind (Same.bind (.liftOutcome _) ?_) ?_
    · rintro ⟨sf, sn, it, salt⟩
      refine Same.bind (h2 _ _ _) ?_
      same hE
    · same hE
  · same hE
  · same hE

theorem handleClientFirst_same (d : Digest) (n : Nat) (canCb : Bool) (msg : ClientFirst) :
    Same X (handleClientFirst d n env canCb msg) (handleClientFirst d n env' canCb msg) := by
  have h1 : ∀ prov flag, Same X (serverCb env canCb prov flag) (serverCb env' canCb prov flag) := by
    intro prov flag
    unfold serverCb; same hE
  have h2 : ∀ p, Same X (useStored (S := Hdr) d p) (useStored (S := Hdr) d p) := by
    unfold useStored; same hE
  have h4 := generateNonce_same (S := Hdr) hE n
  unfold handleClientFirst
  refine Same.bind (h1 _ _) fun _ => Same.bind (Same.ask hE _ _ h2) fun _ => ?_
  same hE

theorem server_same (d : Digest) (n : Nat) (input : Option Bytes) :
    Same X (serverStep d n env input) (serverStep d n env' input) := by
  have h1 := handleClientFirst_same hE d n
  unfold serverStep handleClientFinal
  refine Same.bind .get fun st => Same.bind (.set _) fun _ => ?_
  split
  · refine Same.bind (.okOr _ _) fun i => Same.bind (.liftOutcome _) fun msg =>
      Same.bind (.withLocal _ (h1 _ msg)) fun _ => ?_
    same hE
  · same hE
  · same hE
  · same hE

end Scram

namespace Gssapi

variable (lib : Lib)

theorem clientPending_same (ctx : lib.Ctx) (input : Option Bytes) :
    Same X (clientPending lib env ctx input) (clientPending lib env' ctx input) := by
  have h1 : ∀ ctx v, Same X (clientAcceptable lib ctx v) (clientAcceptable lib ctx v) := by
    unfold clientAcceptable; same hE
  have h1 := fun ctx => Same.ask hE .gssSecurityLayer .empty (h1 ctx)
  unfold clientPending
  dsimp only
  refine Same.bind (.liftGss _) fun _ => ?_
  have h2 : ∀ c : lib.Ctx, ∀ b : Bool, Same X (if b = true then (do
      let acceptable ← maybeNeedWith env .gssSecurityLayer .empty (clientAcceptable lib c)
      M.set (.last c (match acceptable with
        | some a => a
        | none => .all))
      pure State.running)
    else do
      M.set (.pending c)
      pure State.running) (if b = true then (do
      let acceptable ← maybeNeedWith env' .gssSecurityLayer .empty (clientAcceptable lib c)
      M.set (.last c (match acceptable with
        | some a => a
        | none => .all))
      pure State.running)
    else do
      M.set (.pending c)
      pure State.running) := by
    intro c b
    cases b
    · same hE
    · exact Same.bind (h1 _) fun _ => Same.bind (.set _) fun _ => .pure _
  split
  · split
    · exact h2 _ _
    · exact Same.bind (.writeAll _) fun _ => h2 _ _
  · exact h2 _ _

theorem client_same (input : Option Bytes) :
    Same X (clientStep lib env input) (clientStep lib env' input) := by
  have h := clientPending_same hE lib
  unfold clientStep
  refine Same.bind .get fun st => Same.bind (.set _) fun _ => ?_
  split
  · refine Same.bind ?_ fun _ => Same.bind ?_ fun _ => Same.bind (.liftGss _) fun _ => h _ _
    · same hE
    · same hE
  · exact h _ _
  · same hE
  · same hE
  · same hE

theorem server_same (input : Option Bytes) :
    Same X (serverStep lib env input) (serverStep lib env' input) := by
  have h0 : ∀ ctx l, Same X (serverInstalled lib ctx l) (serverInstalled lib ctx l) := by
    unfold serverInstalled; same hE
  have h : ∀ ctx input, Same X (serverPending lib env ctx input) (serverPending lib env' ctx input) := by
    intro ctx input
    unfold serverPending
    refine Same.bind (.okOr _ _) fun _ => ?_
    dsimp only
    refine Same.bind (.liftGss _) fun _ => ?_
    split
    · refine Same.bind ?_ fun _ => Same.bind (.liftGss _) fun _ => ?_
      · same hE
      · have := h0
        split <;> split
        all_goals first
          | exact Same.fail _
          | refine Same.bind (.set _) fun _ => ?_
        all_goals
          split
          · same hE
          · exact Same.bind (.set _) fun _ => h0 _ _
    · same hE
  unfold serverStep
  refine Same.bind .get fun st => Same.bind (.set _) fun _ => ?_
  split
  · exact Same.bind (.liftGss _) fun _ => h _ _
  · exact h _ _
  · exact h0 _ _
  · same hE
  · same hE
  · same hE

end Gssapi

/-- The steps of a built-in mechanism, on either side. -/
theorem builtin_same {deps : Deps} {st : Started}
    (h : Spec.BuiltinServer deps st ∨ Spec.BuiltinClient deps st) (input : Option Bytes) :
    Same X (st.mech.step env input) (st.mech.step env' input) := by
  rcases h with ⟨a, h⟩ | ⟨a, h⟩ <;> cases a <;> cases h
  · exact Plain.server_same hE _ input
  · exact Login.server_same hE input
  · exact External.server_same hE input
  · exact Anonymous.server_same hE input
  · exact XOAuth2.server_same hE input
  · exact OAuthBearer.server_same hE _ input
  · exact Gssapi.server_same hE _ input
  · exact Scram.server_same hE _ _ input
  · exact Scram.server_same hE _ _ input
  · exact Plain.client_same hE input
  · exact Login.client_same hE input
  · exact External.client_same hE input
  · exact Anonymous.client_same hE input
  · exact XOAuth2.client_same hE input
  · exact OAuthBearer.client_same hE _ input
  · exact Gssapi.client_same hE _ input
  · exact Scram.client_same hE _ _ input
  · exact Scram.client_same hE _ _ input

end

end Rsasl

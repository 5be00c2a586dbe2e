/-
C104: exactly how the steps of SCRAM end, for every callback.
-/
import Verif.Spec.ScramSteps
import Verif.Props.Phrases
import Verif.Props.ScramAnswers

namespace Rsasl

open Spec Scram

variable {S G : Type}

/-! ## Requests whose closure changes the state -/

theorem settled_some {p : Property} {obj : p.Value → Option SessionError} {prog : CbProg} {v : p.Value}
    (h : settled p obj prog = .ok (some v)) : firstAnswer p prog = some v ∧ obj v = none := by
  unfold settled at h
  unfold firstAnswer
  rcases hb : beginning p 0 prog with ⟨n, r⟩ | ⟨n, u, k⟩
  · rw [hb] at h
    simp only at h
    cases hc : complaint r <;> rw [hc] at h <;> simp at h
  · rw [hb] at h
    simp only at h ⊢
    cases ho : obj u with
    | none =>
      rw [ho] at h
      simp only at h
      split at h
      · split at h
        · simp only [Except.ok.injEq, Option.some.injEq] at h
          subst h
          exact ⟨rfl, ho⟩
        · simp at h
      · simp at h
    | some e =>
      rw [ho] at h
      simp only at h
      split at h <;> simp at h

/-- The state after an answer. -/
def took {α : Type} (upd : α → S → S) (s : S) : Option α → S
  | none => s
  | some v => upd v s

/-- The result of a request. -/
def came {α β : Type} (val : α → β) : Except SessionError α → Outcome β
  | .ok v => .ok (val v)
  | .error e => .err e

/-- What a request comes to if the mechanism uses an answer, taken or not, to change its state. -/
theorem maybeNeedWith_first {p : Property} {f : p.Value → M S G} {obj : p.Value → Option SessionError}
    {val : p.Value → G} {upd : p.Value → S → S} {env : Env} {ctx : Provider} {w : World}
    (hf : ∀ v, firstAnswer p (env.callback w.log env.sd ctx) = some v → ∀ s w,
      f v s w = (match obj v with | none => .ok (val v) | some e => .err e, upd v s, w)) (s : S) :
    maybeNeedWith env p ctx f s w =
      (came (Option.map val) (settled p obj (env.callback w.log env.sd ctx)),
        took upd s (firstAnswer p (env.callback w.log env.sd ctx)),
        w.addLog (settledLog p obj ctx (env.callback w.log env.sd ctx))) := by
  have h := C17_exact env p ctx f s w
  unfold firstAnswer at hf
  unfold settled settledLog firstAnswer
  generalize beginning p 0 (env.callback w.log env.sd ctx) = b at h hf
  rcases b with ⟨n, r⟩ | ⟨n, v, k⟩
  · simp only at h ⊢
    rw [h]
    cases complaint r <;> simp [World.addLog, evaluations, came, took]
  · simp only at h ⊢
    rw [hf v rfl] at h
    cases ho : obj v with
    | none =>
      rw [ho] at h
      simp only at h ⊢
      rw [h]
      simp only [Option.getD_none]
      generalize sequel p (k (.error (.callbackError .earlyReturn))) = t
      cases complaint t.result with
      | none => by_cases ht : t.answers = 0 <;> simp [ht, World.addLog, evaluations, came, took]
      | some e => simp [World.addLog, evaluations, came, took]
    | some e =>
      rw [ho] at h
      simp only at h ⊢
      rw [h]
      simp only [Option.getD_some]
      generalize sequel p (k (.error e)) = t
      cases complaint t.result <;> simp [World.addLog, evaluations, came, took]

theorem maybeNeedWith_state {p : Property} {f : p.Value → M S G} {obj : p.Value → Option SessionError}
    {val : p.Value → G} {upd : p.Value → S → S}
    (hf : ∀ v s w, f v s w = (match obj v with | none => .ok (val v) | some e => .err e, upd v s, w)) (env : Env)
    (ctx : Provider) (s : S) (w : World) :
    maybeNeedWith env p ctx f s w =
      (came (Option.map val) (settled p obj (env.callback w.log env.sd ctx)),
        took upd s (firstAnswer p (env.callback w.log env.sd ctx)),
        w.addLog (settledLog p obj ctx (env.callback w.log env.sd ctx))) :=
  maybeNeedWith_first (fun v _ => hf v) s

theorem needWith_state {p : Property} {f : p.Value → M S G} {obj : p.Value → Option SessionError}
    {val : p.Value → G} {upd : p.Value → S → S}
    (hf : ∀ v s w, f v s w = (match obj v with | none => .ok (val v) | some e => .err e, upd v s, w)) (env : Env)
    (ctx : Provider) (s : S) (w : World) :
    needWith env p ctx f s w =
      (came val (settledNeed p obj (env.callback w.log env.sd ctx)),
        took upd s (firstAnswer p (env.callback w.log env.sd ctx)),
        w.addLog (settledLog p obj ctx (env.callback w.log env.sd ctx))) := by
  unfold needWith settledNeed
  have h := maybeNeedWith_state hf env ctx s w
  rcases hs : settled p obj (env.callback w.log env.sd ctx) with e | (_ | v)
  · rw [hs] at h; rw [M.bind_err h]; rfl
  · rw [hs] at h; rw [M.bind_ok h]; rfl
  · rw [hs] at h; rw [M.bind_ok h]; rfl

/-- What is done with the data. -/
theorem maybeNeedCbData_state {f : Bytes → M S Unit} {upd : Bytes → S → S}
    (hf : ∀ v s w, f v s w = (.ok (), upd v s, w)) (env : Env) (name : Str) (ctx : Provider) (s : S) (w : World) :
    maybeNeedCbData env name ctx f s w =
      (came (Option.map fun _ => ()) (bindingAsk env.chanbind (fun l c => env.callback l env.sd c) ctx w.log name).result,
        took upd s (bindingAsk env.chanbind (fun l c => env.callback l env.sd c) ctx w.log name).given,
        w.addLog (bindingAsk env.chanbind (fun l c => env.callback l env.sd c) ctx w.log name).log) := by
  unfold maybeNeedCbData bindingAsk
  cases hc : env.chanbind name with
  | some data =>
    simp only
    rw [M.bind_ok (hf data s w)]
    simp [World.addLog, came, took]
  | none =>
    exact maybeNeedWith_state (p := .channelBindings) (obj := fine) (val := fun _ => ()) (upd := upd)
      (fun v s w => hf v s w) env (Provider.and (.this ⟨.channelBindingName, name⟩) ctx) s w

theorem needCbData_state {f : Bytes → M S Unit} {upd : Bytes → S → S}
    (hf : ∀ v s w, f v s w = (.ok (), upd v s, w)) (env : Env) (name : Str) (ctx : Provider) (s : S) (w : World) :
    needCbData env name ctx f s w =
      (match bindingError name (bindingAsk env.chanbind (fun l c => env.callback l env.sd c) ctx w.log name).result with
        | none => .ok () | some e => .err e,
        took upd s (bindingAsk env.chanbind (fun l c => env.callback l env.sd c) ctx w.log name).given,
        w.addLog (bindingAsk env.chanbind (fun l c => env.callback l env.sd c) ctx w.log name).log) := by
  have h := maybeNeedCbData_state hf env name ctx s w
  generalize bindingAsk env.chanbind (fun l c => env.callback l env.sd c) ctx w.log name = b at h
  obtain ⟨g, r, l⟩ := b
  unfold needCbData
  rcases r with e | (_ | v)
  · rw [M.bind_err h]; rfl
  · rw [M.bind_ok h]; rfl
  · rw [M.bind_ok h]; rfl

/-- Data that is taken was given. -/
theorem bindingAsk_some {chanbind : Str → Option Bytes} {asks : Asks} {ctx : Provider} {log : List Event} {name : Str}
    {v : Bytes} (h : (bindingAsk chanbind asks ctx log name).result = .ok (some v)) :
    (bindingAsk chanbind asks ctx log name).given = some v := by
  unfold bindingAsk at h ⊢
  cases hc : chanbind name with
  | some data =>
    rw [hc] at h
    simpa using h
  | none =>
    rw [hc] at h
    exact (settled_some (p := .channelBindings) (obj := fine) (v := v) h).1

theorem bindingError_none {name : Str} {r : Except SessionError (Option Bytes)} (h : bindingError name r = none) :
    ∃ v, r = .ok (some v) := by
  rcases r with e | (_ | v)
  · cases h
  · cases h
  · exact ⟨v, rfl⟩

/-! ## The client's first message -/

theorem escapeChar_written (c : Char) :
    escapeChar c = if c = ',' then c!"=2C" else if c = '=' then c!"=3D" else [c] := by
  by_cases h1 : c = ','
  · subst h1; decide
  · by_cases h2 : c = '='
    · subst h2; decide
    · rw [if_neg h1, if_neg h2]
      unfold escapeChar EscState.escape
      rw [if_neg h1, if_neg h2]
      rfl

theorem escapeM_apply (x : Str) (s : S) (w : World) :
    escapeM x s w =
      (match objectionSaslName x with | none => .ok (writtenName x) | some e => .err e, s, w) := by
  unfold escapeM objectionSaslName
  by_cases h1 : x = []
  · subst h1; rfl
  · rw [if_neg h1]
    by_cases h2 : '\x00' ∈ x
    · rw [if_pos h2]
      unfold escape
      rw [if_neg (by simpa using h1), if_pos (by simpa using h2)]
      rfl
    · rw [if_neg h2, escape_eq x h1 h2]
      have : x.flatMap escapeChar = writtenName x := by
        unfold writtenName
        congr 1
        funext c
        exact escapeChar_written c
      rw [this]
      rfl

theorem pushHeader_apply (b : Bytes) (s : CS × Gs2) (w : World) :
    pushHeader b s w = (.ok (), (s.1, { s.2 with header := s.2.header ++ b }), w) := rfl

theorem setCbdata_apply (b : Bytes) (s : CS × Gs2) (w : World) :
    setCbdata b s w = (.ok (), (s.1, { s.2 with cbdata := some b }), w) := rfl

/-- What the local variables are after the channel binding part. -/
def ComesTo (cs : CS) (r : Except SessionError (Bytes × Bytes)) (o : Outcome Unit) (t : CS × Gs2) : Prop :=
  t.1 = cs ∧ match r with
    | .error e => o = .err e
    | .ok (start, data) => o = .ok () ∧ t.2.header = start ∧ t.2.cbdata.getD [] = data

theorem clientCb_announced (env : Env) (plus : CbSupport) (cs : CS) (w : World) :
    ∃ o t, clientCb env plus (cs, {}) w =
      (o, t, w.addLog (announced env.chanbind (fun l c => env.callback l env.sd c) w.log plus).2) ∧
      ComesTo cs (announced env.chanbind (fun l c => env.callback l env.sd c) w.log plus).1 o t := by
  cases plus with
  | clientNoSupport => exact ⟨_, _, by simp [World.addLog, announced]; rfl, rfl, rfl, rfl, rfl⟩
  | serverNoSupport => exact ⟨_, _, by simp [World.addLog, announced]; rfl, rfl, rfl, rfl, rfl⟩
  | supported =>
    unfold clientCb announced
    simp only
    rw [M.bind_ok (pushHeader_apply ..)]
    have h := maybeNeedWith_state (p := .overrideCBType) (obj := fine) (val := id)
      (f := fun cbname => (do pushHeader (Str.bytes cbname); pure cbname : M (CS × Gs2) Str))
      (upd := fun v s => (s.1, { s.2 with header := s.2.header ++ Str.bytes v }))
      (fun v s w => rfl) env .empty (cs, { header := [] ++ b!"p=" }) w
    simp only at h ⊢
    generalize hfirst : firstAnswer .overrideCBType (env.callback w.log env.sd .empty) = first at h
    generalize settledLog .overrideCBType fine .empty (env.callback w.log env.sd .empty) = l₁ at h
    rcases hs : settled .overrideCBType fine (env.callback w.log env.sd .empty) with e | (_ | name)
    · rw [hs] at h
      refine ⟨_, _, M.bind_err h, ?_, rfl⟩
      cases first <;> rfl
    · rw [hs] at h
      rw [M.bind_ok h]
      clear h
      obtain ⟨t, ht, ht1, ht2, ht3⟩ : ∃ t : CS × Gs2, took (fun (v : Str) s => ((s.1, { s.2 with header := s.2.header ++ Str.bytes v }) : CS × Gs2))
          (cs, { header := [] ++ b!"p=" }) first = t ∧ t.1 = cs ∧
          t.2.header = b!"p=" ++ (first.map Str.bytes).getD [] ∧ t.2.cbdata = none := by
        cases first <;> exact ⟨_, rfl, rfl, by simp [took], rfl⟩
      simp only [ht, Option.map_none]
      have hx := maybeNeedCbData_state
        (f := fun cb => (do pushHeader (Str.bytes tlsExporter); setCbdata cb : M (CS × Gs2) Unit))
        (upd := fun v s => (s.1, { s.2 with header := s.2.header ++ Str.bytes tlsExporter, cbdata := some v }))
        (fun v s w => rfl) env tlsExporter .empty t (w.addLog l₁)
      have hl : (w.addLog l₁).log = w.log ++ l₁ := rfl
      have hn : tlsExporter = c!"tls-exporter" := rfl
      have hn' : Str.bytes (c!"tls-exporter") = b!"tls-exporter" := by decide
      rw [hl, hn, hn'] at hx
      rw [hn, hn']
      have hxs := @bindingAsk_some env.chanbind (fun l c => env.callback l env.sd c) .empty (w.log ++ l₁) (c!"tls-exporter")
      generalize bindingAsk env.chanbind (fun l c => env.callback l env.sd c) .empty (w.log ++ l₁) (c!"tls-exporter") = x at hx hxs
      obtain ⟨g, r, l₂⟩ := x
      simp only at hx hxs ⊢
      rcases r with e | (_ | v)
      · refine ⟨_, _, (M.bind_err hx).trans (by rw [World.addLog_addLog]), ?_, rfl⟩
        cases g <;> exact ht1
      · simp only [came, Option.map_none] at hx
        rw [M.bind_ok hx]
        clear hx
        obtain ⟨t', ht', h1, h2⟩ : ∃ t' : CS × Gs2, took (fun v s => ((s.1, { s.2 with header := s.2.header ++ b!"tls-exporter", cbdata := some v }) : CS × Gs2))
            t g = t' ∧ t'.1 = cs ∧
            t'.2.header = if g = none then b!"p=" ++ (first.map Str.bytes).getD [] else
              b!"p=" ++ (first.map Str.bytes).getD [] ++ b!"tls-exporter" := by
          cases g <;> exact ⟨_, rfl, ht1, by simp [took, ht2]⟩
        simp only [ht']
        have hu := needCbData_state
          (f := fun cb => (do pushHeader (Str.bytes tlsUnique); setCbdata cb : M (CS × Gs2) Unit))
          (upd := fun v s => (s.1, { s.2 with header := s.2.header ++ Str.bytes tlsUnique, cbdata := some v }))
          (fun v s w => rfl) env tlsUnique .empty t' ((w.addLog l₁).addLog l₂)
        have hl : ((w.addLog l₁).addLog l₂).log = w.log ++ l₁ ++ l₂ := rfl
        have hn : tlsUnique = c!"tls-unique" := rfl
        have hn' : Str.bytes (c!"tls-unique") = b!"tls-unique" := by decide
        rw [hl, hn, hn'] at hu
        rw [hn, hn']
        have hus := @bindingAsk_some env.chanbind (fun l c => env.callback l env.sd c) .empty (w.log ++ l₁ ++ l₂) (c!"tls-unique")
        generalize bindingAsk env.chanbind (fun l c => env.callback l env.sd c) .empty (w.log ++ l₁ ++ l₂)
          (c!"tls-unique") = u at hu hus
        obtain ⟨g', r', l₃⟩ := u
        simp only at hu hus ⊢
        cases he : bindingError (c!"tls-unique") r' with
        | some e =>
          rw [he] at hu
          refine ⟨_, _, hu.trans (by rw [World.addLog_addLog, World.addLog_addLog, ← List.append_assoc]), ?_, rfl⟩
          cases g' <;> exact h1
        | none =>
          rw [he] at hu
          obtain ⟨v, rfl⟩ := bindingError_none he
          cases hus rfl
          refine ⟨_, (t'.1, { t'.2 with header := t'.2.header ++ b!"tls-unique", cbdata := some v }), hu.trans (by rw [World.addLog_addLog, World.addLog_addLog, ← List.append_assoc]; rfl), h1, rfl, ?_, rfl⟩
          simp only [h2]
      · simp only [came, Option.map_some] at hx
        rw [M.bind_ok hx]
        cases hxs rfl
        refine ⟨_, (t.1, { t.2 with header := t.2.header ++ b!"tls-exporter", cbdata := some v }),
          by rw [World.addLog_addLog]; rfl, ht1, rfl, ?_, rfl⟩
        simp [ht2]
    · rw [hs] at h
      rw [M.bind_ok h]
      clear h
      obtain ⟨hf, -⟩ := settled_some hs
      rw [hf] at hfirst
      subst hfirst
      simp only [Option.map_some, id]
      have hx := needCbData_state (f := setCbdata) (upd := fun v s => (s.1, { s.2 with cbdata := some v }))
        (fun v s w => rfl) env name .empty (cs, { header := [] ++ b!"p=" ++ Str.bytes name }) (w.addLog l₁)
      have hl : (w.addLog l₁).log = w.log ++ l₁ := rfl
      rw [hl] at hx
      have hxs := @bindingAsk_some env.chanbind (fun l c => env.callback l env.sd c) .empty (w.log ++ l₁) name
      generalize bindingAsk env.chanbind (fun l c => env.callback l env.sd c) .empty (w.log ++ l₁) name = x at hx hxs
      obtain ⟨g, r, l₂⟩ := x
      simp only at hx hxs ⊢
      cases he : bindingError name r with
      | some e =>
        rw [he] at hx
        refine ⟨_, _, (hx.trans (by rw [World.addLog_addLog])), ?_, rfl⟩
        cases g <;> rfl
      | none =>
        rw [he] at hx
        obtain ⟨v, rfl⟩ := bindingError_none he
        cases hxs rfl
        exact ⟨_, _, hx.trans (by rw [World.addLog_addLog]), rfl, rfl, by simp [took], rfl⟩

theorem clientAuthzid_apply (z : Str) (s : CS × Gs2) (w : World) :
    clientAuthzid z s w =
      (match objectionSaslName z with | none => .ok () | some e => .err e,
        (s.1, { s.2 with header := s.2.header ++ authzidText (some z) }), w) := by
  unfold clientAuthzid authzidText
  rw [M.bind_ok (pushHeader_apply ..)]
  have h := escapeM_apply z (s.1, ({ s.2 with header := s.2.header ++ b!"a=" } : Gs2)) w
  cases ho : objectionSaslName z with
  | none =>
    rw [ho] at h
    rw [M.bind_ok h, pushHeader_apply]
    simp [ho]
  | some e =>
    rw [ho] at h
    rw [M.bind_err h]
    simp [ho]

theorem sendClientFirst_opening (env : Env) (plus : CbSupport) (cs : CS) (w : World) (hw : Cooperative w.wr.sched) :
    ∃ sched t,
    let r := opening env.chanbind (fun l c => env.callback l env.sd c) w.log plus
    sendClientFirst nonceLen env plus (cs, {}) w =
      (match r.1 with
        | .error e => .err e
        | .ok o => .ok (.clientFirst (Base64.encode (o.header ++ o.data)) (drawnNonce w.rng) (writtenName o.name)),
        (cs, t),
        match r.1 with
        | .error _ => w.addLog r.2
        | .ok o => ⟨⟨w.wr.out ++ o.header ++ clientFirstBare (writtenName o.name) (drawnNonce w.rng), sched⟩,
          fun i => w.rng (i + 24), w.slot, w.log ++ r.2⟩) := by
  obtain ⟨o, ⟨c₁, g₁⟩, h1, hc, h2⟩ := clientCb_announced env plus cs w
  cases hc
  unfold sendClientFirst opening
  rcases ha : announced env.chanbind (fun l c => env.callback l env.sd c) w.log plus with ⟨e | ⟨start, data⟩, l₁⟩
  · rw [ha] at h1 h2
    cases h2
    exact ⟨[], _, M.bind_err h1⟩
  · rw [ha] at h1 h2
    obtain ⟨rfl, hh, hd⟩ := h2
    rw [M.bind_ok h1, M.bind_ok (pushHeader_apply ..)]
    have h3 := maybeNeedWith_state (p := .authzId) (obj := objectionSaslName) (val := fun _ => ())
      (upd := fun z (s : CS × Gs2) => (s.1, { s.2 with header := s.2.header ++ authzidText (some z) }))
      clientAuthzid_apply env .empty (c₁, { g₁ with header := g₁.header ++ b!"," }) (w.addLog l₁)
    have hl : (w.addLog l₁).log = w.log ++ l₁ := rfl
    rw [hl, World.addLog_addLog] at h3
    simp only
    generalize firstAnswer .authzId (env.callback (w.log ++ l₁) env.sd .empty) = first at h3
    generalize settledLog .authzId objectionSaslName .empty (env.callback (w.log ++ l₁) env.sd .empty) = l₂ at h3
    rcases hz : settled .authzId objectionSaslName (env.callback (w.log ++ l₁) env.sd .empty) with e | z
    · rw [hz] at h3
      refine ⟨[], (took (fun z (s : CS × Gs2) => (s.1, { s.2 with header := s.2.header ++ authzidText (some z) }))
        (c₁, { g₁ with header := g₁.header ++ b!"," }) first).2, (M.bind_err h3).trans ?_⟩
      cases first <;> rfl
    · rw [hz] at h3
      simp only [came] at h3
      rw [M.bind_ok h3, M.bind_ok (pushHeader_apply ..)]
      obtain ⟨t, ht, ht1, ht2, ht3⟩ : ∃ t : CS × Gs2,
          took (fun z (s : CS × Gs2) => (s.1, { s.2 with header := s.2.header ++ authzidText (some z) }))
            (c₁, { g₁ with header := g₁.header ++ b!"," }) first = t ∧ t.1 = c₁ ∧
          t.2.header = start ++ b!"," ++ authzidText first ∧ t.2.cbdata = g₁.cbdata := by
        cases first <;> exact ⟨_, rfl, rfl, by simp [took, ← hh, authzidText], rfl⟩
      rw [ht]
      have h4 := needWith_state (S := CS × Gs2) (p := .authId) (obj := objectionSaslName) (val := writtenName)
        (upd := fun _ s => s) escapeM_apply env .empty (t.1, { t.2 with header := t.2.header ++ b!"," })
        (w.addLog (l₁ ++ l₂))
      have hl : (w.addLog (l₁ ++ l₂)).log = w.log ++ (l₁ ++ l₂) := rfl
      rw [hl, World.addLog_addLog] at h4
      have h5 : took (fun (_ : Str) (s : CS × Gs2) => s) (t.1, { t.2 with header := t.2.header ++ b!"," })
          (firstAnswer .authId (env.callback (w.log ++ (l₁ ++ l₂)) env.sd .empty)) =
          (t.1, { t.2 with header := t.2.header ++ b!"," }) := by
        cases firstAnswer .authId (env.callback (w.log ++ (l₁ ++ l₂)) env.sd .empty) <;> rfl
      rw [show took (fun _ s => s) _ _ = _ from h5] at h4
      generalize settledLog .authId objectionSaslName .empty (env.callback (w.log ++ (l₁ ++ l₂)) env.sd .empty) = l₃ at h4
      rcases hz' : settledNeed .authId objectionSaslName (env.callback (w.log ++ (l₁ ++ l₂)) env.sd .empty) with e | name
      · rw [hz'] at h4
        refine ⟨[], { t.2 with header := t.2.header ++ b!"," }, (M.bind_err h4).trans ?_⟩
        rw [ht1]
      · rw [hz'] at h4
        simp only [came] at h4
        rw [M.bind_ok h4, M.bind_ok (generateNonce_apply ..), M.bind_ok (M.get_apply ..)]
        obtain ⟨sc, -, h6⟩ := M.writeVectored_cooperative
          [t.2.header ++ b!",", b!"n=", Str.bytes (writtenName name), b!",r=", ((List.range nonceLen).map w.rng).map nonceChar]
          ((t.1, { t.2 with header := t.2.header ++ b!"," }) : CS × Gs2)
          { w.addLog (l₁ ++ l₂ ++ l₃) with rng := fun i => w.rng (i + nonceLen) } hw
        refine ⟨sc, { t.2 with header := t.2.header ++ b!"," }, (M.bind_ok h6).trans ?_⟩
        have hn : ((List.range nonceLen).map w.rng).map nonceChar = drawnNonce w.rng := by
          unfold drawnNonce nonceLen
          rw [List.map_map]; rfl
        rw [hn]
        obtain ⟨tc, th, tcb⟩ := t
        simp only at ht1 ht2 ht3 hd ⊢
        subst ht1 ht2
        cases tcb with
        | none =>
          rw [← ht3] at hd
          subst hd
          simp [clientFirstBare, World.addLog, nonceLen]
          rfl
        | some cb =>
          rw [← ht3] at hd
          subst hd
          simp [clientFirstBare, World.addLog, nonceLen]
          rfl

/-- C104: exactly how the first step of a SCRAM client ends, for every callback. -/
theorem C104_client_first (d : Digest) (env : Env) (ses : Session CS) (plus : CbSupport)
    (hst : ses.st = some (.initial plus)) (c : Call) (hw : Cooperative c.sched) :
    ses.step (client d) env c =
      match opening env.chanbind (fun l c => env.callback l env.sd c) ses.log plus with
      | (.error e, l) => (⟨.err e, []⟩, ⟨none, ses.slot, ses.rng, ses.log ++ l⟩)
      | (.ok o, l) =>
        (⟨.ok .running, o.header ++ clientFirstBare (writtenName o.name) (drawnNonce ses.rng)⟩,
          ⟨some (.clientFirst (Base64.encode (o.header ++ o.data)) (drawnNonce ses.rng) (writtenName o.name)), ses.slot,
            fun i => ses.rng (i + 24), ses.log ++ l⟩) := by
  obtain ⟨sched, t, h⟩ := sendClientFirst_opening env plus none ⟨⟨[], c.sched⟩, ses.rng, ses.slot, ses.log⟩ hw
  simp only at h
  generalize opening env.chanbind (fun l c => env.callback l env.sd c) ses.log plus = r at h
  rcases r with ⟨e | o, l⟩
  · refine step_of (m := client d) (w' := ⟨⟨[], c.sched⟩, ses.rng, ses.slot, ses.log ++ l⟩) ?_
    rw [hst]
    show clientStep d nonceLen env c.input _ _ = _
    unfold clientStep
    rw [M.bind_ok (M.get_apply ..), M.bind_ok (M.set_apply ..)]
    refine M.bind_err ?_
    unfold M.withLocal
    rw [h]
    rfl
  · refine step_of (m := client d) (w' := ⟨⟨o.header ++ clientFirstBare (writtenName o.name) (drawnNonce ses.rng), sched⟩,
      fun i => ses.rng (i + 24), ses.slot, ses.log ++ l⟩) ?_
    rw [hst]
    show clientStep d nonceLen env c.input _ _ = _
    unfold clientStep
    rw [M.bind_ok (M.get_apply ..), M.bind_ok (M.set_apply ..)]
    refine (M.bind_ok (a := .clientFirst (Base64.encode (o.header ++ o.data)) (drawnNonce ses.rng) (writtenName o.name))
      (s' := none) (w' := ⟨⟨o.header ++ clientFirstBare (writtenName o.name) (drawnNonce ses.rng), sched⟩,
      fun i => ses.rng (i + 24), ses.slot, ses.log ++ l⟩) ?_).trans rfl
    unfold M.withLocal
    rw [h]
    simp

/-! ## The client's second message -/

theorem M.liftOutcome_ok {α : Type} (a : α) (s : S) (w : World) : M.liftOutcome (.ok a) s w = (.ok a, s, w) := rfl

theorem useSalted_apply (d : Digest) (v : Bytes) (s : CS) (w : World) :
    useSalted d v s w = (match objectionSalted v with
      | none => .ok (clientKey d v, serverKey d v)
      | some e => .err e, s, w) := by
  unfold useSalted objectionSalted
  cases v <;> rfl

/-- The outcome of asking for the keys. -/
def Keys.outcome : Keys → Outcome (Bytes × Bytes)
  | .panics => .panic
  | .fails e => .err e
  | .are ck sk => .ok (ck, sk)

theorem took_same {α : Type} (s : S) (o : Option α) : took (fun _ s => s) s o = s := by
  cases o <;> rfl

/-- The keys are found as the specification says. -/
theorem clientKeys_gathered (d : Digest) (env : Env) (salt : Bytes) (it : UInt32) (s : CS) (w : World) :
    clientKeys d env (clientProvider salt it) it salt s w =
      (Keys.outcome (gathered d (fun l c => env.callback l env.sd c) w.log salt it).1, s,
        w.addLog (gathered d (fun l c => env.callback l env.sd c) w.log salt it).2) := by
  have hctx : clientProvider salt it = .chain [⟨.salt, salt⟩, ⟨.iterations, it⟩] := rfl
  rw [hctx]
  have rest : (∀ c : CachedPassword, firstAnswer .scramCachedPassword
        (env.callback w.log env.sd (.chain [⟨.salt, salt⟩, ⟨.iterations, it⟩])) = some c →
        c.clientKey.length = d.outLen ∧ c.serverKey.length = d.outLen) →
      clientKeys d env (.chain [⟨.salt, salt⟩, ⟨.iterations, it⟩]) it salt s w =
      (Keys.outcome (gathered.rest d (fun l c => env.callback l env.sd c) w.log salt it
        (env.callback w.log env.sd (.chain [⟨.salt, salt⟩, ⟨.iterations, it⟩]))
        (.chain [⟨.salt, salt⟩, ⟨.iterations, it⟩])).1, s,
        w.addLog (gathered.rest d (fun l c => env.callback l env.sd c) w.log salt it
          (env.callback w.log env.sd (.chain [⟨.salt, salt⟩, ⟨.iterations, it⟩]))
          (.chain [⟨.salt, salt⟩, ⟨.iterations, it⟩])).2) := by
    intro hu
    generalize hc : Provider.chain [⟨.salt, salt⟩, ⟨.iterations, it⟩] = ctx at hu ⊢
    have h1 := maybeNeedWith_first (p := .scramCachedPassword) (f := useCached d) (obj := fine)
      (val := fun c => (CachedPassword.clientKey c, CachedPassword.serverKey c)) (upd := fun _ s => s) (env := env)
      (ctx := ctx) (w := w) (fun c h s w => by unfold useCached; rw [if_pos (hu c h)]; rfl) s
    rw [took_same] at h1
    unfold clientKeys gathered.rest
    generalize settledLog .scramCachedPassword fine ctx (env.callback w.log env.sd ctx) = l₁ at h1
    rcases hz : settled .scramCachedPassword fine (env.callback w.log env.sd ctx) with e | (_ | c)
    · rw [hz] at h1
      exact M.bind_err h1
    · rw [hz] at h1
      simp only [came, Option.map_none] at h1
      rw [M.bind_ok h1]
      have h2 := maybeNeedWith_state (p := .saltedPassword) (f := useSalted d) (obj := objectionSalted)
        (val := fun v => (clientKey d v, serverKey d v)) (upd := fun _ s => s) (useSalted_apply d) env ctx s (w.addLog l₁)
      have hl : (w.addLog l₁).log = w.log ++ l₁ := rfl
      rw [took_same, hl, World.addLog_addLog] at h2
      simp only
      generalize settledLog .saltedPassword objectionSalted ctx (env.callback (w.log ++ l₁) env.sd ctx) = l₂ at h2
      rcases hz' : settled .saltedPassword objectionSalted (env.callback (w.log ++ l₁) env.sd ctx) with e | (_ | v)
      · rw [hz'] at h2
        exact M.bind_err h2
      · rw [hz'] at h2
        simp only [came, Option.map_none] at h2
        rw [M.bind_ok h2]
        have h3 := needWith_state (p := .password) (f := usePassword d it salt) (obj := fine)
          (val := fun p => (clientKey d (d.pbkdf2 p salt it), serverKey d (d.pbkdf2 p salt it))) (upd := fun _ s => s)
          (fun v s w => rfl) env ctx s (w.addLog (l₁ ++ l₂))
        have hl : (w.addLog (l₁ ++ l₂)).log = w.log ++ (l₁ ++ l₂) := rfl
        rw [took_same, hl, World.addLog_addLog] at h3
        simp only
        rw [h3]
        rcases settledNeed .password fine (env.callback (w.log ++ (l₁ ++ l₂)) env.sd ctx) with e | v <;> rfl
      · rw [hz'] at h2
        simp only [came, Option.map_some] at h2
        rw [M.bind_ok h2]
        rfl
    · rw [hz] at h1
      simp only [came, Option.map_some] at h1
      rw [M.bind_ok h1]
      rfl
  unfold gathered
  simp only
  rcases hb : beginning .scramCachedPassword 0 (env.callback w.log env.sd (.chain [⟨.salt, salt⟩, ⟨.iterations, it⟩]))
    with ⟨n, r⟩ | ⟨n, c, k⟩
  · simp only
    exact rest fun c h => by unfold firstAnswer at h; rw [hb] at h; cases h
  · simp only
    by_cases hu : (CachedPassword.clientKey c).length = d.outLen ∧ (CachedPassword.serverKey c).length = d.outLen
    · rw [if_neg (not_not_intro hu)]
      exact rest fun c' h => by
        unfold firstAnswer at h
        rw [hb] at h
        cases h
        exact hu
    · rw [if_pos hu]
      have h := C17_exact env .scramCachedPassword (.chain [⟨.salt, salt⟩, ⟨.iterations, it⟩]) (useCached d) s w
      rw [hb] at h
      have hp : ∀ w, useCached d c s w = (.panic, s, w) := by
        intro w
        unfold useCached
        rw [if_neg hu]
        rfl
      simp only [hp] at h
      unfold clientKeys
      rw [M.bind_panic h]
      rfl

/-- C104: exactly how the second step of a SCRAM client ends, for every callback, if the server's message is good. -/
theorem C104_client_second (d : Digest) (env : Env) (ses : Session CS) (cb64 nonce : Bytes) (user : Str)
    (hst : ses.st = some (.clientFirst cb64 nonce user)) (input snonce salt64 it64 salt : Bytes) (it : UInt32)
    (hi : ServerParams nonce input snonce salt64 it64 salt it) (sched : List WResp) (hw : Cooperative sched) :
    ses.step (client d) env ⟨some input, sched⟩ =
      match gathered d (fun l c => env.callback l env.sd c) ses.log salt it with
      | (.panics, l) => (⟨.panic, []⟩, ⟨none, ses.slot, ses.rng, ses.log ++ l⟩)
      | (.fails e, l) => (⟨.err e, []⟩, ⟨none, ses.slot, ses.rng, ses.log ++ l⟩)
      | (.are ck sk, l) =>
        let auth := authMessage (clientFirstBare user nonce) input (clientFinalBare cb64 (nonce ++ snonce))
        (⟨.ok .running, clientFinalBare cb64 (nonce ++ snonce) ++ b!",p=" ++ Base64.encode (clientProof d ck auth)⟩,
          ⟨some (.serverFirst (d.hmac sk auth) ck sk salt it), ses.slot, ses.rng, ses.log ++ l⟩) := by
  have hc : checkServerFirst nonce input = .ok (⟨nonce ++ snonce, none, salt64, it64⟩, snonce, it, salt) := by
    rw [checkServerFirst_eq_ok]
    obtain ⟨h1, h2, h3, h4, ⟨t, h5, h6⟩, h7⟩ := hi
    exact ⟨rfl, h1, h2, h3, Base64.decode_eq_some_iff.2 h4, ⟨t, h5, parseU32_iff.2 h6⟩, h7⟩
  have hk := clientKeys_gathered d env salt it none ⟨⟨[], sched⟩, ses.rng, ses.slot, ses.log⟩
  generalize hg : gathered d (fun l c => env.callback l env.sd c) ses.log salt it = g at hk
  obtain ⟨k, l⟩ := g
  have start : ∀ x, handleServerFirst d env cb64 nonce user input none ⟨⟨[], sched⟩, ses.rng, ses.slot, ses.log⟩ = x →
      clientStep d nonceLen env (some input) (some (.clientFirst cb64 nonce user))
        ⟨⟨[], sched⟩, ses.rng, ses.slot, ses.log⟩ =
      match x with
      | (.ok new, _, w) => (.ok .running, some new, w)
      | (.err e, s, w) => (.err e, s, w)
      | (.panic, s, w) => (.panic, s, w) := by
    rintro ⟨o, s, w⟩ hx
    unfold clientStep
    rw [M.bind_ok (M.get_apply ..), M.bind_ok (M.set_apply ..)]
    simp only
    rw [M.bind_ok (M.okOr_some ..)]
    cases o with
    | ok new => rw [M.bind_ok hx]; rfl
    | err e => rw [M.bind_err hx]
    | panic => rw [M.bind_panic hx]
  cases k with
  | panics =>
    have h : handleServerFirst d env cb64 nonce user input none ⟨⟨[], sched⟩, ses.rng, ses.slot, ses.log⟩ =
        (.panic, none, ⟨⟨[], sched⟩, ses.rng, ses.slot, ses.log ++ l⟩) := by
      unfold handleServerFirst
      rw [hc]
      exact (M.bind_ok (M.liftOutcome_ok ..)).trans (M.bind_panic hk)
    refine step_of (m := client d) (w' := ⟨⟨[], sched⟩, ses.rng, ses.slot, ses.log ++ l⟩) ?_
    rw [hst]
    exact start _ h
  | fails e =>
    have h : handleServerFirst d env cb64 nonce user input none ⟨⟨[], sched⟩, ses.rng, ses.slot, ses.log⟩ =
        (.err e, none, ⟨⟨[], sched⟩, ses.rng, ses.slot, ses.log ++ l⟩) := by
      unfold handleServerFirst
      rw [hc]
      exact (M.bind_ok (M.liftOutcome_ok ..)).trans (M.bind_err hk)
    refine step_of (m := client d) (w' := ⟨⟨[], sched⟩, ses.rng, ses.slot, ses.log ++ l⟩) ?_
    rw [hst]
    exact start _ h
  | are ck sk =>
    obtain ⟨sc, -, h2⟩ := M.writeVectored_cooperative (ClientFinal.ioslices ⟨cb64, nonce ++ snonce,
        Base64.encode (clientProof d ck (authMessage (clientFirstBare user nonce) input (clientFinalBare cb64 (nonce ++ snonce))))⟩)
      (none : CS) ⟨⟨[], sched⟩, ses.rng, ses.slot, ses.log ++ l⟩ hw
    have h : handleServerFirst d env cb64 nonce user input none ⟨⟨[], sched⟩, ses.rng, ses.slot, ses.log⟩ =
        (.ok (.serverFirst (d.hmac sk (authMessage (clientFirstBare user nonce) input (clientFinalBare cb64 (nonce ++ snonce))))
          ck sk salt it), none, ⟨⟨clientFinalBare cb64 (nonce ++ snonce) ++ b!",p=" ++ Base64.encode (clientProof d ck
            (authMessage (clientFirstBare user nonce) input (clientFinalBare cb64 (nonce ++ snonce)))), sc⟩, ses.rng, ses.slot,
            ses.log ++ l⟩) := by
      unfold handleServerFirst
      rw [hc]
      refine (M.bind_ok (M.liftOutcome_ok ..)).trans ((M.bind_ok hk).trans ?_)
      rw [hi.message] at h2 ⊢
      simp only [computeSignatures, authMessage_eq]
      refine (M.bind_ok h2).trans ?_
      simp [ClientFinal.ioslices, clientFinalBare, World.addLog]
    refine step_of (m := client d) (w' := ⟨⟨_, sc⟩, ses.rng, ses.slot, ses.log ++ l⟩) ?_
    rw [hst]
    exact start _ h

/-! ## The end of the client's session -/

/-- C104: exactly how the last step of a SCRAM client ends with the right signature: whatever the callback does when it
is offered the keys, the session is finished. -/
theorem C104_client_last (d : Digest) (env : Env) (ses : Session CS) (sig ck sk salt : Bytes) (it : UInt32)
    (hst : ses.st = some (.serverFirst sig ck sk salt it)) (sched : List WResp) :
    ses.step (client d) env ⟨some (b!"v=" ++ Base64.encode sig), sched⟩ =
      (⟨.ok (.finished .no), []⟩, ⟨none, ses.slot, ses.rng, ses.log ++
        .notified .scramCachedPassword (.chain [⟨.salt, salt⟩, ⟨.iterations, it⟩]) ::
          if (reaction .scramCachedPassword (some (⟨ck, sk⟩ : CachedPassword))
            (env.callback ses.log env.sd (.chain [⟨.salt, salt⟩, ⟨.iterations, it⟩]))).1
          then [.delivered .scramCachedPassword (⟨ck, sk⟩ : CachedPassword)] else []⟩) := by
  have ha := C19_exact env .scramCachedPassword (clientProvider salt it) (⟨ck, sk⟩ : CachedPassword) (none : CS)
    ⟨⟨[], sched⟩, ses.rng, ses.slot, ses.log⟩
  generalize hr : reaction .scramCachedPassword (some (⟨ck, sk⟩ : CachedPassword))
    (env.callback ses.log env.sd (clientProvider salt it)) = r at ha
  have hr' : reaction .scramCachedPassword (some (⟨ck, sk⟩ : CachedPassword))
    (env.callback ses.log env.sd (.chain [⟨.salt, salt⟩, ⟨.iterations, it⟩])) = r := hr
  rw [hr']
  refine step_of (m := client d) (w' := ⟨⟨[], sched⟩, ses.rng, ses.slot, _⟩) ?_
  rw [hst]
  show clientStep d nonceLen env _ _ _ = _
  unfold clientStep
  rw [M.bind_ok (M.get_apply ..), M.bind_ok (M.set_apply ..)]
  simp only
  rw [M.bind_ok (M.okOr_some ..)]
  refine (M.bind_ok (a := ()) (s' := none) (w' := ⟨⟨[], sched⟩, ses.rng, ses.slot, _⟩) ?_).trans rfl
  unfold handleServerFinal
  rw [(C53_server_final_partial _ _).2 (.inl ⟨_, rfl, rfl⟩)]
  refine (M.bind_ok (M.liftOutcome_ok ..)).trans ?_
  simp only [Base64.decode_encode, if_true]
  obtain ⟨x, hx⟩ : ∃ x, M.attempt (action env .scramCachedPassword (clientProvider salt it) (⟨ck, sk⟩ : CachedPassword))
      (none : CS) ⟨⟨[], sched⟩, ses.rng, ses.slot, ses.log⟩ = (.ok x, none, ⟨⟨[], sched⟩, ses.rng, ses.slot, ses.log ++
        .notified .scramCachedPassword (clientProvider salt it) ::
          if r.1 then [.delivered .scramCachedPassword (⟨ck, sk⟩ : CachedPassword)] else []⟩) := by
    unfold M.attempt
    rw [ha]
    rcases r with ⟨_ | _, e | _⟩
    · by_cases he : e = .callbackError .earlyReturn
      · simp [he, World.addLog]
      · simp [he, World.addLog]
    · simp [World.addLog]
    · by_cases he : e = .callbackError .earlyReturn
      · simp [he, World.addLog]
      · simp [he, World.addLog]
    · simp [World.addLog]
  exact M.bind_ok hx

/-! ## The server's first message -/

theorem namesOffered_eq (user : Str) (authzid : Option Str) : serverProvider user authzid = namesOffered user authzid := by
  cases authzid <;> rfl

theorem serverCb_binding (env : Env) (canCb : Bool) (ctx : Provider) (flag : CbFlag) (s : SS) (h : Bytes) (w : World) :
    ∃ t, serverCb env canCb ctx flag (s, h) w =
      (match (serverBinding env.chanbind (fun l c => env.callback l env.sd c) ctx w.log canCb flag).1 with
        | .error e => .err e
        | .ok _ => .ok (), (s, t),
        w.addLog (serverBinding env.chanbind (fun l c => env.callback l env.sd c) ctx w.log canCb flag).2) ∧
      ∀ data, (serverBinding env.chanbind (fun l c => env.callback l env.sd c) ctx w.log canCb flag).1 = .ok data →
        t = h ++ data := by
  cases flag with
  | notSupported => exact ⟨h, by simp [serverCb, serverBinding, World.addLog], by simp [serverBinding]⟩
  | supportedNotUsed =>
    cases canCb
    · exact ⟨h, by simp [serverCb, serverBinding, World.addLog], by simp [serverBinding]⟩
    · exact ⟨h, by simp [serverCb, serverBinding, World.addLog], by simp [serverBinding]⟩
  | used name =>
    have hx := needCbData_state (f := fun cbdata => (M.modify fun (s, h) => (s, h ++ cbdata) : M Hdr Unit))
      (upd := fun v s => (s.1, s.2 ++ v)) (fun v s w => rfl) env (asciiStr name) ctx (s, h) w
    have hn : (name.map fun x => Char.ofNat x.toNat) = asciiStr name := rfl
    unfold serverCb serverBinding
    simp only [hn]
    have hxs := @bindingAsk_some env.chanbind (fun l c => env.callback l env.sd c) ctx w.log (asciiStr name)
    generalize bindingAsk env.chanbind (fun l c => env.callback l env.sd c) ctx w.log (asciiStr name) = x at hx hxs
    obtain ⟨g, r, l⟩ := x
    simp only at hx hxs ⊢
    cases he : bindingError (asciiStr name) r with
    | some e =>
      rw [he] at hx
      refine ⟨(took (fun v (s : Hdr) => (s.1, s.2 ++ v)) (s, h) g).2, hx.trans ?_, by simp⟩
      cases g <;> rfl
    | none =>
      rw [he] at hx
      obtain ⟨v, rfl⟩ := bindingError_none he
      cases hxs rfl
      exact ⟨_, hx, by simp⟩

theorem useStored_apply (d : Digest) (p : StoredPassword) (s : S) (w : World) :
    useStored d p s w = (match objectionStored d p with
      | none => .ok ⟨Str.bytes (Nat.toDigits 10 p.iterations.toNat), Base64.encode p.salt, p.storedKey, p.serverKey⟩
      | some e => .err e, s, w) := by
  unfold useStored objectionStored
  by_cases h : p.storedKey.length = d.outLen ∧ p.serverKey.length = d.outLen
  · rw [if_pos h, if_neg (by rw [h.1, h.2]; simp)]
    rfl
  · rw [if_neg h, if_pos (by by_cases h1 : p.storedKey.length = d.outLen <;> simp_all)]
    rfl

/-- A salt made up for a user who is not known. -/
def madeUpSalt (rng : Nat → Nat) : Bytes := (List.range 32).map fun i => UInt8.ofNat (rng (i + 24))

/-- C104: exactly how the first step of a SCRAM server ends, for every callback, if the client's message can be read. -/
theorem C104_server_first (d : Digest) (env : Env) (ses : Session SS) (canCb : Bool)
    (hst : ses.st = some (.waitingClientFirst canCb)) (flag : CbFlag) (authzid : Option Str) (user : Str)
    (cnonce start : Bytes) (exts : List Bytes) (h1 : Gs2Start flag authzid start) (h2 : 44 ∉ Str.bytes user)
    (h3 : ∀ b ∈ cnonce, Printable b) (h4 : ∀ e ∈ exts, 44 ∉ e) (sched : List WResp) (hw : Cooperative sched) :
    ses.step (server d) env
        ⟨some (start ++ b!"n=" ++ Str.bytes user ++ b!",r=" ++ cnonce ++ Spec.tail exts), sched⟩ =
      match lookedUp d env.chanbind (fun l c => env.callback l env.sd c) ses.log canCb flag user authzid with
      | (.error e, l) => (⟨.err e, []⟩, ⟨none, ses.slot, ses.rng, ses.log ++ l⟩)
      | (.ok (data, some p), l) =>
        (⟨.ok .running, serverFirst (cnonce ++ drawnNonce ses.rng) (Base64.encode p.salt)
            (Str.bytes (Nat.toDigits 10 p.iterations.toNat))⟩,
          ⟨some (.waitingClientFinal (some
            { clientNonce := cnonce, serverNonce := drawnNonce ses.rng, gs2Header := gs2Header flag authzid ++ data,
              username := user, authzid := authzid, salt := Base64.encode p.salt,
              iterations := Str.bytes (Nat.toDigits 10 p.iterations.toNat), storedKey := p.storedKey,
              serverKey := p.serverKey })), ses.slot, fun i => ses.rng (i + 24), ses.log ++ l⟩)
      | (.ok (_, none), l) =>
        (⟨.ok .running, serverFirst (cnonce ++ drawnNonce ses.rng) (Base64.encode (madeUpSalt ses.rng)) (b!"16384")⟩,
          ⟨some (.waitingClientFinal none), ses.slot, fun i => ses.rng (i + 56), ses.log ++ l⟩) := by
  have hp := (C53_client_first_partial _ flag authzid user cnonce).2 ⟨start, exts, h1, h2, h3, h4, rfl⟩
  have run : ∀ o t w', handleClientFirst d nonceLen env canCb ⟨flag, authzid, user, cnonce⟩
        (none, (⟨flag, authzid, user, cnonce⟩ : ClientFirst).gs2Header) ⟨⟨[], sched⟩, ses.rng, ses.slot, ses.log⟩ =
        (o, (none, t), w') →
      ses.step (server d) env ⟨some (start ++ b!"n=" ++ Str.bytes user ++ b!",r=" ++ cnonce ++ Spec.tail exts), sched⟩ =
        match o with
        | .ok new => (⟨.ok .running, w'.wr.out⟩, ⟨some new, w'.slot, w'.rng, w'.log⟩)
        | .err e => (⟨.err e, w'.wr.out⟩, ⟨none, w'.slot, w'.rng, w'.log⟩)
        | .panic => (⟨.panic, w'.wr.out⟩, ⟨none, w'.slot, w'.rng, w'.log⟩) := by
    intro o t w' hx
    have hl : M.withLocal (⟨flag, authzid, user, cnonce⟩ : ClientFirst).gs2Header
        (handleClientFirst d nonceLen env canCb ⟨flag, authzid, user, cnonce⟩) none
        ⟨⟨[], sched⟩, ses.rng, ses.slot, ses.log⟩ = (o, none, w') := by
      unfold M.withLocal
      rw [hx]
    have hs : ∀ o' s', (match o with
        | .ok new => ((.ok .running, some new) : Outcome State × SS)
        | .err e => (.err e, none)
        | .panic => (.panic, none)) = (o', s') →
      serverStep d nonceLen env (some (start ++ b!"n=" ++ Str.bytes user ++ b!",r=" ++ cnonce ++ Spec.tail exts)) ses.st
        ⟨⟨[], sched⟩, ses.rng, ses.slot, ses.log⟩ = (o', s', w') := by
      intro o' s' ho
      rw [hst]
      unfold serverStep
      rw [M.bind_ok (M.get_apply ..), M.bind_ok (M.set_apply ..)]
      simp only
      rw [M.bind_ok (M.okOr_some ..), hp]
      refine (M.bind_ok (M.liftOutcome_ok ..)).trans ?_
      cases o with
      | ok new => cases ho; exact (M.bind_ok hl).trans rfl
      | err e => cases ho; exact M.bind_err hl
      | panic => cases ho; exact M.bind_panic hl
    cases o with
    | ok new => exact step_of (m := server d) (hs _ _ rfl)
    | err e => exact step_of (m := server d) (hs _ _ rfl)
    | panic => exact step_of (m := server d) (hs _ _ rfl)
  obtain ⟨t, hb, ht⟩ := serverCb_binding env canCb (namesOffered user authzid) flag none
    ((⟨flag, authzid, user, cnonce⟩ : ClientFirst).gs2Header) ⟨⟨[], sched⟩, ses.rng, ses.slot, ses.log⟩
  unfold lookedUp
  simp only at hb ht ⊢
  rcases hbi : serverBinding env.chanbind (fun l c => env.callback l env.sd c) (namesOffered user authzid) ses.log canCb flag
    with ⟨e | data, l₁⟩
  · rw [hbi] at hb
    refine run (.err e) t ⟨⟨[], sched⟩, ses.rng, ses.slot, ses.log ++ l₁⟩ ?_
    unfold handleClientFirst
    rw [namesOffered_eq]
    exact M.bind_err hb
  · rw [hbi] at hb ht
    cases ht data rfl
    have hs := maybeNeedWith_state (S := Hdr) (p := .scramStoredPassword) (f := useStored d) (obj := objectionStored d)
      (val := fun p => (⟨Str.bytes (Nat.toDigits 10 (StoredPassword.iterations p).toNat),
        Base64.encode (StoredPassword.salt p), StoredPassword.storedKey p, StoredPassword.serverKey p⟩ : Params))
      (upd := fun _ s => s) (useStored_apply d) env (namesOffered user authzid)
      (none, (⟨flag, authzid, user, cnonce⟩ : ClientFirst).gs2Header ++ data)
      ⟨⟨[], sched⟩, ses.rng, ses.slot, ses.log ++ l₁⟩
    rw [took_same] at hs
    simp only at hs ⊢
    generalize settledLog .scramStoredPassword (objectionStored d) (namesOffered user authzid)
      (env.callback (ses.log ++ l₁) env.sd (namesOffered user authzid)) = l₂ at hs
    have hn : ((List.range nonceLen).map ses.rng).map nonceChar = drawnNonce ses.rng := by
      unfold drawnNonce nonceLen
      rw [List.map_map]
      rfl
    rcases hz : settled .scramStoredPassword (objectionStored d)
      (env.callback (ses.log ++ l₁) env.sd (namesOffered user authzid)) with e | (_ | p)
    · rw [hz] at hs
      simp only [← List.append_assoc]
      refine run (.err e) ((⟨flag, authzid, user, cnonce⟩ : ClientFirst).gs2Header ++ data)
        ⟨⟨[], sched⟩, ses.rng, ses.slot, ses.log ++ l₁ ++ l₂⟩ ?_
      unfold handleClientFirst
      rw [namesOffered_eq]
      exact (M.bind_ok hb).trans (M.bind_err hs)
    · rw [hz] at hs
      simp only [came, Option.map_none] at hs
      simp only [← List.append_assoc]
      obtain ⟨sc, -, h6⟩ := M.writeVectored_cooperative (ServerFirst.ioslices ⟨cnonce,
          some (((List.range nonceLen).map ses.rng).map nonceChar), Base64.encode (madeUpSalt ses.rng), b!"16384"⟩)
        ((none, (⟨flag, authzid, user, cnonce⟩ : ClientFirst).gs2Header ++ data) : Hdr)
        ⟨⟨[], sched⟩, fun i => ses.rng (i + 56), ses.slot, ses.log ++ l₁ ++ l₂⟩ hw
      refine (run (.ok (.waitingClientFinal none)) ((⟨flag, authzid, user, cnonce⟩ : ClientFirst).gs2Header ++ data)
        ⟨⟨[] ++ (ServerFirst.ioslices ⟨cnonce, some (((List.range nonceLen).map ses.rng).map nonceChar),
            Base64.encode (madeUpSalt ses.rng), b!"16384"⟩).flatten, sc⟩,
          fun i => ses.rng (i + 56), ses.slot, ses.log ++ l₁ ++ l₂⟩ ?_).trans ?_
      · unfold handleClientFirst
        rw [namesOffered_eq]
        refine (M.bind_ok hb).trans ((M.bind_ok hs).trans ((M.bind_ok (generateNonce_apply ..)).trans ?_))
        refine (M.bind_ok (M.draw_apply ..)).trans ?_
        have hm : (((List.range defaultSaltLen).map fun i => ses.rng (i + nonceLen)).map UInt8.ofNat) = madeUpSalt ses.rng := by
          rw [List.map_map]
          rfl
        exact (M.bind_ok (hm ▸ h6)).trans rfl
      · rw [hn, serverFirst_flatten]
        rfl
    · rw [hz] at hs
      simp only [came, Option.map_some] at hs
      simp only [← List.append_assoc]
      obtain ⟨sc, -, h6⟩ := M.writeVectored_cooperative (ServerFirst.ioslices ⟨cnonce,
          some (((List.range nonceLen).map ses.rng).map nonceChar), Base64.encode (StoredPassword.salt p),
          Str.bytes (Nat.toDigits 10 (StoredPassword.iterations p).toNat)⟩)
        ((none, (⟨flag, authzid, user, cnonce⟩ : ClientFirst).gs2Header ++ data) : Hdr)
        ⟨⟨[], sched⟩, fun i => ses.rng (i + 24), ses.slot, ses.log ++ l₁ ++ l₂⟩ hw
      refine (run (.ok (.waitingClientFinal (some
            { clientNonce := cnonce, serverNonce := ((List.range nonceLen).map ses.rng).map nonceChar,
              gs2Header := (⟨flag, authzid, user, cnonce⟩ : ClientFirst).gs2Header ++ data,
              username := user, authzid := authzid, salt := Base64.encode (StoredPassword.salt p),
              iterations := Str.bytes (Nat.toDigits 10 (StoredPassword.iterations p).toNat),
              storedKey := StoredPassword.storedKey p, serverKey := StoredPassword.serverKey p })))
        ((⟨flag, authzid, user, cnonce⟩ : ClientFirst).gs2Header ++ data)
        ⟨⟨[] ++ (ServerFirst.ioslices ⟨cnonce, some (((List.range nonceLen).map ses.rng).map nonceChar),
            Base64.encode (StoredPassword.salt p), Str.bytes (Nat.toDigits 10 (StoredPassword.iterations p).toNat)⟩).flatten, sc⟩,
          fun i => ses.rng (i + 24), ses.slot, ses.log ++ l₁ ++ l₂⟩ ?_).trans ?_
      · unfold handleClientFirst
        rw [namesOffered_eq]
        refine (M.bind_ok hb).trans ((M.bind_ok hs).trans ((M.bind_ok (generateNonce_apply ..)).trans ?_))
        exact (M.bind_ok h6).trans ((M.bind_ok (M.get_apply ..)).trans rfl)
      · rw [hn, serverFirst_flatten, gs2Header_eq]
        rfl

/-! ### Examples -/

section Examples

/-- Offers an empty authorization name and does not care about the objection. -/
def careless : Env :=
  { exampleEnv [] with callback := fun _ _ _ => (.satisfy .authzId [] fun _ => .satisfy .authId (c!"u,v") fun _ =>
      .satisfy .password (b!"p") fun _ => .satisfy .scramStoredPassword ⟨4096, b!"abc", [1], [2]⟩ fun _ =>
      .ret (.ok ()) : CbProg) }

/-- Its client sends a gs2 header no RFC allows. -/
example : ((⟨some (.initial .clientNoSupport), none, fun _ => 0, []⟩ : Session CS).step (client toyDigest) careless
    ⟨none, []⟩).1 = ⟨.ok .running, b!"n,a=,n=u=2Cv,r=!!!!!!!!!!!!!!!!!!!!!!!!"⟩ := by
  rw [C104_client_first toyDigest careless _ .clientNoSupport rfl ⟨none, []⟩ (by intro r hr; simp at hr)]
  rfl

/-- Neither is there a channel binding. -/
example : ((⟨some (.initial .supported), none, fun _ => 0, []⟩ : Session CS).step (client toyDigest) careless
    ⟨none, []⟩).1 = ⟨.err (.missingChannelBindingData (c!"tls-unique")), []⟩ := by
  rw [C104_client_first toyDigest careless _ .supported rfl ⟨none, []⟩ (by intro r hr; simp at hr)]
  rfl

/-- A password for a server's challenge. -/
example : ((⟨some (.clientFirst (b!"biws") (b!"abc") (c!"u")), none, fun _ => 0, []⟩ : Session CS).step (client toyDigest)
    careless ⟨some (b!"r=abcd,s=AAAA,i=1"), []⟩).1.res = .ok .running := by
  rw [C104_client_second toyDigest careless _ (b!"biws") (b!"abc") (c!"u") rfl (b!"r=abcd,s=AAAA,i=1") (b!"d") (b!"AAAA")
    (b!"1") [0, 0, 0] 1 ⟨by decide, by decide, by decide, by decide +kernel, ⟨c!"1", by decide,
      c!"1", .inl rfl, by decide, by decide, by decide⟩, by decide⟩ [] (by intro r hr; simp at hr)]
  rfl

/-- Keys of the wrong length. -/
example : ((⟨some (.clientFirst (b!"biws") (b!"abc") (c!"u")), none, fun _ => 0, []⟩ : Session CS).step (client toyDigest)
    (exampleEnv [⟨.scramCachedPassword, ⟨[], []⟩⟩]) ⟨some (b!"r=abcd,s=AAAA,i=1"), []⟩).1.res = .panic := by
  rw [C104_client_second toyDigest _ _ (b!"biws") (b!"abc") (c!"u") rfl (b!"r=abcd,s=AAAA,i=1") (b!"d") (b!"AAAA")
    (b!"1") [0, 0, 0] 1 ⟨by decide, by decide, by decide, by decide +kernel, ⟨c!"1", by decide,
      c!"1", .inl rfl, by decide, by decide, by decide⟩, by decide⟩ [] (by intro r hr; simp at hr)]
  rfl

/-- The server knows the user. -/
example : ((⟨some (.waitingClientFirst false), none, fun _ => 0, []⟩ : Session SS).step (server toyDigest) careless
    ⟨some (b!"n,,n=u,r=abc"), []⟩).1 = ⟨.ok .running, b!"r=abc!!!!!!!!!!!!!!!!!!!!!!!!,s=YWJj,i=4096"⟩ := by
  have h := C104_server_first toyDigest careless ⟨some (.waitingClientFirst false), none, fun _ => 0, []⟩ false rfl
    .notSupported none (c!"u") (b!"abc") (b!"n,,") [] ⟨b!"n", [], .notSupported, by decide, rfl, by decide⟩ (by decide)
    (by unfold Printable; decide) (by simp) [] (by intro r hr; simp at hr)
  exact (congrArg Prod.fst h).trans rfl

/-- The server has nothing to bind the channel to. -/
example : ((⟨some (.waitingClientFirst true), none, fun _ => 0, []⟩ : Session SS).step (server toyDigest) careless
    ⟨some (b!"p=tls-unique,,n=u,r=abc"), []⟩).1 = ⟨.err (.missingChannelBindingData (c!"tls-unique")), []⟩ := by
  have h := C104_server_first toyDigest careless ⟨some (.waitingClientFirst true), none, fun _ => 0, []⟩ true rfl
    (.used (b!"tls-unique")) none (c!"u") (b!"abc") (b!"p=tls-unique,,") []
    ⟨b!"p=tls-unique", [], .used _ (by unfold CbName; decide), by decide, rfl, by decide⟩ (by decide)
    (by unfold Printable; decide) (by simp) [] (by intro r hr; simp at hr)
  exact (congrArg Prod.fst h).trans rfl

/-- The client knows the server, whatever its callback makes of that. -/
example : ((⟨some (.serverFirst (b!"sig") [1] [2] [3] 1), none, fun _ => 0, []⟩ : Session CS).step (client toyDigest)
    careless ⟨some (b!"v=" ++ Base64.encode (b!"sig")), []⟩).1 = ⟨.ok (.finished .no), []⟩ := by
  rw [C104_client_last toyDigest careless _ (b!"sig") [1] [2] [3] 1 rfl]

end Examples

end Rsasl

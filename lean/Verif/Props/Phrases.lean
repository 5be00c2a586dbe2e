/-
C103: what the clients of PLAIN, LOGIN, EXTERNAL, ANONYMOUS, XOAUTH2 and OAUTHBEARER send, for every callback.
-/
import Verif.Spec.Phrases
import Verif.Props.GssSteps
import Verif.Model.Mech.Plain
import Verif.Model.Mech.OAuth

namespace Rsasl

open Spec

variable {S α : Type}

/-- `m` writes the message; if all goes well it returns `a` and leaves the state `s'`. -/
def Composes (env : Env) (ps : List Phrase) (m : M S α) (s : S) (a : α) (s' : S) : Prop :=
  ∀ w : World, Cooperative w.wr.sched → ∃ sched,
    let t := compose (fun log => env.callback log env.sd .empty) w.log ps
    m s w = (match t.result with | .ok () => .ok a | .error e => .err e,
      match t.result with | .ok () => s' | .error _ => s,
      { w with wr := ⟨w.wr.out ++ t.out, sched⟩, log := w.log ++ t.log })

theorem Composes.nil {env : Env} {m : M S α} {s s' : S} {a : α} (h : ∀ w, m s w = (.ok a, s', w)) :
    Composes env [] m s a s' := by
  intro w _
  exact ⟨w.wr.sched, by rw [h]; simp [compose]⟩

theorem Composes.say {env : Env} {ps : List Phrase} {m : M S α} {s s' : S} {a : α} (b : Bytes)
    (h : Composes env ps m s a s') : Composes env (.say b :: ps) (M.writeAll b >>= fun _ => m) s a s' := by
  intro w hw
  obtain ⟨sc, h1, h2⟩ := M.writeAll_patient b s w hw.patient
  obtain ⟨sc', h3⟩ := h { w with wr := ⟨w.wr.out ++ b, sc⟩ } (hw.suffix h1)
  refine ⟨sc', ?_⟩
  rw [M.bind_ok h2, h3]
  simp [compose]

/-- What is written for an answer. -/
def Writes (objection : β → Option SessionError) (text : β → Bytes) (f : β → M S Unit) : Prop :=
  ∀ v s (w : World), Cooperative w.wr.sched → ∃ sched, sched <:+ w.wr.sched ∧
    f v s w = match objection v with
      | none => (.ok (), s, { w with wr := ⟨w.wr.out ++ text v, sched⟩ })
      | some e => (.err e, s, w)

theorem maybeNeedWith_said {p : Property} {f : p.Value → M S Unit} {obj : p.Value → Option SessionError}
    {text : p.Value → Bytes} (hf : Writes obj text f) (env : Env) (ctx : Provider) (s : S) (w : World)
    (hw : Cooperative w.wr.sched) : ∃ sched, sched <:+ w.wr.sched ∧
    maybeNeedWith env p ctx f s w =
      (match settled p obj (env.callback w.log env.sd ctx) with | .ok v => .ok (v.map fun _ => ()) | .error e => .err e,
        s, { w with
          wr := ⟨w.wr.out ++ said p obj text (env.callback w.log env.sd ctx), sched⟩,
          log := w.log ++ settledLog p obj ctx (env.callback w.log env.sd ctx) }) := by
  have h := C17_exact env p ctx f s w
  unfold settled settledLog said
  generalize beginning p 0 (env.callback w.log env.sd ctx) = b at h
  rcases b with ⟨n, r⟩ | ⟨n, v, k⟩
  · simp only at h ⊢
    refine ⟨w.wr.sched, List.suffix_refl _, ?_⟩
    rw [h]
    cases complaint r <;> simp [World.addLog, evaluations]
  · simp only at h ⊢
    obtain ⟨sc, hsc, hfv⟩ := hf v s (w.addLog (.asked p ctx :: evaluations p n ++ [.answered p v])) hw
    cases ho : obj v with
    | none =>
      refine ⟨sc, hsc, ?_⟩
      rw [ho] at hfv
      rw [hfv] at h
      simp only at h
      rw [h]
      simp only [if_true, Option.getD_none]
      generalize sequel p (k (.error (.callbackError .earlyReturn))) = t
      cases complaint t.result with
      | none => by_cases ht : t.answers = 0 <;> simp [ht, World.addLog, evaluations]
      | some e => simp [World.addLog, evaluations]
    | some e =>
      refine ⟨w.wr.sched, List.suffix_refl _, ?_⟩
      rw [ho] at hfv
      rw [hfv] at h
      simp only at h
      rw [h]
      simp only [reduceCtorEq, if_false, Option.getD_some]
      generalize sequel p (k (.error e)) = t
      cases complaint t.result <;> simp [World.addLog, evaluations]

theorem Composes.ask {env : Env} {ps : List Phrase} {p : Property} {f : p.Value → M S Unit}
    {obj : p.Value → Option SessionError} {text : p.Value → Bytes} (hf : Writes obj text f) {m : Option Unit → M S α}
    {s s' : S} {a : α} (h : ∀ x, Composes env ps (m x) s a s') :
    Composes env (.ask p false obj text :: ps) (maybeNeedWith env p .empty f >>= m) s a s' := by
  intro w hw
  obtain ⟨sc, hsc, he⟩ := maybeNeedWith_said hf env .empty s w hw
  cases hs : settled p obj (env.callback w.log env.sd .empty) with
  | error e =>
    rw [hs] at he
    refine ⟨sc, ?_⟩
    rw [M.bind_err he]
    simp [compose, hs]
  | ok v =>
    rw [hs] at he
    obtain ⟨sc', hn⟩ := h (v.map fun _ => ()) { w with
      wr := ⟨w.wr.out ++ said p obj text (env.callback w.log env.sd .empty), sc⟩
      log := w.log ++ settledLog p obj .empty (env.callback w.log env.sd .empty) } (hw.suffix hsc)
    refine ⟨sc', ?_⟩
    rw [M.bind_ok he, hn]
    cases v <;> simp [compose, hs]

theorem Composes.need {env : Env} {ps : List Phrase} {p : Property} {f : p.Value → M S Unit}
    {obj : p.Value → Option SessionError} {text : p.Value → Bytes} (hf : Writes obj text f) {m : Unit → M S α}
    {s s' : S} {a : α} (h : Composes env ps (m ()) s a s') :
    Composes env (.ask p true obj text :: ps) (needWith env p .empty f >>= m) s a s' := by
  intro w hw
  obtain ⟨sc, hsc, he⟩ := maybeNeedWith_said hf env .empty s w hw
  cases hs : settled p obj (env.callback w.log env.sd .empty) with
  | error e =>
    rw [hs] at he
    refine ⟨sc, ?_⟩
    unfold needWith
    rw [M.bind_err (M.bind_err he)]
    simp [compose, hs]
  | ok v =>
    rw [hs] at he
    cases v with
    | none =>
      refine ⟨sc, ?_⟩
      unfold needWith
      rw [M.bind_err (by rw [M.bind_ok he]; rfl)]
      simp [compose, hs]
    | some v =>
      obtain ⟨sc', hn⟩ := h { w with
        wr := ⟨w.wr.out ++ said p obj text (env.callback w.log env.sd .empty), sc⟩
        log := w.log ++ settledLog p obj .empty (env.callback w.log env.sd .empty) } (hw.suffix hsc)
      refine ⟨sc', ?_⟩
      unfold needWith
      rw [M.bind_ok (by rw [M.bind_ok he]; rfl), hn]
      simp [compose, hs]

theorem Writes.all (text : β → Bytes) : Writes (S := S) fine text fun v => M.writeAll (text v) := by
  intro v s w hw
  exact M.writeAll_patient (text v) s w hw.patient

theorem Writes.vectored (bufs : β → List Bytes) (text : β → Bytes) (h : ∀ v, (bufs v).flatten = text v) :
    Writes (S := S) fine text fun v => M.writeVectored (bufs v) := by
  intro v s w hw
  obtain ⟨sc, h1, h2⟩ := M.writeVectored_cooperative (bufs v) s w hw
  rw [h] at h2
  exact ⟨sc, h1, h2⟩

/-- How a step that composes a message ends. -/
theorem Composes.step {mech : Mech} {env : Env} {ps : List Phrase} {ses : Session mech.S} {a : State} {s' : mech.S}
    {c : Call} (h : Composes env ps (mech.step env c.input) ses.st a s') (hc : Cooperative c.sched) :
    let t := compose (fun log => env.callback log env.sd .empty) ses.log ps
    ses.step mech env c =
      (⟨match t.result with | .ok () => .ok a | .error e => .err e, t.out⟩,
        { ses with st := match t.result with | .ok () => s' | .error _ => ses.st, log := ses.log ++ t.log }) := by
  obtain ⟨sc, h⟩ := h ⟨⟨[], c.sched⟩, ses.rng, ses.slot, ses.log⟩ hc
  simp only [List.nil_append] at h
  exact step_of h

/-! ### The clients -/

/-- C103, PLAIN -/
theorem C103_plain (env : Env) (ses : Session Unit) (c : Call) (hc : Cooperative c.sched) :
    let t := compose (fun log => env.callback log env.sd .empty) ses.log plainPhrases
    ses.step Plain.client env c =
      (⟨match t.result with | .ok () => .ok (.finished .yes) | .error e => .err e, t.out⟩,
        { ses with log := ses.log ++ t.log }) := by
  have h1 : Writes objectionNul Str.bytes Plain.clientAuthzid := by
    intro v s w hw
    obtain ⟨sc, h1, h2⟩ := M.writeAll_patient (Str.bytes v) s w hw.patient
    refine ⟨sc, h1, ?_⟩
    unfold Plain.clientAuthzid objectionNul
    by_cases hv : '\x00' ∈ v <;> simp [hv, h2, Plain.plainErr]
  have h2 : Writes objectionName Str.bytes Plain.clientAuthid := by
    intro v s w hw
    obtain ⟨sc, h1, h2⟩ := M.writeAll_patient (Str.bytes v) s w hw.patient
    refine ⟨sc, h1, ?_⟩
    unfold Plain.clientAuthid objectionName objectionNul
    by_cases h0 : v = [] <;> by_cases hv : '\x00' ∈ v <;> simp [h0, hv, h2, Plain.plainErr]
  have h3 : Writes objectionPassword id Plain.clientPassword := by
    intro v s w hw
    obtain ⟨sc, h1, h2⟩ := M.writeAll_patient v s w hw.patient
    refine ⟨sc, h1, ?_⟩
    unfold Plain.clientPassword objectionPassword
    by_cases h0 : v = [] <;> by_cases hv : 0 ∈ v <;> simp [h0, hv, h2, Plain.plainErr]
  have h : Composes env plainPhrases (Plain.clientStep env c.input) ses.st (.finished .yes) () := by
    unfold Plain.clientStep plainPhrases
    refine .ask h1 fun _ => ?_
    refine .say _ ?_
    refine .need h2 ?_
    refine .say _ ?_
    refine .need h3 ?_
    exact .nil fun _ => rfl
  exact Composes.step (mech := Plain.client) h hc

/-- C103, EXTERNAL -/
theorem C103_external (env : Env) (ses : Session Unit) (c : Call) (hc : Cooperative c.sched) :
    let t := compose (fun log => env.callback log env.sd .empty) ses.log externalPhrases
    ses.step External.client env c =
      (⟨match t.result with | .ok () => .ok (.finished .yes) | .error e => .err e, t.out⟩,
        { ses with log := ses.log ++ t.log }) :=
  Composes.step (mech := External.client) (.ask (.all _) fun _ => .nil fun _ => rfl) hc

/-- C103, ANONYMOUS -/
theorem C103_anonymous (env : Env) (ses : Session Unit) (c : Call) (hc : Cooperative c.sched) :
    let t := compose (fun log => env.callback log env.sd .empty) ses.log anonymousPhrases
    ses.step Anonymous.client env c =
      (⟨match t.result with | .ok () => .ok (.finished .yes) | .error e => .err e, t.out⟩,
        { ses with log := ses.log ++ t.log }) :=
  Composes.step (mech := Anonymous.client) (.ask (.all _) fun _ => .nil fun _ => rfl) hc

/-- C103, LOGIN -/
theorem C103_login (env : Env) (ses : Session Login.CState) (c : Call) (hc : Cooperative c.sched) :
    (ses.st = .authid →
      let t := compose (fun log => env.callback log env.sd .empty) ses.log loginName
      ses.step Login.client env c =
        (⟨match t.result with | .ok () => .ok .running | .error e => .err e, t.out⟩,
          { ses with st := match t.result with | .ok () => .password | .error _ => ses.st,
                     log := ses.log ++ t.log })) ∧
    (ses.st = .password →
      let t := compose (fun log => env.callback log env.sd .empty) ses.log loginPassword
      ses.step Login.client env c =
        (⟨match t.result with | .ok () => .ok (.finished .yes) | .error e => .err e, t.out⟩,
          { ses with st := match t.result with | .ok () => .done | .error _ => ses.st, log := ses.log ++ t.log })) := by
  constructor
  · intro hs
    refine Composes.step (mech := Login.client) ?_ hc
    show Composes env _ (Login.clientStep env c.input) _ _ _
    intro w hw
    obtain ⟨sc, h⟩ := Composes.need (env := env) (ps := []) (p := .authId) (.all Str.bytes)
      (m := fun _ => do M.set Login.CState.password; pure State.running) (s := ses.st) (.nil fun _ => rfl) w hw
    exact ⟨sc, by unfold Login.clientStep; rw [M.bind_ok (M.get_apply ..)]; simp only [hs] at h ⊢; exact h⟩
  · intro hs
    refine Composes.step (mech := Login.client) ?_ hc
    show Composes env _ (Login.clientStep env c.input) _ _ _
    intro w hw
    obtain ⟨sc, h⟩ := Composes.need (env := env) (ps := []) (p := .password) (.all id)
      (m := fun _ => do M.set Login.CState.done; pure (State.finished .yes)) (s := ses.st) (.nil fun _ => rfl) w hw
    exact ⟨sc, by unfold Login.clientStep; rw [M.bind_ok (M.get_apply ..)]; simp only [hs] at h ⊢; exact h⟩

/-- C103, XOAUTH2 -/
theorem C103_xoauth2 (env : Env) (ses : Session OAuthCState) (c : Call) (hc : Cooperative c.sched)
    (hs : ses.st = .initial) :
    let t := compose (fun log => env.callback log env.sd .empty) ses.log xoauth2Phrases
    ses.step XOAuth2.client env c =
      (⟨match t.result with | .ok () => .ok .running | .error e => .err e, t.out⟩,
        { ses with st := match t.result with | .ok () => .waitingServerResponse | .error _ => ses.st,
                   log := ses.log ++ t.log }) := by
  refine Composes.step (mech := XOAuth2.client) ?_ hc
  show Composes env _ (XOAuth2.clientStep env c.input) _ _ _
  intro w hw
  have h : Composes env xoauth2Phrases (do
      needWith env .authId .empty (fun authid =>
        M.writeVectored [XOAuth2.userPrefix, Str.bytes authid, XOAuth2.authPrefix])
      needWith env .oauthBearerToken .empty (fun token => M.writeVectored [Str.bytes token, XOAuth2.endMark])
      M.set OAuthCState.waitingServerResponse
      pure State.running) OAuthCState.initial .running .waitingServerResponse := by
    unfold xoauth2Phrases
    refine .need ?_ ?_
    · exact .vectored _ _ fun s => by simp [XOAuth2.userPrefix, XOAuth2.authPrefix]
    refine .need ?_ ?_
    · exact .vectored _ _ fun s => by simp [XOAuth2.endMark]
    exact .nil fun _ => rfl
  obtain ⟨sc, h⟩ := h w hw
  exact ⟨sc, by unfold XOAuth2.clientStep; rw [M.bind_ok (M.get_apply ..)]; simp only [hs] at h ⊢; exact h⟩

theorem writeKVs_cooperative : ∀ (kvs : List (Str × Str)) (s : S) (w : World), Cooperative w.wr.sched →
    ∃ sched, sched <:+ w.wr.sched ∧ OAuthBearer.writeKVs kvs s w = (.ok (), s, { w with
      wr := ⟨w.wr.out ++ kvs.flatMap (fun kv => b!"\x01" ++ Str.bytes kv.1 ++ b!"=" ++ Str.bytes kv.2), sched⟩ }) := by
  intro kvs
  induction kvs with
  | nil => exact fun s w _ => ⟨w.wr.sched, List.suffix_refl _, by simp [OAuthBearer.writeKVs]⟩
  | cons kv kvs ih =>
    intro s w hw
    obtain ⟨sc, h1, h2⟩ := M.writeVectored_cooperative [[1], Str.bytes kv.1, b!"=", Str.bytes kv.2] s w hw
    obtain ⟨k, v⟩ := kv
    obtain ⟨sc', h3, h4⟩ := ih s
      { w with wr := ⟨w.wr.out ++ [[1], Str.bytes k, b!"=", Str.bytes v].flatten, sc⟩ } (hw.suffix h1)
    refine ⟨sc', h3.trans h1, ?_⟩
    unfold OAuthBearer.writeKVs
    rw [M.bind_ok h2, h4]
    simp

/-- C103, OAUTHBEARER -/
theorem C103_oauthbearer (json : OAuthBearer.Json) (env : Env) (ses : Session OAuthCState) (c : Call)
    (hc : Cooperative c.sched) (hs : ses.st = .initial) :
    let t := compose (fun log => env.callback log env.sd .empty) ses.log oauthbearerPhrases
    ses.step (OAuthBearer.client json) env c =
      (⟨match t.result with | .ok () => .ok .running | .error e => .err e, t.out⟩,
        { ses with st := match t.result with | .ok () => .waitingServerResponse | .error _ => ses.st,
                   log := ses.log ++ t.log }) := by
  refine Composes.step (mech := OAuthBearer.client json) ?_ hc
  show Composes env _ (OAuthBearer.clientStep json env c.input) _ _ _
  intro w hw
  have hz : Writes (S := OAuthCState) fine (fun s => b!"a=" ++ Str.bytes s)
      fun authzid => (do M.writeAll (b!"a="); M.writeAll (Str.bytes authzid)) := by
    intro v s w hw
    obtain ⟨sc, h1, h2⟩ := M.writeAll_patient (b!"a=") s w hw.patient
    obtain ⟨sc', h3, h4⟩ := M.writeAll_patient (Str.bytes v) s
      { w with wr := ⟨w.wr.out ++ b!"a=", sc⟩ } (hw.suffix h1).patient
    refine ⟨sc', h3.trans h1, ?_⟩
    simp only [fine]
    rw [M.bind_ok h2, h4]
    simp
  have h : Composes env oauthbearerPhrases (do
      M.writeAll (b!"n,")
      let _ ← maybeNeedWith env .authzId .empty (fun authzid => do
        M.writeAll (b!"a=")
        M.writeAll (Str.bytes authzid))
      M.writeAll (b!",")
      let _ ← maybeNeedWith env .oauthBearerKV .empty OAuthBearer.writeKVs
      needWith env .oauthBearerToken .empty (fun token =>
        M.writeVectored [XOAuth2.authPrefix, Str.bytes token, XOAuth2.endMark])
      M.set OAuthCState.waitingServerResponse
      pure State.running) OAuthCState.initial .running .waitingServerResponse := by
    unfold oauthbearerPhrases
    refine .say _ ?_
    refine .ask hz fun _ => ?_
    refine .say _ ?_
    refine .ask (fun kvs s w hw => writeKVs_cooperative kvs s w hw) fun _ => ?_
    refine .need ?_ ?_
    · exact .vectored _ _ fun s => by simp [XOAuth2.authPrefix, XOAuth2.endMark]
    exact .nil fun _ => rfl
  obtain ⟨sc, h⟩ := h w hw
  exact ⟨sc, by unfold OAuthBearer.clientStep; rw [M.bind_ok (M.get_apply ..)]; simp only [hs] at h ⊢; exact h⟩

/-! ### Examples -/

section Examples

/-- Answers every request for a name, and once more; the password is only given once. -/
def insisting : Env :=
  { exampleEnv [] with callback := fun _ _ _ => (.satisfy .authId (c!"u") fun _ => .satisfy .authId (c!"v") fun _ =>
      .satisfy .password (b!"p") fun r => .ret r : CbProg) }

/-- The first answer is sent, and the step fails since nobody answered. -/
example : ((⟨.authid, none, fun _ => 0, []⟩ : Session Login.CState).step Login.client insisting ⟨none, []⟩).1 =
    ⟨.err (.callbackError (.noCallback .authId)), b!"u"⟩ := by
  rw [(C103_login insisting _ ⟨none, []⟩ (by intro r hr; simp at hr)).1 rfl]
  rfl

/-- The second step succeeds. -/
example : ((⟨.password, none, fun _ => 0, []⟩ : Session Login.CState).step Login.client insisting ⟨none, []⟩).1 =
    ⟨.ok (.finished .yes), b!"p"⟩ := by
  rw [(C103_login insisting _ ⟨none, []⟩ (by intro r hr; simp at hr)).2 rfl]
  rfl

/-- PLAIN: what was written stays written when the callback fails after its answer. -/
example : ((⟨(), none, fun _ => 0, []⟩ : Session Unit).step Plain.client
    { exampleEnv [] with callback := fun _ _ _ => .satisfy .authzId (c!"z") fun _ => .ret (.error .inputDataRequired) }
    ⟨none, [.accept 1]⟩).1 = ⟨.err .inputDataRequired, b!"z"⟩ := by
  rw [C103_plain _ _ ⟨none, [.accept 1]⟩ (by intro r hr; exact ⟨0, by simpa using hr⟩)]
  rfl

end Examples

end Rsasl

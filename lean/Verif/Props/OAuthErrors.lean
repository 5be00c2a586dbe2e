/-
C60: how OAUTHBEARER reports errors.
-/
import Verif.Spec.Json
import Verif.Props.OAuthGrammar

namespace Rsasl.OAuthBearer

open _root_.Rsasl.Spec

theorem writeJson_does {S : Type} (pieces : List Bytes) (s : S) :
    Does Patient (writeJson pieces) s () s pieces.flatten := by
  induction pieces with
  | nil => exact Does.pure _ _ _
  | cons piece rest ih =>
    intro w hw
    obtain ⟨sc, h1, h2⟩ := M.writeAll_patient piece s w hw
    obtain ⟨es, sc', h3, h4, h5⟩ := ih { w with wr := ⟨w.wr.out ++ piece, sc⟩ } (hw.suffix h1)
    refine ⟨es, sc', h3.trans h1, h4, ?_⟩
    unfold writeJson
    rw [M.bind_apply, M.attempt_apply, h2]
    simp only
    rw [h5]
    simp

/-- C60, server: told that the token is not accepted, it sends the error as JSON, asks validate and
reports `Running`; whatever comes next finishes the exchange without output. -/
theorem C60_server (json : Json) (senv : Env) (server : Session OAuthSState)
    (hs : server.st = .initial) (b : Bytes) (authzid : Option Str) (token : Str)
    (fields : List (Str × Str)) (hb : OAuthWire b authzid token fields) (error : OAuthBearerError)
    (hcb : senv.GivesAt (oauthbearerOffer authzid token fields) .oauthBearerValidate (.error error))
    (sched : List WResp) (hw : Patient sched) :
    let r := server.step (OAuthBearer.server json) senv ⟨some b, sched⟩
    (∃ ctx es, ctx.Exactly (oauthbearerOffer authzid token fields) ∧ validations es = [] ∧
      EndsValidated senv { server with log := server.log ++ es } ctx .running
        (json.ser error).flatten r) ∧
    ∀ c, r.2.step (OAuthBearer.server json) senv c = (⟨.ok (.finished .no), []⟩, r.2) := by
  have hp := (C52_parse _ _ _ _).2 hb
  generalize hm : (⟨authzid, token, fields⟩ : Msg) = m at hp
  have hx : (provider m).Exactly (oauthbearerOffer authzid token fields) := by
    rw [← hm]; exact provider_exactly _
  obtain ⟨es, hq, hnw⟩ := needWith_answers
    (w := ⟨⟨[], sched⟩, server.rng, server.slot, server.log⟩)
    (hcb server.log _ hx) (onResult json) OAuthSState.initial
  obtain ⟨es', sc, hsc, hval, hwr⟩ := writeJson_does (json.ser error) OAuthSState.initial
    ((⟨⟨[], sched⟩, server.rng, server.slot, server.log⟩ : World).addLog
      (.asked .oauthBearerValidate (provider m) :: es ++
        [.answered .oauthBearerValidate (.error error)])) hw
  have hnw := hnw .running .errored _ (by
    show onResult json (.error error) _ _ = _
    unfold onResult
    simp only
    rw [M.bind_ok hwr, M.bind_ok (M.set_apply ..)]
    rfl)
  have key := endsValidated' (env := senv) (ses := server) (ctx := provider m)
    (st := .running) (s₁ := .errored) (s' := .errored)
    (m := serverStep json senv (some b))
    (sched := sched) (sched' := sc) (out := (json.ser error).flatten)
    (es₀ := .asked .oauthBearerValidate (provider m) :: es ++
        [.answered .oauthBearerValidate (.error error)] ++ es') (by
      rintro w rfl
      unfold serverStep
      rw [hs, M.bind_ok (M.get_apply ..)]
      simp only
      rw [M.bind_ok (M.okOr_some ..), hp]
      simp only
      rw [M.bind_ok hnw]
      simp only [World.addLog, List.nil_append, List.append_assoc]
      rw [M.bind_apply, M.bind_apply]
      obtain ⟨es'', _, hv⟩ := validate_eq senv (provider m) OAuthSState.errored
        ⟨⟨(json.ser error).flatten, sc⟩, server.rng, server.slot, server.log ++
          (.asked .oauthBearerValidate (provider m) :: es ++
            ([.answered .oauthBearerValidate (.error error)] ++ es'))⟩
      rw [hv]
      generalize Spec.returned _ _ _ = x
      rcases x with e | u <;> rfl)
  refine ⟨⟨_, _, hx, ?_, key.1⟩, ?_⟩
  · rw [validations_append, validations_asked _ _ hq _, hval]; rfl
  intro c
  have hst : (server.step (OAuthBearer.server json) senv ⟨some b, sched⟩).2.st
      = OAuthSState.errored := by
    by_cases hr : (server.step (OAuthBearer.server json) senv ⟨some b, sched⟩).1.res = .ok .running
    · exact key.2.1 hr
    · exact key.2.2 hr
  generalize server.step (OAuthBearer.server json) senv ⟨some b, sched⟩ = r at hst
  obtain ⟨r, st, slot, rng, log⟩ := r
  simp only at hst
  subst hst
  rfl

/-- C60, server: told that the token is accepted, it writes nothing, asks validate and finishes. -/
theorem C60_server_ok (json : Json) (senv : Env) (server : Session OAuthSState)
    (hs : server.st = .initial) (b : Bytes) (authzid : Option Str) (token : Str)
    (fields : List (Str × Str)) (hb : OAuthWire b authzid token fields)
    (hcb : senv.GivesAt (oauthbearerOffer authzid token fields) .oauthBearerValidate (.ok ()))
    (sched : List WResp) :
    ∃ ctx es, ctx.Exactly (oauthbearerOffer authzid token fields) ∧ validations es = [] ∧
      EndsValidated senv { server with log := server.log ++ es } ctx (.finished .no) []
        (server.step (OAuthBearer.server json) senv ⟨some b, sched⟩) := by
  have hp := (C52_parse _ _ _ _).2 hb
  generalize hm : (⟨authzid, token, fields⟩ : Msg) = m at hp
  have hx : (provider m).Exactly (oauthbearerOffer authzid token fields) := by
    rw [← hm]; exact provider_exactly _
  obtain ⟨es, hq, hnw⟩ := needWith_answers
    (w := ⟨⟨[], sched⟩, server.rng, server.slot, server.log⟩)
    (hcb server.log _ hx) (onResult json) OAuthSState.initial
  have hnw := hnw (.finished .no) .initial _ rfl
  have key := endsValidated' (env := senv) (ses := server) (ctx := provider m)
    (st := .finished .no) (s₁ := .initial) (s' := .initial)
    (m := serverStep json senv (some b))
    (sched := sched) (sched' := sched) (out := [])
    (es₀ := .asked .oauthBearerValidate (provider m) :: es ++
        [.answered .oauthBearerValidate (.ok ())]) (by
      rintro w rfl
      unfold serverStep
      rw [hs, M.bind_ok (M.get_apply ..)]
      simp only
      rw [M.bind_ok (M.okOr_some ..), hp]
      simp only
      rw [M.bind_ok hnw]
      simp only [World.addLog]
      rw [M.bind_apply, M.bind_apply]
      obtain ⟨es', _, hv⟩ := validate_eq senv (provider m) OAuthSState.initial
        ⟨⟨[], sched⟩, server.rng, server.slot, server.log ++
          (.asked .oauthBearerValidate (provider m) :: es ++
            [.answered .oauthBearerValidate (.ok ())])⟩
      rw [hv]
      generalize Spec.returned _ _ _ = x
      rcases x with e | u <;> rfl)
  exact ⟨_, _, hx, validations_asked _ _ hq _, key.1⟩

/-- C60, client: the reaction to the server's response, for every callback. An empty or absent one
finishes with nothing to send and no call. If `serde_json` can read it, the error is offered to
the callback once; the step succeeds only if it was taken, and fails otherwise. If it can't be read the step fails
without a call. In every case nothing is written and the exchange is over. -/
theorem C60_client (json : Json) (env : Env) (client : Session OAuthCState)
    (hs : client.st = .waitingServerResponse) (c : Call) :
    let r := client.step (OAuthBearer.client json) env c
    r.2.st = .done ∧ r.1.out = [] ∧
    ((c.input.getD [] = [] ∧ r.1.res = .ok (.finished .no) ∧ r.2.log = client.log) ∨
     (c.input.getD [] ≠ [] ∧ json.de (c.input.getD []) = none ∧
       r.1.res = .err (.mechanismError .oauthSerde) ∧ r.2.log = client.log) ∨
     ∃ error ctx, c.input.getD [] ≠ [] ∧ json.de (c.input.getD []) = some error ∧
      ((r.2.log = client.log ++
          [.notified .oauthBearerErrored ctx, .delivered .oauthBearerErrored error] ∧
        (r.1.res = .ok (.finished .yes) ∨ ∃ e, r.1.res = .err e)) ∨
       (r.2.log = client.log ++ [.notified .oauthBearerErrored ctx] ∧ ∃ e, r.1.res = .err e))) := by
  unfold Session.step Session.exec
  simp only [OAuthBearer.client]
  unfold clientStep
  rw [hs, M.bind_ok (M.get_apply ..)]
  simp only
  rw [M.bind_ok (M.set_apply ..)]
  have ho : External.orEmpty c.input = c.input.getD [] := by cases c.input <;> rfl
  rw [ho]
  by_cases he : c.input.getD [] = []
  · rw [if_pos (by rw [he]; rfl)]
    exact ⟨rfl, rfl, .inl ⟨he, rfl, rfl⟩⟩
  · rw [if_neg (by simpa using he)]
    cases hf : json.de (c.input.getD []) with
    | none => exact ⟨rfl, rfl, .inr (.inl ⟨he, rfl, rfl, rfl⟩)⟩
    | some error =>
      rw [M.bind_ok (M.okOr_some ..), M.bind_apply]
      obtain ⟨o, ⟨h, rfl | ⟨e, rfl, _⟩⟩ | ⟨h, e, rfl, _⟩⟩ := C19_action env .oauthBearerErrored .empty
        error OAuthCState.done ⟨⟨[], c.sched⟩, client.rng, client.slot, client.log⟩
      · rw [h]
        exact ⟨rfl, rfl, .inr (.inr ⟨error, _, he, rfl, .inl ⟨rfl, .inl rfl⟩⟩)⟩
      · rw [h]
        exact ⟨rfl, rfl, .inr (.inr ⟨error, _, he, rfl, .inl ⟨rfl, .inr ⟨_, rfl⟩⟩⟩)⟩
      · rw [h]
        exact ⟨rfl, rfl, .inr (.inr ⟨error, _, he, rfl, .inr ⟨rfl, _, rfl⟩⟩)⟩

/-- The full statement of C60: the error the server's callback gives reaches the client's
callback. -/
def C60 : Prop :=
  ∀ (json : Json), Serde json → ∀ (cenv senv : Env) (client : Session OAuthCState)
    (server : Session OAuthSState) (b : Bytes) (authzid : Option Str) (token : Str)
    (fields : List (Str × Str)) (error : OAuthBearerError) (sched sched' : List WResp),
    client.st = .waitingServerResponse → server.st = .initial →
    OAuthWire b authzid token fields →
    senv.GivesAt (oauthbearerOffer authzid token fields) .oauthBearerValidate (.error error) →
    Patient sched →
    (∀ log ctx, Takes .oauthBearerErrored error (.ok ()) (cenv.callback log cenv.sd ctx)) →
    let r := server.step (OAuthBearer.server json) senv ⟨some b, sched⟩
    let c := client.step (OAuthBearer.client json) cenv ⟨some r.1.out, sched'⟩
    c.1.res = .ok (.finished .yes) ∧ ∃ ctx, c.2.log = client.log ++
      [.notified .oauthBearerErrored ctx, .delivered .oauthBearerErrored error]

/-- C60 for errors whose fields need no escape sequences in JSON. Missing: all others, for which it
is false (`C60_false_escaped`). -/
theorem C60_partial (json : Json) (hj : Serde json) (cenv senv : Env)
    (client : Session OAuthCState) (server : Session OAuthSState) (b : Bytes)
    (authzid : Option Str) (token : Str) (fields : List (Str × Str)) (error : OAuthBearerError)
    (hu : Unescaped error) (sched sched' : List WResp) (hc : client.st = .waitingServerResponse)
    (hs : server.st = .initial) (hb : OAuthWire b authzid token fields)
    (hcb : senv.GivesAt (oauthbearerOffer authzid token fields) .oauthBearerValidate (.error error))
    (hw : Patient sched)
    (ht : ∀ log ctx, Takes .oauthBearerErrored error (.ok ()) (cenv.callback log cenv.sd ctx)) :
    let r := server.step (OAuthBearer.server json) senv ⟨some b, sched⟩
    let c := client.step (OAuthBearer.client json) cenv ⟨some r.1.out, sched'⟩
    c.1.res = .ok (.finished .yes) ∧ ∃ ctx, c.2.log = client.log ++
      [.notified .oauthBearerErrored ctx, .delivered .oauthBearerErrored error] := by
  obtain ⟨⟨_, _, _, _, he⟩, _⟩ := C60_server json senv server hs b authzid token fields hb error hcb
    sched hw
  simp only [he.out, hj.writes]
  unfold Session.step Session.exec
  simp only [OAuthBearer.client]
  unfold clientStep External.orEmpty
  rw [hc, M.bind_ok (M.get_apply ..)]
  simp only
  rw [M.bind_ok (M.set_apply ..), if_neg (by simp [errorText]), hj.reads _ hu,
    M.bind_ok (M.okOr_some ..),
    M.bind_ok (C19_taken cenv .oauthBearerErrored .empty error _ (.ok ()) (by simp) (ht _ _) _)]
  exact ⟨rfl, _, rfl⟩

/-- An error with a character that JSON escapes never reaches the client's callback: the client
fails instead. -/
theorem C60_false_escaped (json : Json) (hj : Serde json) (cenv senv : Env)
    (client : Session OAuthCState) (server : Session OAuthSState) (b : Bytes)
    (authzid : Option Str) (token : Str) (fields : List (Str × Str)) (error : OAuthBearerError)
    (hu : ¬ Unescaped error) (sched sched' : List WResp) (hc : client.st = .waitingServerResponse)
    (hs : server.st = .initial) (hb : OAuthWire b authzid token fields)
    (hcb : senv.GivesAt (oauthbearerOffer authzid token fields) .oauthBearerValidate (.error error))
    (hw : Patient sched) :
    let r := server.step (OAuthBearer.server json) senv ⟨some b, sched⟩
    let c := client.step (OAuthBearer.client json) cenv ⟨some r.1.out, sched'⟩
    c.1.res = .err (.mechanismError .oauthSerde) ∧ c.2.log = client.log := by
  obtain ⟨⟨_, _, _, _, he⟩, _⟩ := C60_server json senv server hs b authzid token fields hb error hcb
    sched hw
  simp only [he.out, hj.writes]
  have hne : errorText error ≠ [] := by simp [errorText]
  obtain ⟨_, _, ⟨h, _⟩ | ⟨_, _, h1, h2⟩ | ⟨_, _, _, h, _⟩⟩ :=
    C60_client json cenv client hc ⟨some (errorText error), sched'⟩
  · exact absurd h hne
  · exact ⟨h1, h2⟩
  · simp only [Option.getD_some, hj.borrows _ hu, reduceCtorEq] at h

/-! ### A reader for these texts, to show that the assumptions on `serde_json` can be met -/

/-- A string up to its closing quote; no escape sequences. -/
def cutStr : Bytes → Option (Bytes × Bytes)
  | [] => none
  | b :: r =>
    if b = 34 then some ([], r)
    else if b = 92 then none
    else (cutStr r).map fun x => (b :: x.1, x.2)

/-- An optional member. -/
def cutMember (key : Bytes) (b : Bytes) : Option (Option Str × Bytes) :=
  match stripPrefix (b!",\"" ++ key ++ b!"\":\"") b with
  | none => some (none, b)
  | some r =>
    match cutStr r with
    | none => none
    | some (v, r) => (fromUtf8 v).map fun v => (some v, r)

/-- A whole text. -/
def readError (b : Bytes) : Option OAuthBearerError := do
  let r ← stripPrefix (b!"{\"status\":\"") b
  let (status, r) ← cutStr r
  let status ← fromUtf8 status
  let (scope, r) ← cutMember (b!"scope") r
  let (config, r) ← cutMember (b!"openid-configuration") r
  if r = b!"}" then some ⟨status, scope, config⟩ else none

/-- The example. -/
def exampleJson : Json := ⟨fun e => [errorText e], readError⟩

theorem cutStr_append (p r : Bytes) (h1 : (34 : UInt8) ∉ p) (h2 : (92 : UInt8) ∉ p) :
    cutStr (p ++ r) = (cutStr r).map fun x => (p ++ x.1, x.2) := by
  induction p with
  | nil => simp
  | cons b p ih =>
    simp only [List.mem_cons, not_or] at h1 h2
    rw [List.cons_append, cutStr, if_neg (Ne.symm h1.1), if_neg (Ne.symm h2.1), ih h1.2 h2.2]
    cases cutStr r <;> rfl

theorem jsonChar_escaped {c : Char} (h : NeedsEscape c) : ∃ r, jsonChar c = '\\' :: r := by
  unfold jsonChar
  rw [if_pos h]
  repeat' split
  all_goals exact ⟨_, rfl⟩

theorem cutStr_jsonStr (s : Str) (r : Bytes) :
    cutStr (Str.bytes (s.flatMap jsonChar) ++ 34 :: r) =
      if ∀ c ∈ s, ¬ NeedsEscape c then some (Str.bytes s, r) else none := by
  induction s with
  | nil => simp [cutStr, Str.bytes]
  | cons c s ih =>
    rw [List.flatMap_cons, Str.bytes_append, List.append_assoc]
    by_cases h : NeedsEscape c
    · rw [if_neg (fun h' => h' c (by simp) h)]
      obtain ⟨t, ht⟩ := jsonChar_escaped h
      rw [ht]
      rfl
    · have hc : jsonChar c = [c] := by unfold jsonChar; rw [if_neg h]
      have h34 : (34 : UInt8) ∉ Str.bytes [c] := by
        rw [show ((34 : UInt8) ∈ Str.bytes [c]) = _ from propext (mem_bytes_ascii (by decide) [c])]
        intro hm
        apply h
        left
        exact (List.mem_singleton.1 hm).symm
      have h92 : (92 : UInt8) ∉ Str.bytes [c] := by
        rw [show ((92 : UInt8) ∈ Str.bytes [c]) = _ from propext (mem_bytes_ascii (by decide) [c])]
        intro hm
        apply h
        right; left
        exact (List.mem_singleton.1 hm).symm
      rw [hc, cutStr_append _ _ h34 h92, ih]
      by_cases hs : ∀ c ∈ s, ¬ NeedsEscape c
      · rw [if_pos hs, if_pos (by simpa [h] using hs)]
        simp [← Str.bytes_append]
      · rw [if_neg hs, if_neg (fun h' => hs fun c hc => h' c (by simp [hc]))]
        rfl

theorem cutMember_some (key : Bytes) (v : Str) (rest : Bytes) :
    cutMember key (jsonMember key (some v) ++ rest) =
      if ∀ c ∈ v, ¬ NeedsEscape c then some (some v, rest) else none := by
  have : jsonMember key (some v) ++ rest = (b!",\"" ++ key ++ b!"\":\"") ++
      (Str.bytes (v.flatMap jsonChar) ++ 34 :: rest) := by
    simp [jsonMember, jsonStr]
  unfold cutMember
  rw [this, stripPrefix_append]
  simp only
  rw [cutStr_jsonStr]
  by_cases h : ∀ c ∈ v, ¬ NeedsEscape c
  · rw [if_pos h, if_pos h]
    simp only [fromUtf8_bytes, Option.map_some]
  · rw [if_neg h, if_neg h]

theorem cutMember_none (key rest : Bytes)
    (h : stripPrefix (b!",\"" ++ key ++ b!"\":\"") rest = none) :
    cutMember key (jsonMember key none ++ rest) = some (none, rest) := by
  unfold cutMember
  rw [show jsonMember key none ++ rest = rest from rfl, h]

theorem cutMember_scope (scope config : Option Str) :
    cutMember (b!"scope") (jsonMember (b!"scope") scope ++
        (jsonMember (b!"openid-configuration") config ++ b!"}")) =
      if ∀ s ∈ scope, ∀ c ∈ s, ¬ NeedsEscape c then
        some (scope, jsonMember (b!"openid-configuration") config ++ b!"}") else none := by
  cases scope with
  | some v =>
    rw [cutMember_some]
    simp
  | none =>
    rw [if_pos (by simp)]
    exact cutMember_none _ _ (by cases config <;> rfl)

theorem cutMember_config (config : Option Str) :
    cutMember (b!"openid-configuration") (jsonMember (b!"openid-configuration") config ++ b!"}") =
      if ∀ s ∈ config, ∀ c ∈ s, ¬ NeedsEscape c then some (config, b!"}") else none := by
  cases config with
  | some v =>
    rw [cutMember_some]
    simp
  | none =>
    rw [if_pos (by simp)]
    exact cutMember_none _ _ rfl

theorem readError_text (e : OAuthBearerError) [Decidable (Unescaped e)] :
    readError (errorText e) = if Unescaped e then some e else none := by
  obtain ⟨status, scope, config⟩ := e
  have ht : errorText ⟨status, scope, config⟩ = b!"{\"status\":\"" ++
      (Str.bytes (status.flatMap jsonChar) ++ 34 :: (jsonMember (b!"scope") scope ++
        (jsonMember (b!"openid-configuration") config ++ b!"}"))) := by
    simp [errorText, jsonStr]
  unfold readError
  rw [ht, stripPrefix_append]
  simp only [Option.bind_eq_bind, Option.bind_some]
  rw [cutStr_jsonStr]
  by_cases h1 : ∀ c ∈ status, ¬ NeedsEscape c
  · rw [if_pos h1]
    simp only [Option.bind_some, fromUtf8_bytes]
    rw [cutMember_scope]
    by_cases h2 : ∀ s ∈ scope, ∀ c ∈ s, ¬ NeedsEscape c
    · rw [if_pos h2]
      simp only [Option.bind_some]
      rw [cutMember_config]
      by_cases h3 : ∀ s ∈ config, ∀ c ∈ s, ¬ NeedsEscape c
      · rw [if_pos h3, if_pos ⟨h1, h2, h3⟩]
        rfl
      · rw [if_neg h3, if_neg fun h => h3 h.2.2]
        rfl
    · rw [if_neg h2, if_neg fun h => h2 h.2.1]
      rfl
  · rw [if_neg h1, if_neg fun h => h1 h.1]
    rfl

open Classical in
theorem exampleJson_serde : Serde exampleJson where
  writes e := by simp [exampleJson]
  reads e h := by
    show readError (errorText e) = _
    rw [readError_text, if_pos h]
  borrows e h := by
    show readError (errorText e) = _
    rw [readError_text, if_neg h]

/-- A server's callback that refuses every token with a given error. -/
def refusing (error : OAuthBearerError) : Env :=
  exampleEnv [⟨.oauthBearerValidate, .error error⟩]

/-- A client's callback that takes the error. -/
def taking : Env :=
  { exampleEnv [] with callback := fun _ _ _ => .getAction .oauthBearerErrored fun _ => .ret (.ok ()) }

theorem refusing_gives (error : OAuthBearerError) (offer : (p : Property) → Option p.Value) :
    (refusing error).GivesAt offer .oauthBearerValidate (.error error) :=
  Env.Gives.at (fun _ _ => answers_answerAll _ [] _ rfl (by simp)) offer

theorem C60_false : ¬ C60 := by
  intro h
  have hw : OAuthWire (b!"n,,\x01auth=Bearer x\x01\x01") none (c!"Bearer x") [] :=
    (C52_parse _ _ _ _).1 rfl
  obtain ⟨h1, _⟩ := h exampleJson exampleJson_serde taking
    (refusing ⟨c!"the \"realm\" is closed", none, none⟩)
    { st := .waitingServerResponse, rng := fun _ => 0 } { st := .initial, rng := fun _ => 0 } _ none
    (c!"Bearer x") [] _ [] [] rfl rfl hw (refusing_gives _ _) (by unfold Patient; simp)
    (fun _ _ => .take _ rfl)
  obtain ⟨h2, _⟩ := C60_false_escaped exampleJson exampleJson_serde taking
    (refusing ⟨c!"the \"realm\" is closed", none, none⟩)
    { st := .waitingServerResponse, rng := fun _ => 0 } { st := .initial, rng := fun _ => 0 } _ none
    (c!"Bearer x") [] _ (fun h => h.1 '"' (by decide) (.inl rfl)) [] [] rfl rfl hw
    (refusing_gives _ _) (by unfold Patient; simp)
  rw [h2] at h1
  exact nomatch h1

/-- An error that does arrive. -/
example : Unescaped ⟨c!"invalid_token", some (c!"openid profile"),
    some (c!"https://example.com/.well-known/openid-configuration")⟩ := by
  refine ⟨?_, ?_, ?_⟩
  · decide
  · intro s hs
    cases hs
    decide
  · intro s hs
    cases hs
    decide

example : errorText ⟨c!"invalid_token", some (c!"a"), none⟩ =
    b!"{\"status\":\"invalid_token\",\"scope\":\"a\"}" := by
  decide +kernel

end Rsasl.OAuthBearer

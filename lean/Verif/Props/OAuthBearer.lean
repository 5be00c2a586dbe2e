/-
C14: OAUTHBEARER.
-/
import Verif.Model.Mech.OAuth
import Verif.Proofs.Bytes
import Verif.Proofs.Exec
import Verif.Proofs.Validate
import Verif.Props.XOAuth2

namespace Rsasl

/-! ## Specification -/

/-- What an OAUTHBEARER server has to offer to its callbacks for a client that was given these
values. -/
def Spec.oauthbearerOffer (authzid : Option Str) (token : Str) (kvs : List (Str × Str)) :
    (p : Property) → Option p.Value
  | .authzId => authzid
  | .oauthBearerToken => some token
  | .oauthBearerKV => some kvs
  | _ => none

/-- The authorization id in a gs2 header. -/
def Spec.gs2Authzid : Option Str → Bytes
  | some a => b!"a=" ++ Str.bytes a
  | none => []

/-- A key/value pair. -/
def Spec.kv (kv : Str × Str) : Bytes := Str.bytes kv.1 ++ b!"=" ++ Str.bytes kv.2

/-- Key/value pairs, each after its separator. -/
def Spec.kvs (kvs : List (Str × Str)) : Bytes := kvs.flatMap fun kv => 1 :: Spec.kv kv

/-- The initial response of OAUTHBEARER (RFC 7628, 3.1). -/
def Spec.oauthbearerMessage (authzid : Option Str) (token : Str) (kvs : List (Str × Str)) : Bytes :=
  b!"n," ++ (Spec.gs2Authzid authzid) ++ b!"," ++
    Spec.kvs kvs ++
    1 :: b!"auth=Bearer " ++ Str.bytes token ++ [1, 1]

theorem OAuthBearer.provider_exactly (m : OAuthBearer.Msg) :
    (OAuthBearer.provider m).Exactly (Spec.oauthbearerOffer m.authzid m.token m.fields) := by
  intro p
  obtain ⟨a, t, f⟩ := m
  cases a <;> cases p <;> rfl

/-! ## Client -/

theorem OAuthBearer.writeKVs_does {S : Type} (kvs : List (Str × Str)) (s : S) :
    Does Cooperative (OAuthBearer.writeKVs kvs) s () s
      (Spec.kvs kvs) := by
  induction kvs with
  | nil => exact Does.pure _ _ _
  | cons kv kvs ih =>
    obtain ⟨k, v⟩ := kv
    refine Does.bind' cooperative_closed (Does.writeVectored _ s) ih ?_
    simp [Spec.kvs, Spec.kv]

theorem OAuthBearer.client_does {json : OAuthBearer.Json} {env : Env} {authzid : Option Str}
    {token : Str} {kvs : Option (List (Str × Str))} (ha : env.Offers .authzId authzid)
    (hk : env.Offers .oauthBearerKV kvs) (ht : env.Gives .oauthBearerToken token)
    (input : Option Bytes) :
    Does Cooperative (OAuthBearer.clientStep json env input) .initial .running
      .waitingServerResponse (Spec.oauthbearerMessage authzid token (kvs.getD [])) := by
  have hC := cooperative_closed
  have h1 : ∃ g, Does Cooperative (maybeNeedWith env .authzId .empty (fun authzid => do
      M.writeAll (b!"a=")
      M.writeAll (Str.bytes authzid) : Str → M OAuthCState Unit)) .initial g .initial
      (Spec.gs2Authzid authzid) := by
    cases authzid with
    | none => exact ⟨_, Does.maybeNeed_none ha _ _ _⟩
    | some a =>
      exact ⟨_, Does.maybeNeed_some ha _ (Does.bind hC (Does.writeAll' _ _) (Does.writeAll' _ _))⟩
  have h2 : ∃ g, Does Cooperative (maybeNeedWith env .oauthBearerKV .empty
      (OAuthBearer.writeKVs : List (Str × Str) → M OAuthCState Unit)) .initial g .initial
      (Spec.kvs (kvs.getD [])) := by
    cases kvs with
    | none => exact ⟨_, Does.maybeNeed_none hk _ _ _⟩
    | some kvs => exact ⟨_, Does.maybeNeed_some hk _ (OAuthBearer.writeKVs_does _ _)⟩
  obtain ⟨g1, h1⟩ := h1
  obtain ⟨g2, h2⟩ := h2
  unfold OAuthBearer.clientStep
  refine Does.bind' hC (Does.get _ _)
    (o₂ := Spec.oauthbearerMessage authzid token (kvs.getD [])) ?_ rfl
  refine Does.bind' hC (Does.writeAll' _ _) (Does.bind hC h1 (Does.bind hC (Does.writeAll' _ _)
    (Does.bind hC h2 (Does.bind hC (Does.need ht _ (Does.writeVectored _ _))
      (Does.bind hC (Does.set _ _ _) (Does.pure _ _ _)))))) ?_
  simp only [Spec.oauthbearerMessage, XOAuth2.authPrefix, XOAuth2.endMark]
  simp

/-! ## Server -/

theorem OAuthBearer.writeJson_log {S : Type} (pieces : List Bytes) (s : S) (w : World) :
    (OAuthBearer.writeJson pieces s w).2.2.log = w.log := by
  induction pieces generalizing s w with
  | nil => rfl
  | cons piece rest ih =>
    unfold OAuthBearer.writeJson
    rw [M.bind_apply, M.attempt_apply]
    obtain ⟨n, sc, _, _, h | ⟨e, h⟩⟩ := M.writeAll_cases piece s w
    · rw [h]
      exact ih _ _
    · rw [h]
      rfl

theorem OAuthBearer.onResult_log (json : OAuthBearer.Json) (v : Except OAuthBearerError Unit)
    (s : OAuthSState) (w : World) : (OAuthBearer.onResult json v s w).2.2.log = w.log := by
  unfold OAuthBearer.onResult
  cases v with
  | ok u => rfl
  | error e =>
    simp only
    rw [M.bind_apply]
    have := OAuthBearer.writeJson_log (json.ser e) s w
    generalize OAuthBearer.writeJson (json.ser e) s w = x at this
    rcases x with ⟨_ | _ | _, s', w'⟩ <;> exact this

/-- A step that asks for the verdict and then validates. -/
theorem needThenValidate_log {S : Type} (env : Env) (p : Property) (ctx : Provider)
    (f : p.Value → M S State) (hf : ∀ v s w, (f v s w).2.2.log = w.log) (s : S) (w : World) :
    ∃ rest, ((do let st ← needWith env p ctx f; validate env ctx; pure st : M S State)
        s w).2.2.log = w.log ++ .asked p ctx :: rest ∧
      askedProps rest = [] ∧ (validations rest = [] ∨ validations rest = [ctx]) := by
  obtain ⟨rest, h1, h2, h3⟩ := needWith_log env p ctx f hf s w
  rw [M.bind_apply]
  generalize needWith env p ctx f s w = x at h1
  rcases x with ⟨st | e | _, s', w'⟩
  · simp only at h1 ⊢
    obtain ⟨es, hq, hv⟩ := validate_eq env ctx s' w'
    rw [M.bind_apply, hv]
    refine ⟨rest ++ .validated ctx :: es, ?_, ?_, .inr ?_⟩
    · generalize Spec.returned env.vtag w'.slot.isNone (env.validate w'.log env.sd ctx) = x
      rcases x with e | u <;> simp [h1]
    · have := hq.askedProps
      simp only [askedProps_append, h3, List.nil_append]
      unfold askedProps at this ⊢
      simp [this]
    · have := hq.validations
      simp only [validations_append, h2, List.nil_append]
      unfold validations at this ⊢
      simp [this]
  · exact ⟨rest, h1, h3, .inl h2⟩
  · exact ⟨rest, h1, h3, .inl h2⟩

theorem OAuthBearer.server_offers {json : OAuthBearer.Json} {senv : Env}
    {server : Session OAuthSState} (hst : server.st = .initial) {input : Bytes}
    {m : OAuthBearer.Msg} (h : OAuthBearer.Msg.parse input = .ok m) (sched : List WResp) :
    let r := server.step (OAuthBearer.server json) senv ⟨some input, sched⟩
    ∃ rest, r.2.log =
        server.log ++ .asked .oauthBearerValidate (OAuthBearer.provider m) :: rest ∧
      askedProps rest = [] ∧
      (validations rest = [] ∨ validations rest = [OAuthBearer.provider m]) := by
  unfold Session.step Session.exec
  simp only [OAuthBearer.server]
  unfold OAuthBearer.serverStep
  rw [hst, M.bind_ok (M.get_apply ..)]
  simp only
  rw [M.bind_ok (M.okOr_some ..), h]
  exact needThenValidate_log senv .oauthBearerValidate (OAuthBearer.provider m)
    (OAuthBearer.onResult json) (OAuthBearer.onResult_log json) _ _

/-! ## Parsing -/

theorem one_mem_bytes (s : Str) : (1 : UInt8) ∈ Str.bytes s ↔ '\x01' ∈ s := by
  rw [mem_bytes_ascii (by decide) s]; rfl

theorem comma_mem_bytes (s : Str) : (44 : UInt8) ∈ Str.bytes s ↔ ',' ∈ s := by
  rw [mem_bytes_ascii (by decide) s]; rfl

theorem equals_mem_bytes (s : Str) : (61 : UInt8) ∈ Str.bytes s ↔ '=' ∈ s := by
  rw [mem_bytes_ascii (by decide) s]; rfl

/-- Keys and values that survive: no separator in them, and a key other than `auth`. -/
def Spec.PlainKV (kv : Str × Str) : Prop :=
  '\x01' ∉ kv.1 ∧ '=' ∉ kv.1 ∧ kv.1 ≠ c!"auth" ∧ '\x01' ∉ kv.2 ∧ '=' ∉ kv.2

theorem OAuthBearer.parseKV_plain {kv : Str × Str} (h : Spec.PlainKV kv) (t : Option Str)
    (fields : List (Str × Str)) :
    OAuthBearer.parseKV t fields (Spec.kv kv) = .ok (t, fields ++ [kv]) := by
  obtain ⟨k, v⟩ := kv
  obtain ⟨h1, h2, h3, h4, h5⟩ := h
  simp only at h1 h2 h3 h4 h5
  have hpre : stripPrefix (b!"auth=") (Spec.kv (k, v)) = none := by
    cases hs : stripPrefix (b!"auth=") (Spec.kv (k, v)) with
    | none => rfl
    | some r =>
      exfalso
      have hs := stripPrefix_eq_some.1 hs
      apply h3
      apply Str.bytes_injective
      have e1 := splitOn_append_sep (sep := (61 : UInt8)) (a := Str.bytes k)
        (by rwa [equals_mem_bytes]) (Str.bytes v)
      have e2 := splitOn_append_sep (sep := (61 : UInt8)) (a := b!"auth") (by decide +kernel) r
      have : Str.bytes k ++ 61 :: Str.bytes v = b!"auth" ++ 61 :: r := by
        rw [show Spec.kv (k, v) = Str.bytes k ++ 61 :: Str.bytes v by simp [Spec.kv]] at hs
        rw [hs]; rfl
      rw [this, e2] at e1
      exact (List.cons.inj e1).1.symm
  unfold OAuthBearer.parseKV
  rw [hpre]
  have : splitOn 61 (Spec.kv (k, v)) = [Str.bytes k, Str.bytes v] := by
    rw [show Spec.kv (k, v) = Str.bytes k ++ 61 :: Str.bytes v by simp [Spec.kv],
      splitOn_append_sep (by rwa [equals_mem_bytes]), splitOn_of_notMem (by rwa [equals_mem_bytes])]
  simp only [this, fromUtf8_bytes]

theorem OAuthBearer.parseKVs_plain (kvs : List (Str × Str)) (h : ∀ kv ∈ kvs, Spec.PlainKV kv)
    (fields : List (Str × Str)) (token : Str) :
    OAuthBearer.parseKVs none fields (kvs.map Spec.kv ++ [b!"auth=" ++ Str.bytes token]) =
      .ok (some token, fields ++ kvs) := by
  induction kvs generalizing fields with
  | nil =>
    simp only [List.map_nil, List.nil_append, OAuthBearer.parseKVs, OAuthBearer.parseKV,
      stripPrefix_append, fromUtf8_bytes, List.append_nil]
  | cons kv kvs ih =>
    rw [List.map_cons, List.cons_append, OAuthBearer.parseKVs]
    rw [OAuthBearer.parseKV_plain (h kv (by simp))]
    simp only
    rw [ih (fun kv hkv => h kv (by simp [hkv]))]
    simp

theorem splitOn_joined (kvs : List (Str × Str)) (h : ∀ kv ∈ kvs, Spec.PlainKV kv) (pre last : Bytes)
    (hpre : (1 : UInt8) ∉ pre) (hlast : (1 : UInt8) ∉ last) :
    splitOn 1 (pre ++ Spec.kvs kvs ++
      1 :: last) = pre :: (kvs.map Spec.kv ++ [last]) := by
  induction kvs generalizing pre with
  | nil =>
    simp only [Spec.kvs, List.flatMap_nil, List.append_nil, List.map_nil, List.nil_append]
    rw [splitOn_append_sep hpre, splitOn_of_notMem hlast]
  | cons kv kvs ih =>
    obtain ⟨k, v⟩ := kv
    have hkv := h (k, v) (by simp)
    have hk : (1 : UInt8) ∉ Spec.kv (k, v) := by
      unfold Spec.kv
      simp only [List.mem_append, one_mem_bytes, not_or]
      exact ⟨⟨hkv.1, by decide +kernel⟩, hkv.2.2.2.1⟩
    have := ih (fun kv hkv => h kv (by simp [hkv])) (Spec.kv (k, v)) hk
    rw [List.map_cons, List.cons_append, ← this, show pre ++ Spec.kvs ((k, v) :: kvs) ++ 1 :: last =
      pre ++ 1 :: (Spec.kv (k, v) ++ Spec.kvs kvs ++ 1 :: last) by simp [Spec.kvs]]
    rw [splitOn_append_sep hpre]

theorem OAuthBearer.parse_message (authzid : Option Str) (token : Str) (kvs : List (Str × Str))
    (ha : ∀ a ∈ authzid, ',' ∉ a ∧ '\x01' ∉ a) (ht : '\x01' ∉ token)
    (hk : ∀ kv ∈ kvs, Spec.PlainKV kv) :
    OAuthBearer.Msg.parse (Spec.oauthbearerMessage authzid token kvs) =
      .ok ⟨authzid, c!"Bearer " ++ token, kvs⟩ := by
  have hform : ∀ az : Bytes, b!"n," ++ az ++ b!"," ++
      Spec.kvs kvs ++
      1 :: b!"auth=Bearer " ++ Str.bytes token ++ [1, 1] =
      ((b!"n" ++ 44 :: (az ++ b!",")) ++
      Spec.kvs kvs ++
      1 :: (b!"auth=" ++ Str.bytes (c!"Bearer " ++ token))) ++ [1, 1] := by
    intro az
    have : Str.bytes (c!"Bearer " ++ token) = b!"Bearer " ++ Str.bytes token := by
      rw [Str.bytes_append]; rfl
    rw [this]
    simp
  unfold Spec.oauthbearerMessage
  rw [hform]
  unfold OAuthBearer.Msg.parse
  rw [stripSuffix_append]
  simp only
  have hlast : (1 : UInt8) ∉ b!"auth=" ++ Str.bytes (c!"Bearer " ++ token) := by
    rw [List.mem_append, one_mem_bytes]
    simp [ht]
  have haz1 : (1 : UInt8) ∉ (Spec.gs2Authzid authzid) := by
    cases authzid with
    | none => simp [Spec.gs2Authzid]
    | some a =>
      simp only [Spec.gs2Authzid, List.mem_append, one_mem_bytes, not_or]
      exact ⟨by decide +kernel, (ha a rfl).2⟩
  have haz2 : (44 : UInt8) ∉ (Spec.gs2Authzid authzid) := by
    cases authzid with
    | none => simp [Spec.gs2Authzid]
    | some a =>
      simp only [Spec.gs2Authzid, List.mem_append, comma_mem_bytes, not_or]
      exact ⟨by decide +kernel, (ha a rfl).1⟩
  have haz3 : OAuthBearer.parseAuthzid
      (Spec.gs2Authzid authzid) = .ok authzid := by
    cases authzid with
    | none => rfl
    | some a =>
      unfold OAuthBearer.parseAuthzid Spec.gs2Authzid
      rw [if_neg (by simp), stripPrefix_append]
      simp only [fromUtf8_bytes]
  generalize Spec.gs2Authzid authzid = az at *
  rw [splitOn_joined kvs hk _ _ (by simp [haz1]) hlast]
  simp only
  rw [splitOn_append_sep (by decide +kernel)]
  simp only
  rw [if_neg (by simp), show az ++ b!"," = az ++ 44 :: [] by rfl, splitOn_append_sep haz2]
  simp only [haz3]
  rw [OAuthBearer.parseKVs_plain kvs hk]
  simp

/-! ## C14 -/

/-- The full statement of C14. -/
def C14 : Prop :=
  ∀ (json : OAuthBearer.Json) (cenv senv : Env) (authzid : Option Str) (token : Str)
    (kvs : Option (List (Str × Str))), cenv.Offers .authzId authzid →
    cenv.Offers .oauthBearerKV kvs → cenv.Gives .oauthBearerToken token →
    ∀ (client : Session OAuthCState) (server : Session OAuthSState) (input : Option Bytes)
      (sched sched' : List WResp), client.st = .initial → server.st = .initial →
      Cooperative sched →
      let c := client.step (OAuthBearer.client json) cenv ⟨input, sched⟩
      let r := server.step (OAuthBearer.server json) senv ⟨some c.1.out, sched'⟩
      c.1.res = .ok .running ∧
      ∃ ctx rest, ctx.Exactly (Spec.oauthbearerOffer authzid token (kvs.getD [])) ∧
        r.2.log = server.log ++ .asked .oauthBearerValidate ctx :: rest ∧ askedProps rest = [] ∧
        (validations rest = [] ∨ validations rest = [ctx])

/-- C14 for values without the separators of the message, with what the server really offers as
the token: the token with `Bearer ` in front. Missing: the token itself, and values containing
separators, for both of which C14 is false (`C14_false`, `C14_false_token`,
`C14_false_authzid`, `C14_false_kv`). -/
theorem C14_partial (json : OAuthBearer.Json) (cenv senv : Env) (authzid : Option Str) (token : Str)
    (kvs : Option (List (Str × Str))) (ha : cenv.Offers .authzId authzid)
    (hk : cenv.Offers .oauthBearerKV kvs) (ht : cenv.Gives .oauthBearerToken token)
    (hsa : ∀ a ∈ authzid, ',' ∉ a ∧ '\x01' ∉ a) (hst : '\x01' ∉ token)
    (hsk : ∀ kv ∈ kvs.getD [], Spec.PlainKV kv)
    (client : Session OAuthCState) (server : Session OAuthSState) (input : Option Bytes)
    (sched sched' : List WResp) (hc : client.st = .initial) (hs : server.st = .initial)
    (hw : Cooperative sched) :
    let c := client.step (OAuthBearer.client json) cenv ⟨input, sched⟩
    let r := server.step (OAuthBearer.server json) senv ⟨some c.1.out, sched'⟩
    c.1.res = .ok .running ∧ c.1.out = Spec.oauthbearerMessage authzid token (kvs.getD []) ∧
    ∃ ctx rest,
      ctx.Exactly (Spec.oauthbearerOffer authzid (c!"Bearer " ++ token) (kvs.getD [])) ∧
      r.2.log = server.log ++ .asked .oauthBearerValidate ctx :: rest ∧ askedProps rest = [] ∧
      (validations rest = [] ∨ validations rest = [ctx]) := by
  have hd := OAuthBearer.client_does (json := json) ha hk ht input
  rw [← hc] at hd
  obtain ⟨es, _, he⟩ := hd.exec hw
  have he : client.step (OAuthBearer.client json) cenv ⟨input, sched⟩ = _ := he
  simp only [he]
  obtain ⟨rest, h1, h2, h3⟩ := OAuthBearer.server_offers (json := json) (senv := senv) hs
    (OAuthBearer.parse_message authzid token (kvs.getD []) hsa hst hsk) sched'
  exact ⟨trivial, trivial, _, rest, OAuthBearer.provider_exactly _, h1, h2, h3⟩

/-- The server never offers the token the client was given. -/
theorem C14_false_token (json : OAuthBearer.Json) (cenv senv : Env) (authzid : Option Str)
    (token : Str) (kvs : Option (List (Str × Str))) (ha : cenv.Offers .authzId authzid)
    (hk : cenv.Offers .oauthBearerKV kvs) (ht : cenv.Gives .oauthBearerToken token)
    (hsa : ∀ a ∈ authzid, ',' ∉ a ∧ '\x01' ∉ a) (hst : '\x01' ∉ token)
    (hsk : ∀ kv ∈ kvs.getD [], Spec.PlainKV kv)
    (client : Session OAuthCState) (server : Session OAuthSState) (input : Option Bytes)
    (sched sched' : List WResp) (hc : client.st = .initial) (hs : server.st = .initial)
    (hw : Cooperative sched) :
    let c := client.step (OAuthBearer.client json) cenv ⟨input, sched⟩
    let r := server.step (OAuthBearer.server json) senv ⟨some c.1.out, sched'⟩
    ¬ ∃ ctx rest, r.2.log = server.log ++ .asked .oauthBearerValidate ctx :: rest ∧
      ctx.getRef .oauthBearerToken = some token := by
  intro c r
  rintro ⟨ctx, rest, h1, h2⟩
  obtain ⟨_, _, ctx', rest', h3, h4, _⟩ := C14_partial json cenv senv authzid token kvs ha hk ht
    hsa hst hsk client server input sched sched' hc hs hw
  have h := h1.symm.trans h4
  rw [List.append_cancel_left_eq, List.cons.injEq] at h
  obtain ⟨h, _⟩ := h
  cases h
  rw [h3 .oauthBearerToken] at h2
  simp only [Spec.oauthbearerOffer, Option.some.injEq] at h2
  have := congrArg List.length h2
  simp at this
  omega

theorem C14_false : ¬ C14 := by
  intro h
  let json : OAuthBearer.Json := ⟨fun _ => [], fun _ => none⟩
  let cenv := exampleEnv [⟨.oauthBearerToken, c!"t"⟩]
  have ha : cenv.Offers .authzId none := fun _ _ => declines_answerAll _ (by simp)
  have hk : cenv.Offers .oauthBearerKV none := fun _ _ => declines_answerAll _ (by simp)
  have ht : cenv.Gives .oauthBearerToken (c!"t") := fun _ _ => answers_answerAll _ [] _ rfl (by simp)
  obtain ⟨_, ctx, rest, h1, h2, _⟩ := h json cenv (exampleEnv []) none (c!"t") none ha hk ht
    { st := .initial, rng := fun _ => 0 } { st := .initial, rng := fun _ => 0 } none [] []
    rfl rfl Cooperative.nil
  exact C14_false_token json cenv (exampleEnv []) none (c!"t") none ha hk ht (by simp) (by decide)
    (by simp) { st := .initial, rng := fun _ => 0 } { st := .initial, rng := fun _ => 0 } none [] []
    rfl rfl Cooperative.nil ⟨ctx, rest, h2, h1 .oauthBearerToken⟩

/-- An authorization id containing a comma is cut off there. -/
theorem C14_false_authzid :
    OAuthBearer.Msg.parse (Spec.oauthbearerMessage (some (c!"a,b")) (c!"t") []) =
      .ok ⟨some (c!"a"), c!"Bearer t", []⟩ := by
  rfl

/-- A value containing `=` makes the whole message unacceptable. -/
theorem C14_false_kv :
    OAuthBearer.Msg.parse (Spec.oauthbearerMessage none (c!"t") [(c!"k", c!"a=b")]) =
      .error .invalidKVPair := by
  rfl

example : Spec.PlainKV (c!"host", c!"mail.example.com") ∧ Spec.PlainKV (c!"port", c!"993") := by
  simp [Spec.PlainKV]

example : (exampleEnv [⟨.authzId, c!"user@example.com"⟩,
    ⟨.oauthBearerKV, [(c!"port", c!"993")]⟩, ⟨.oauthBearerToken, c!"vF9dft4"⟩]).Offers
    .oauthBearerKV (some [(c!"port", c!"993")]) :=
  fun _ _ => answers_answerAll _ [⟨.authzId, _⟩] _ rfl (by simp)

end Rsasl

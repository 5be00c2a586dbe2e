/-
C116: what is sent is text.
-/
import Verif.Proofs.Letters
import Verif.Proofs.ScramParse
import Verif.Props.InteropTests
import Verif.Props.JsonText
import Verif.Props.ScramMsgs
import Verif.Props.Text
import Verif.Spec.Session

namespace Rsasl

open Spec

variable {S : Type} {I : S → Prop} {env : Env}

theorem Spec.IsText.ascii {b : Bytes} (h : ∀ x ∈ b, x.toNat < 128) : IsText b := ⟨_, (bytes_ascii h).symm⟩

theorem Spec.IsText.base64 (b : Bytes) : IsText (Base64.encode b) := ⟨_, (text_bytes b).symm⟩

theorem Spec.IsText.nonce {b : Bytes} (h : ∀ x ∈ b, Scram.nonceByte x = true) : IsText b := by
  refine .ascii fun x hx => ?_
  have := (nonceByte_iff.1 (h x hx)).2.1
  omega

/-! ## The simple mechanisms -/

theorem Plain.client_letters (hp : env.Supplies .password IsText) (input : Option Bytes) :
    Letters (fun _ => True) (fun _ => True) (Plain.clientStep env input) := by
  unfold Plain.clientStep
  refine .bind (.ask' (Q := fun _ => True) fun v => ?_) fun _ _ => .bind (.writeAll (.ascii (by decide))) fun _ _ =>
    .bind (.needWith' (Q := fun _ => True) fun v => ?_) fun _ _ => .bind (.writeAll (.ascii (by decide))) fun _ _ =>
    .bind (.needWith hp (Q := fun _ => True) fun v hv => ?_) fun _ _ => .pure trivial
  · unfold Plain.clientAuthzid
    split
    · exact .fail _
    · exact .writeAll (.str _)
  · unfold Plain.clientAuthid
    split
    · exact .fail _
    · split
      · exact .fail _
      · exact .writeAll (.str _)
  · unfold Plain.clientPassword
    split
    · exact .fail _
    · split
      · exact .fail _
      · exact .writeAll hv

theorem Login.client_letters (hp : env.Supplies .password IsText) (input : Option Bytes) :
    Letters (fun _ => True) (fun _ => True) (Login.clientStep env input) := by
  unfold Login.clientStep
  refine .bind .get fun st _ => ?_
  split
  · exact .bind (.needWith' (Q := fun _ => True) fun v => .writeAll (.str _)) fun _ _ =>
      .bind (.set trivial) fun _ _ => .pure trivial
  · exact .bind (.needWith hp (Q := fun _ => True) fun v hv => .writeAll hv) fun _ _ =>
      .bind (.set trivial) fun _ _ => .pure trivial
  · exact .fail _

theorem External.client_letters (input : Option Bytes) :
    Letters (fun _ => True) (fun _ => True) (External.clientStep env input) := by
  unfold External.clientStep
  exact .bind (.ask' (Q := fun _ => True) fun v => .writeAll (.str _)) fun _ _ => .pure trivial

theorem Anonymous.client_letters (input : Option Bytes) :
    Letters (fun _ => True) (fun _ => True) (Anonymous.clientStep env input) := by
  unfold Anonymous.clientStep
  exact .bind (.ask' (Q := fun _ => True) fun v => .writeAll (.str _)) fun _ _ => .pure trivial

theorem XOAuth2.client_letters (input : Option Bytes) :
    Letters (fun _ => True) (fun _ => True) (XOAuth2.clientStep env input) := by
  unfold XOAuth2.clientStep
  refine .bind .get fun st _ => ?_
  split
  · refine .bind (.needWith' (Q := fun _ => True) fun v => .writeVectored ?_) fun _ _ =>
      .bind (.needWith' (Q := fun _ => True) fun v => .writeVectored ?_) fun _ _ =>
      .bind (.set trivial) fun _ _ => .pure trivial
    · simp only [List.forall_mem_cons]
      exact ⟨.ascii (by decide), .str _, .ascii (by decide), by simp⟩
    · simp only [List.forall_mem_cons]
      exact ⟨.str _, .ascii (by decide), by simp⟩
  · refine .bind (.set trivial) fun _ _ => ?_
    dsimp only
    split
    · exact .pure trivial
    · exact .bind (.okOr (Q := fun _ => True) _ fun _ _ => trivial) fun _ _ => .bind .action fun _ _ => .pure trivial
  · exact .fail _

theorem OAuthBearer.writeKVs_letters (l : List (Str × Str)) :
    Letters I (fun _ => True) (OAuthBearer.writeKVs l : M S Unit) := by
  induction l with
  | nil => exact .pure trivial
  | cons kv l ih =>
    obtain ⟨key, v⟩ := kv
    unfold OAuthBearer.writeKVs
    refine .bind (.writeVectored ?_) fun _ _ => ih
    simp only [List.forall_mem_cons]
    exact ⟨.ascii (by decide), .str _, .ascii (by decide), .str _, by simp⟩

theorem OAuthBearer.client_letters (json : OAuthBearer.Json) (input : Option Bytes) :
    Letters (fun _ => True) (fun _ => True) (OAuthBearer.clientStep json env input) := by
  unfold OAuthBearer.clientStep
  refine .bind .get fun st _ => ?_
  split
  · refine .bind (.writeAll (.ascii (by decide))) fun _ _ =>
      .bind (.ask' (Q := fun _ => True) fun v => .bind (.writeAll (.ascii (by decide))) fun _ _ => .writeAll (.str _)) fun _ _ =>
      .bind (.writeAll (.ascii (by decide))) fun _ _ =>
      .bind (.ask' (Q := fun _ => True) fun v => OAuthBearer.writeKVs_letters _) fun _ _ =>
      .bind (.needWith' (Q := fun _ => True) fun v => .writeVectored ?_) fun _ _ =>
      .bind (.set trivial) fun _ _ => .pure trivial
    simp only [List.forall_mem_cons]
    exact ⟨.ascii (by decide), .str _, .ascii (by decide), by simp⟩
  · refine .bind (.set trivial) fun _ _ => ?_
    dsimp only
    split
    · exact .pure trivial
    · exact .bind (.okOr (Q := fun _ => True) _ fun _ _ => trivial) fun _ _ => .bind .action fun _ _ => .pure trivial
  · exact .fail _

/-! ## SCRAM clients -/

namespace Scram

/-- The channel bindings a client keeps are in base64. -/
def CbText : CS → Prop
  | some (.clientFirst cb _ _) => IsText cb
  | _ => True

/-- The header that is gathered is text. -/
def HeaderText (x : CS × Gs2) : Prop := CbText x.1 ∧ IsText x.2.header

theorem pushHeader_letters {b : Bytes} (h : IsText b) : Letters HeaderText (fun _ => True) (pushHeader b) :=
  .modify fun _ hs => ⟨hs.1, hs.2.append h⟩

theorem setCbdata_letters (b : Bytes) : Letters HeaderText (fun _ => True) (setCbdata b) :=
  .modify fun _ hs => hs

theorem escapeM_letters (x : Str) : Letters I (fun _ => True) (escapeM x : M S Str) := by
  unfold escapeM
  split
  · exact .pure trivial
  · exact .fail _

theorem generateNonce_letters (n : Nat) : Letters I (fun b => ∀ x ∈ b, nonceByte x = true) (generateNonce n : M S Bytes) := by
  refine .still fun s w => ?_
  obtain ⟨nonce, h, -, h2⟩ := C42 n s w
  rw [h]
  exact ⟨rfl, rfl, fun a ha x hx => by cases ha; exact nonceByte_iff.2 (h2 x hx)⟩

theorem clientCb_letters (plus : CbSupport) : Letters HeaderText (fun _ => True) (clientCb env plus) := by
  cases plus with
  | clientNoSupport => exact pushHeader_letters (.ascii (by decide))
  | serverNoSupport => exact pushHeader_letters (.ascii (by decide))
  | supported =>
    refine .bind (pushHeader_letters (.ascii (by decide))) fun _ _ => .bind (.ask' (Q := fun _ => True) fun v =>
      .bind (pushHeader_letters (.str _)) fun _ _ => .pure trivial) fun o _ => ?_
    cases o with
    | some name => exact .needCbData fun v => setCbdata_letters v
    | none =>
      refine .bind (.maybeNeedCbData (Q := fun _ => True) fun v => .bind (pushHeader_letters (.str _)) fun _ _ =>
        setCbdata_letters v) fun o _ => ?_
      cases o with
      | some _ => exact .pure trivial
      | none => exact .needCbData fun v => .bind (pushHeader_letters (.str _)) fun _ _ => setCbdata_letters v

theorem sendClientFirst_letters (n : Nat) (plus : CbSupport) :
    Letters HeaderText (fun new => CbText (some new)) (sendClientFirst n env plus) := by
  unfold sendClientFirst
  refine .bind (clientCb_letters plus) fun _ _ => .bind (pushHeader_letters (.ascii (by decide))) fun _ _ =>
    .bind (.ask' (Q := fun _ => True) fun v => ?_) fun _ _ => .bind (pushHeader_letters (.ascii (by decide))) fun _ _ =>
    .bind (.needWith' (Q := fun _ => True) fun v => escapeM_letters v) fun user _ =>
    .bind (generateNonce_letters n) fun nonce hn => .bind .get fun st hst => ?_
  · unfold clientAuthzid
    exact .bind (pushHeader_letters (.ascii (by decide))) fun _ _ => .bind (escapeM_letters v) fun _ _ =>
      pushHeader_letters (.str _)
  · obtain ⟨s, l⟩ := st
    refine .bind (.writeVectored ?_) fun _ _ => .pure (IsText.base64 _)
    simp only [List.forall_mem_cons]
    exact ⟨hst.2, .ascii (by decide), .str _, .ascii (by decide), .nonce hn, by simp⟩

theorem checked_nonce_text {cn input : Bytes} {x : ServerFirst × Bytes × UInt32 × Bytes} (hi : IsText input)
    (h : checkServerFirst cn input = .ok x) : IsText x.1.nonce := by
  unfold checkServerFirst at h
  obtain ⟨sf, h1, h⟩ := Outcome.bind_eq_ok.1 h
  obtain ⟨-, -, -, -, h5⟩ := ServerFirst.parse_eq_ok.1 h1
  have hsf : x.1 = sf := by
    split at h
    · cases h
    · split at h
      · cases h
      · obtain ⟨count, -, h⟩ := Outcome.bind_eq_ok.1 h
        split at h
        · cases h
        · split at h
          · cases h
          · split at h
            · cases h
            · cases h; rfl
  rw [hsf]
  rw [h5] at hi
  have e : b!"r=" ++ sf.nonce ++ b!",s=" ++ sf.salt ++ b!",i=" ++ sf.iterationCount =
      ([114] ++ 61 :: sf.nonce) ++ 44 :: (b!"s=" ++ sf.salt ++ b!",i=" ++ sf.iterationCount) := by simp
  rw [e] at hi
  exact ((hi.split (by decide)).1.split (by decide)).2

theorem clientKeys_letters (d : Digest) (prov : Provider) (it : UInt32) (salt : Bytes) :
    Letters CbText (fun _ => True) (clientKeys d env prov it salt) := by
  unfold clientKeys
  refine .bind (.ask' (Q := fun _ => True) fun v => ?_) fun o _ => ?_
  · unfold useCached
    split
    · exact .pure trivial
    · exact .panic
  cases o with
  | some keys => exact .pure trivial
  | none =>
    refine .bind (.ask' (Q := fun _ => True) fun v => ?_) fun o _ => ?_
    · unfold useSalted
      split
      · exact .fail _
      · exact .pure trivial
    cases o with
    | some keys => exact .pure trivial
    | none => exact .needWith' fun v => .pure trivial

theorem client_letters (d : Digest) (n : Nat) (input : Option Bytes) (hi : ∀ b ∈ input, IsText b) :
    Letters CbText (fun _ => True) (clientStep d n env input) := by
  unfold clientStep
  refine .take trivial fun st hst => ?_
  match st, hst with
  | none, _ => exact .panic
  | some (.initial plus), _ =>
    exact .bind (.withLocal (J := fun l : Gs2 => IsText l.header) .nil (sendClientFirst_letters n plus)) fun new hnew =>
      .bind (.set hnew) fun _ _ => .pure trivial
  | some (.clientFirst cb nonce user), hst =>
    refine .bind (.okOr _ hi) fun b hb => .bind (Q := fun new => CbText (some new)) ?_ fun new hnew =>
      .bind (.set hnew) fun _ _ => .pure trivial
    unfold handleServerFirst
    refine .bind (.liftOutcome fun x hx => checked_nonce_text hb hx) fun ⟨sf, sn, it, salt⟩ hn =>
      .bind (clientKeys_letters d _ it salt) fun ⟨ck, sk⟩ _ => ?_
    refine .bind (.writeVectored ?_) fun _ _ => .pure trivial
    unfold ClientFinal.ioslices
    simp only [List.forall_mem_cons]
    exact ⟨.ascii (by decide), hst, .ascii (by decide), hn, .ascii (by decide), .base64 _, by simp⟩
  | some (.serverFirst v ck sk salt it), _ =>
    refine .bind (.okOr (Q := fun _ => True) _ fun _ _ => trivial) fun b _ => .bind (Q := fun _ => True) ?_ fun _ _ => .pure trivial
    unfold handleServerFinal
    refine .bind (.liftOutcome (Q := fun _ => True) fun _ _ => trivial) fun m _ => ?_
    split
    · split
      · exact .fail _
      · split
        · exact .bind (.attempt .action) fun _ _ => .pure trivial
        · exact .fail _
    · exact .fail _

/-! ## SCRAM servers -/

theorem serverCb_letters (canCb : Bool) (prov : Provider) (flag : CbFlag) :
    Letters (fun _ => True) (fun _ => True) (serverCb env canCb prov flag) := by
  unfold serverCb
  split
  · split
    · exact .fail _
    · exact .pure trivial
  · exact .pure trivial
  · exact .needCbData fun v => .modify fun _ h => h

theorem useStored_letters (d : Digest) (p : StoredPassword) :
    Letters I (fun x => IsText x.salt ∧ IsText x.iterations) (useStored d p : M S Params) := by
  unfold useStored
  split
  · exact .fail _
  · exact .pure ⟨.base64 _, .str _⟩

theorem serverFirst_text {nonce sn salt it : Bytes} (h1 : IsText nonce) (h2 : IsText sn) (h3 : IsText salt) (h4 : IsText it) :
    ∀ b ∈ ServerFirst.ioslices ⟨nonce, some sn, salt, it⟩, IsText b := by
  unfold ServerFirst.ioslices
  simp only [List.forall_mem_cons]
  exact ⟨.ascii (by decide), h1, h2, .ascii (by decide), h3, .ascii (by decide), h4, by simp⟩

theorem server_letters (d : Digest) (n : Nat) (input : Option Bytes) :
    Letters (fun _ => True) (fun _ => True) (serverStep d n env input) := by
  unfold serverStep
  refine .take trivial fun st _ => ?_
  match st with
  | none => exact .panic
  | some .finished => exact .fail _
  | some (.waitingClientFirst canCb) =>
    refine .bind (.okOr (Q := fun _ => True) _ fun _ _ => trivial) fun b _ =>
      .bind (.liftOutcome (Q := fun m => IsText m.nonce) fun m hm => .nonce (ClientFirst.parse_eq_ok.1 hm).2.1) fun msg hmsg =>
      .bind (.withLocal (J := fun _ => True) (Q := fun _ => True) trivial ?_) fun new _ => .bind (.set trivial) fun _ _ => .pure trivial
    suffices h : Letters (fun _ => True) (fun _ => True) (handleClientFirst d n env canCb msg) from
      ⟨fun s w _ hw => ⟨⟨trivial, trivial⟩, (h.on s w trivial hw).2⟩⟩
    unfold handleClientFirst
    refine .bind (serverCb_letters _ _ _) fun _ _ => .bind (.ask' (useStored_letters d)) fun o ho =>
      .bind (generateNonce_letters n) fun sn hsn => ?_
    cases o with
    | some p =>
      obtain ⟨h1, h2⟩ := ho p rfl
      exact .bind (.writeVectored (serverFirst_text hmsg (.nonce hsn) h1 h2)) fun _ _ => .bind .get fun _ _ => .pure trivial
    | none =>
      exact .bind (.draw _) fun _ _ =>
        .bind (.writeVectored (serverFirst_text hmsg (.nonce hsn) (.base64 _) (.ascii (by decide)))) fun _ _ => .pure trivial
  | some (.waitingClientFinal data) =>
    refine .bind (.okOr (Q := fun _ => True) _ fun _ _ => trivial) fun b _ => .bind (Q := fun _ => True) ?_ fun _ _ =>
      .bind (.set trivial) fun _ _ => .pure trivial
    unfold handleClientFinal
    refine .bind (.liftOutcome (Q := fun _ => True) fun _ _ => trivial) fun m _ =>
      .bind (.lift (Q := fun _ => True) fun _ _ => trivial) fun r _ => ?_
    match r with
    | .ok (f, sig) =>
      refine .bind (.writeVectored ?_) fun _ _ => .validate
      unfold ServerFinal.ioslices
      simp only [List.forall_mem_cons]
      exact ⟨.ascii (by decide), .base64 _, by simp⟩
    | .error e =>
      refine .writeVectored ?_
      unfold ServerFinal.ioslices
      simp only [List.forall_mem_cons]
      refine ⟨.ascii (by decide), .ascii ?_, by simp⟩
      cases e <;> decide

end Scram

/-! ## The other servers -/

theorem Plain.server_letters (prep : Str → Option Str) (input : Option Bytes) :
    Letters (fun _ => True) (fun _ => True) (Plain.serverStep prep env input) := by
  unfold Plain.serverStep
  refine .bind (.okOr (Q := fun _ => True) _ fun _ _ => trivial) fun b _ => ?_
  split
  · exact .fail _
  · split
    · refine .bind (.okOr (Q := fun _ => True) _ fun _ _ => trivial) fun _ _ =>
        .bind (.okOr (Q := fun _ => True) _ fun _ _ => trivial) fun _ _ =>
        .bind (.okOr (Q := fun _ => True) _ fun _ _ => trivial) fun _ _ => ?_
      split
      · exact .fail _
      · split
        · refine .bind (.okOr (Q := fun _ => True) _ fun _ _ => trivial) fun _ _ => ?_
          split
          · exact .fail _
          · exact .bind .validate fun _ _ => .pure trivial
        · split
          · exact .fail _
          · exact .bind .validate fun _ _ => .pure trivial
    · exact .fail _

theorem Login.server_letters (input : Option Bytes) :
    Letters (fun _ => True) (fun _ => True) (Login.serverStep env input) := by
  unfold Login.serverStep
  refine .bind .get fun st _ => ?_
  split
  · exact .bind (.writeAll (.ascii (by decide))) fun _ _ => .bind (.set trivial) fun _ _ => .pure trivial
  · split
    · exact .bind (.okOr (Q := fun _ => True) _ fun _ _ => trivial) fun _ _ =>
        .bind (.writeAll (.ascii (by decide))) fun _ _ => .bind (.set trivial) fun _ _ => .pure trivial
    · exact .fail _
  · split
    · exact .bind .validate fun _ _ => .bind (.set trivial) fun _ _ => .pure trivial
    · exact .fail _
  · exact .fail _

theorem External.server_letters (input : Option Bytes) :
    Letters (fun _ => True) (fun _ => True) (External.serverStep env input) := by
  unfold External.serverStep
  exact .bind (.okOr (Q := fun _ => True) _ fun _ _ => trivial) fun _ _ => .bind .validate fun _ _ => .pure trivial

theorem Anonymous.server_letters (input : Option Bytes) :
    Letters (fun _ => True) (fun _ => True) (Anonymous.serverStep env input) := by
  unfold Anonymous.serverStep
  exact .bind (.okOr (Q := fun _ => True) _ fun _ _ => trivial) fun _ _ => .bind .validate fun _ _ => .pure trivial

theorem XOAuth2.server_letters (input : Option Bytes) :
    Letters (fun _ => True) (fun _ => True) (XOAuth2.serverStep env input) := by
  unfold XOAuth2.serverStep
  refine .bind .get fun st _ => ?_
  split
  · refine .bind (.okOr (Q := fun _ => True) _ fun _ _ => trivial) fun _ _ =>
      .bind (.lift (Q := fun _ => True) fun _ _ => trivial) fun ⟨user, token⟩ _ =>
      .bind (.needWith' (Q := fun _ => True) fun v => ?_) fun _ _ => .bind .validate fun _ _ => .pure trivial
    unfold XOAuth2.onResult
    split
    · exact .bind (.writeAll (.str _)) fun _ _ => .bind (.set trivial) fun _ _ => .pure trivial
    · exact .pure trivial
  · exact .pure trivial

theorem OAuthBearer.writeJson_letters {pieces : List Bytes} (h : IsText pieces.flatten) :
    Letters I (fun _ => True) (OAuthBearer.writeJson pieces : M S Unit) := by
  have go : ∀ (pieces : List Bytes) (s : S) (w : World), Cooperative w.wr.sched →
      ∃ sched, Cooperative sched ∧ OAuthBearer.writeJson pieces s w =
        (.ok (), s, { w with wr := ⟨w.wr.out ++ pieces.flatten, sched⟩ }) := by
    intro pieces
    induction pieces with
    | nil => exact fun s w hw => ⟨w.wr.sched, hw, by simp [OAuthBearer.writeJson]⟩
    | cons b bs ih =>
      intro s w hw
      obtain ⟨sc, h1, h2⟩ := M.writeAll_patient b s w hw.patient
      obtain ⟨sc', h3, h4⟩ := ih s { w with wr := ⟨w.wr.out ++ b, sc⟩ } (hw.suffix h1)
      refine ⟨sc', h3, ?_⟩
      unfold OAuthBearer.writeJson
      have : M.attempt (M.writeAll b) s w = (.ok (.ok ()), s, { w with wr := ⟨w.wr.out ++ b, sc⟩ }) := by
        unfold M.attempt
        rw [h2]
      rw [M.bind_ok this]
      simpa using h4
  refine ⟨fun s w hi hw => ?_⟩
  obtain ⟨sc, h1, h2⟩ := go pieces s w hw
  rw [h2]
  exact ⟨hi, h1, ⟨_, h, rfl⟩, fun _ _ => trivial⟩

theorem OAuthBearer.server_letters {json : OAuthBearer.Json} (hj : ∀ e, IsText (json.ser e).flatten) (input : Option Bytes) :
    Letters (fun _ => True) (fun _ => True) (OAuthBearer.serverStep json env input) := by
  unfold OAuthBearer.serverStep
  refine .bind .get fun st _ => ?_
  split
  · refine .bind (.okOr (Q := fun _ => True) _ fun _ _ => trivial) fun _ _ => ?_
    split
    · exact .fail _
    · refine .bind (.needWith' (Q := fun _ => True) fun v => ?_) fun _ _ => .bind .validate fun _ _ => .pure trivial
      unfold OAuthBearer.onResult
      split
      · exact .bind (OAuthBearer.writeJson_letters (hj _)) fun _ _ => .bind (.set trivial) fun _ _ => .pure trivial
      · exact .pure trivial
  · exact .pure trivial

/-! ## C116 -/

/-- Clients, with any server: text, if the passwords the application supplies and, for SCRAM, the messages of the server are. Not
the full claim: a SCRAM client repeats the server's nonce without a look at it (`C116_false`), and passwords are sent as they are
(`C116_false_password`). -/
theorem C116_client_partial (deps : Deps) (a : Auth) (ha : a ≠ .gssapi) (cli : Started) (h : a.startClient deps = some cli)
    (rng : Nat → Nat) (env : Env) (hp : env.Supplies .password IsText) (calls : List Call)
    (hw : ∀ c ∈ calls, Cooperative c.sched) (hi : a.isScram = true → ∀ c ∈ calls, ∀ b ∈ c.input, IsText b) :
    ∀ r ∈ ((cli.session rng).run cli.mech env calls).1, IsText r.out := by
  have key : (∀ input, Letters (fun _ => True) (fun _ => True) (cli.mech.step env input)) →
      ∀ r ∈ ((cli.session rng).run cli.mech env calls).1, IsText r.out :=
    fun hl => Letters.run (D := fun _ => True) (fun i _ => hl i) calls hw (fun _ _ => trivial) _ trivial
  cases a <;> cases h
  case gssapi => exact absurd rfl ha
  case plain => exact key fun i => Plain.client_letters hp i
  case login => exact key fun i => Login.client_letters hp i
  case external => exact key fun i => External.client_letters i
  case anonymous => exact key fun i => Anonymous.client_letters i
  case xoauth2 => exact key fun i => XOAuth2.client_letters i
  case oauthbearer => exact key fun i => OAuthBearer.client_letters _ i
  case scramClient hash b =>
    exact Letters.run (m := Scram.client _) (I := Scram.CbText) (D := fun i => ∀ b ∈ i, IsText b)
      (fun i hi => Scram.client_letters _ _ i hi) calls hw (hi rfl) _ trivial
  case scramClientPlus hash =>
    exact Letters.run (m := Scram.client _) (I := Scram.CbText) (D := fun i => ∀ b ∈ i, IsText b)
      (fun i hi => Scram.client_letters _ _ i hi) calls hw (hi rfl) _ trivial

/-- Servers: whatever they are sent, with any callback, they send text. -/
theorem C116_server (deps : Deps) (a : Auth) (ha : a ≠ .gssapi) (srv : Started) (h : a.startServer deps = some srv)
    (hj : ∀ e, IsText (deps.json.ser e).flatten) (rng : Nat → Nat) (env : Env) (calls : List Call)
    (hw : ∀ c ∈ calls, Cooperative c.sched) :
    ∀ r ∈ ((srv.session rng).run srv.mech env calls).1, IsText r.out := by
  have key : (∀ input, Letters (fun _ => True) (fun _ => True) (srv.mech.step env input)) →
      ∀ r ∈ ((srv.session rng).run srv.mech env calls).1, IsText r.out :=
    fun hl => Letters.run (D := fun _ => True) (fun i _ => hl i) calls hw (fun _ _ => trivial) _ trivial
  cases a <;> cases h
  case gssapi => exact absurd rfl ha
  case plain => exact key fun i => Plain.server_letters _ i
  case login => exact key fun i => Login.server_letters i
  case external => exact key fun i => External.server_letters i
  case anonymous => exact key fun i => Anonymous.server_letters i
  case xoauth2 => exact key fun i => XOAuth2.server_letters i
  case oauthbearer => exact key fun i => OAuthBearer.server_letters hj i
  case scramServer hash b => exact key fun i => Scram.server_letters _ _ i
  case scramServerPlus hash => exact key fun i => Scram.server_letters _ _ i

/-- The texts of `serde_json` are text: the hypothesis of `C116_server`. -/
theorem C116_json (e : OAuthBearerError) : IsText (SerdeJson.json.ser e).flatten := by
  rw [SerdeJson.C102_serde.writes]
  have str : ∀ s, IsText (jsonStr s) := fun s =>
    IsText.append (IsText.append (a := [34]) (.ascii (by decide)) (.str _)) (.ascii (by decide))
  have member : ∀ key o, IsText key → IsText (jsonMember key o) := by
    intro key o hk
    cases o with
    | none => exact .nil
    | some v => exact (((IsText.ascii (by decide)).append hk).append (.ascii (by decide))).append (str v)
  exact ((((IsText.ascii (by decide)).append (str _)).append (member _ _ (.ascii (by decide)))).append
    (member _ _ (.ascii (by decide)))).append (.ascii (by decide))

/-- Through `step64` text is sent in any case, by any mechanism, GSSAPI among them. -/
theorem C116_step64 (m : Mech) (env : Env) (ses : Session m.S) (c : Call) : IsText (ses.step64 m env c).1.out := by
  unfold Session.step64
  split
  · split
    · exact .nil
    · exact .base64 _
  · exact .base64 _

theorem not_isText {b : Bytes} (h : fromUtf8 b = none) : ¬ IsText b := by
  rintro ⟨s, rfl⟩
  rw [fromUtf8_bytes] at h
  cases h

theorem exampleEnv_supplies {p : Property} {V : p.Value → Prop} :
    ∀ pvs : List PV, (∀ v, ⟨p, v⟩ ∈ pvs → V v) → (exampleEnv pvs).Supplies p V := by
  intro pvs h log ctx
  show (answerAll pvs).Supplies p V
  induction pvs with
  | nil => trivial
  | cons pv pvs ih =>
    obtain ⟨q, v⟩ := pv
    refine ⟨fun e => ?_, fun r => ?_⟩
    · subst e
      exact h v (by simp)
    · cases r with
      | ok _ => exact ih fun v hv => h v (by simp [hv])
      | error e => trivial

/-- A server's first message with a byte that is in no text. -/
def strangeFirst : Bytes := b!"r=!!!!!!!!!!!!!!!!!!!!!!!!" ++ 255 :: b!",s=AAAA,i=1"

/-- What a SCRAM client sends that gets such a message. -/
def strangeReplies (env : Env) : List (Reply State) :=
  ((⟨Scram.client toyDigest, Scram.clientNew true⟩ : Started).session (fun _ => 0) |>.run (Scram.client toyDigest) env
    [⟨none, []⟩, ⟨some strangeFirst, []⟩]).1

/-- The full claim fails: a server gets a SCRAM client to send a byte that is in no text. All that the application supplies is
text. -/
theorem C116_false : ∃ env : Env, env.Supplies .password IsText ∧
    ∃ r ∈ strangeReplies env, r.res = .ok .running ∧ ¬ IsText r.out := by
  refine ⟨exampleEnv [⟨.authId, c!"user"⟩, ⟨.password, b!"secret"⟩], ?_, ?_⟩
  · refine exampleEnv_supplies _ fun v hv => ?_
    simp only [List.mem_cons, PV.mk.injEq, List.not_mem_nil, reduceCtorEq, false_and, or_false, false_or, true_and] at hv
    cases hv
    exact .ascii (by decide)
  · have h : (strangeReplies (exampleEnv [⟨.authId, c!"user"⟩, ⟨.password, b!"secret"⟩]))[1]?.map (fun r => (r.res, r.out)) =
        some (.ok .running, b!"c=biws,r=!!!!!!!!!!!!!!!!!!!!!!!!" ++ 255 :: b!",p=hQ==") := by decide +kernel
    obtain ⟨r, hr, he⟩ := Option.map_eq_some_iff.1 h
    refine ⟨r, List.mem_of_getElem? hr, congrArg Prod.fst he, ?_⟩
    rw [show r.out = _ from congrArg Prod.snd he]
    exact not_isText (by decide +kernel)

/-- Passwords are sent as they are. -/
theorem C116_false_password : ∃ env : Env,
    (∃ r ∈ ((⟨Plain.client, ()⟩ : Started).session (fun _ => 0) |>.run Plain.client env [⟨none, []⟩]).1,
      r.res = .ok (.finished .yes) ∧ ¬ IsText r.out) ∧
    ∃ r ∈ ((⟨Login.client, .authid⟩ : Started).session (fun _ => 0) |>.run Login.client env [⟨none, []⟩, ⟨none, []⟩]).1,
      r.res = .ok (.finished .yes) ∧ ¬ IsText r.out := by
  refine ⟨exampleEnv [⟨.authId, c!"user"⟩, ⟨.password, [255]⟩], ⟨⟨.ok (.finished .yes), b!"\x00user\x00" ++ [255]⟩, ?_, rfl, ?_⟩,
    ⟨.ok (.finished .yes), [255]⟩, ?_, rfl, ?_⟩
  · exact List.mem_cons_self ..
  · exact not_isText (by decide +kernel)
  · exact List.mem_cons_of_mem _ (List.mem_cons_self ..)
  · exact not_isText (by decide +kernel)

/-! ## Sessions as assumed -/

/-- A user and a password with letters beyond ASCII. -/
example : let env := exampleEnv [⟨.authId, c!"jürgen"⟩, ⟨.password, Str.bytes (c!"pässwort")⟩]
    env.Supplies .password IsText ∧
    ((⟨Plain.client, ()⟩ : Started).session (fun _ => 0) |>.run Plain.client env [⟨none, []⟩]).1.map (·.out) =
      [0 :: Str.bytes (c!"jürgen") ++ 0 :: Str.bytes (c!"pässwort")] := by
  refine ⟨exampleEnv_supplies _ fun v hv => ?_, by decide +kernel⟩
  simp only [List.mem_cons, PV.mk.injEq, List.not_mem_nil, reduceCtorEq, false_and, or_false, false_or, true_and] at hv
  cases hv
  exact .str _

/-- A server's nonce beyond ASCII that is text. -/
example : IsText (b!"r=!!!!!!!!!!!!!!!!!!!!!!!!" ++ Str.bytes (c!"ü") ++ b!",s=AAAA,i=1") :=
  ((IsText.ascii (by decide)).append (.str _)).append (.ascii (by decide))

/-- What a SCRAM server says to a nonce with a byte that is in no text. -/
def strangeNonce : List (Outcome State × Bytes) :=
  ((⟨Scram.server toyDigest, Scram.serverNew false⟩ : Started).session (fun _ => 0) |>.run (Scram.server toyDigest)
    (exampleEnv []) [⟨some (b!"n,,n=u,r=abc" ++ [255]), []⟩]).1.map fun r => (r.res, r.out)

/-- Nothing: it objects. -/
example : ∃ e, strangeNonce = [(.err e, [])] := ⟨_, rfl⟩

end Rsasl

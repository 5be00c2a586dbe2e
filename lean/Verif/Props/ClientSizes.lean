/-
C115: how much a client sends.
-/
import Verif.Proofs.Pays
import Verif.Proofs.ScramParse
import Verif.Proofs.Silent
import Verif.Spec.ClientSizes
import Verif.Props.Sizes
import Verif.Props.ScramSteps

namespace Rsasl

open Spec

variable {S α β G : Type} {wt : Event → Nat} {φ : S → Nat} {n k : Nat} {env : Env}

theorem Pays.action {p : Property} {ctx : Provider} {v : p.Value} :
    Pays wt φ n (fun _ => n) (Rsasl.action env p ctx v : M S Unit) := by
  refine ⟨fun s w => ?_⟩
  obtain ⟨o, es, h, -, -⟩ := action_log env p ctx v s w
  rw [h]
  cases o <;> simp [leftOver, World.addLog] <;> omega

/-- Whole sessions. -/
theorem Pays.run {m : Mech} {φ : m.S → Nat} {cost : Option Bytes → Nat} {env : Env}
    (h : ∀ input, Pays wt φ (cost input) (fun _ => 0) (m.step env input))
    (calls : List Call) (ses : Session m.S) :
    totalOut (ses.run m env calls).1 + weigh wt ses.log ≤
      φ ses.st + (calls.map fun c => cost c.input).sum + weigh wt (ses.run m env calls).2.log := by
  induction calls generalizing ses with
  | nil => simp [Session.run, totalOut]
  | cons c cs ih =>
    have h1 := ih (ses.step m env c).2
    have h2 := (h c.input).on ses.st ⟨⟨[], c.sched⟩, ses.rng, ses.slot, ses.log⟩
    rcases hm : m.step env c.input ses.st ⟨⟨[], c.sched⟩, ses.rng, ses.slot, ses.log⟩ with ⟨o, s', w'⟩
    rw [hm] at h2
    rw [run_cons]
    rw [step_of hm] at h1 ⊢
    simp only [totalOut, List.map_cons, List.sum_cons, List.length_nil] at *
    omega

/-! ## The simple mechanisms -/

theorem Plain.client_pays (input : Option Bytes) :
    Pays (clientAnswer .plain) (fun _ => 0) 1 (fun _ => 0) (Plain.clientStep env input) := by
  unfold Plain.clientStep
  refine Pays.bind (Pays.ask (p := .authzId) (c := fun _ => 0) fun v => ?_) fun o =>
    Pays.bind (c := fun _ => 0) ((Pays.writeAll (k := 0) _).weaken (by cases o <;> simp) fun _ => Nat.le_refl _) fun _ =>
    Pays.bind (Pays.needWith (p := .authId) (n := 0) (c := fun _ => 1) fun v => ?_) fun _ =>
    Pays.bind (c := fun _ => 0) ((Pays.writeAll (k := 0) _).weaken (by simp) fun _ => Nat.le_refl _) fun _ =>
    Pays.bind (Pays.needWith (p := .password) (n := 0) (c := fun _ => 0) fun v => ?_) fun _ => .pure (Nat.zero_le _)
  · unfold Plain.clientAuthzid
    split
    · exact .fail _
    · exact Pays.writeAll (k := 0) _
  · unfold Plain.clientAuthid
    split
    · exact .fail _
    · split
      · exact .fail _
      · exact Pays.writeAll (k := 1) _
  · unfold Plain.clientPassword
    split
    · exact .fail _
    · split
      · exact .fail _
      · exact Pays.writeAll (k := 0) _

theorem Login.client_pays (input : Option Bytes) :
    Pays (clientAnswer .login) (fun _ => 0) 0 (fun _ => 0) (Login.clientStep env input) := by
  unfold Login.clientStep
  refine Pays.bind Pays.get fun st => ?_
  split
  · exact Pays.bind (Pays.needWith (p := .authId) (n := 0) (c := fun _ => 0) fun v => Pays.writeAll (k := 0) _) fun _ =>
      Pays.bind (Pays.set (n := 0) (φ := fun _ => 0)) fun _ => .pure (Nat.le_refl _)
  · exact Pays.bind (Pays.needWith (p := .password) (n := 0) (c := fun _ => 0) fun v => Pays.writeAll (k := 0) _) fun _ =>
      Pays.bind (Pays.set (n := 0) (φ := fun _ => 0)) fun _ => .pure (Nat.le_refl _)
  · exact .fail _

theorem External.client_pays (input : Option Bytes) :
    Pays (clientAnswer .external) (fun _ => 0) 0 (fun _ => 0) (External.clientStep env input) := by
  unfold External.clientStep
  exact Pays.bind (Pays.ask (p := .authzId) (n := 0) (c := fun _ => 0) fun v => Pays.writeAll (k := 0) _) fun _ =>
    .pure (Nat.zero_le _)

theorem Anonymous.client_pays (input : Option Bytes) :
    Pays (clientAnswer .anonymous) (fun _ => 0) 0 (fun _ => 0) (Anonymous.clientStep env input) := by
  unfold Anonymous.clientStep
  exact Pays.bind (Pays.ask (p := .anonymousToken) (n := 0) (c := fun _ => 0) fun v => Pays.writeAll (k := 0) _) fun _ =>
    .pure (Nat.zero_le _)

theorem XOAuth2.client_pays (input : Option Bytes) :
    Pays (clientAnswer .xoauth2) (fun _ => 0) 0 (fun _ => 0) (XOAuth2.clientStep env input) := by
  unfold XOAuth2.clientStep
  refine Pays.bind Pays.get fun st => ?_
  split
  · refine Pays.bind (Pays.needWith (p := .authId) (n := 0) (c := fun _ => 0) fun v => ?_) fun _ =>
      Pays.bind (Pays.needWith (p := .oauthBearerToken) (n := 0) (c := fun _ => 0) fun v => ?_) fun _ =>
      Pays.bind (Pays.set (n := 0) (φ := fun _ => 0)) fun _ => .pure (Nat.le_refl _)
    · refine (Pays.writeVectored (k := 0) _).weaken ?_ fun _ => Nat.le_refl _
      simp [clientAnswer, XOAuth2.userPrefix, XOAuth2.authPrefix]
      omega
    · refine (Pays.writeVectored (k := 0) _).weaken ?_ fun _ => Nat.le_refl _
      simp [clientAnswer, XOAuth2.endMark]
  · refine Pays.bind (Pays.set (n := 0) (φ := fun _ => 0)) fun _ => ?_
    dsimp only
    split
    · exact .pure (Nat.le_refl _)
    · exact Pays.bind (Pays.okOr _ _) fun _ => Pays.bind Pays.action fun _ => .pure (Nat.le_refl _)
  · exact .fail _

theorem OAuthBearer.writeKVs_pays {S : Type} {φ : S → Nat} (l : List (Str × Str)) :
    Pays wt φ (l.map fun kv => 2 + (Str.bytes kv.1).length + (Str.bytes kv.2).length).sum (fun _ => 0)
      (OAuthBearer.writeKVs l : M S Unit) := by
  induction l with
  | nil => exact .pure (Nat.zero_le _)
  | cons kv l ih =>
    obtain ⟨key, v⟩ := kv
    unfold OAuthBearer.writeKVs
    refine Pays.bind ((Pays.writeVectored _).weaken ?_ fun _ => Nat.le_refl _) fun _ => ih
    simp
    omega

theorem OAuthBearer.client_pays (json : OAuthBearer.Json) (input : Option Bytes) :
    Pays (clientAnswer .oauthbearer) (fun _ => 0) 3 (fun _ => 0) (OAuthBearer.clientStep json env input) := by
  unfold OAuthBearer.clientStep
  refine Pays.bind Pays.get fun st => ?_
  split
  · refine Pays.bind (c := fun _ => 1) ((Pays.writeAll (k := 1) _).weaken (by simp) fun _ => Nat.le_refl _) fun _ =>
      Pays.bind (Pays.ask (p := .authzId) (n := 1) (c := fun _ => 0) fun v => ?_) fun o =>
      Pays.bind (c := fun _ => 0) ((Pays.writeAll (k := 0) _).weaken (by cases o <;> simp) fun _ => Nat.le_refl _) fun _ =>
      Pays.bind (Pays.ask (p := .oauthBearerKV) (n := 0) (c := fun _ => 0) fun v => OAuthBearer.writeKVs_pays _) fun _ =>
      Pays.bind (c := fun _ => 0) ((Pays.needWith (p := .oauthBearerToken) (n := 0) (c := fun _ => 0) fun v => ?_).weaken
        (Nat.zero_le _) fun _ => Nat.le_refl _) fun _ =>
      Pays.bind (Pays.set (n := 0) (φ := fun _ => 0)) fun _ => .pure (Nat.le_refl _)
    · refine Pays.bind (c := fun _ => (Str.bytes v).length) ((Pays.writeAll (k := (Str.bytes v).length) _).weaken
        (by simp [clientAnswer]) fun _ => Nat.le_refl _) fun _ => Pays.writeAll (k := 0) _
    · refine (Pays.writeVectored (k := 0) _).weaken ?_ fun _ => Nat.le_refl _
      simp [clientAnswer, XOAuth2.endMark, XOAuth2.authPrefix]
      omega
  · refine Pays.bind (Pays.set (n := 3) (φ := fun _ => 0)) fun _ => ?_
    dsimp only
    split
    · exact .pure (Nat.zero_le _)
    · exact Pays.bind (Pays.okOr _ _) fun _ => Pays.bind Pays.action fun _ => .pure (Nat.zero_le _)
  · exact .fail _

/-! ## SCRAM -/

namespace Scram

theorem base64Size_add (a b : Nat) : base64Size (a + b) ≤ base64Size a + base64Size b := by
  unfold base64Size
  omega

theorem base64Size_mono {a b : Nat} (h : a ≤ b) : base64Size a ≤ base64Size b := by
  unfold base64Size
  omega

/-- What a client has yet to send, apart from what the server sends for it to repeat. -/
def stillToSend (d : Digest) (start : CbSupport → Nat) : CS → Nat
  | some (.initial plus) => start plus
  | some (.clientFirst cb _ _) => cb.length + base64Size d.outLen
  | _ => 0

/-- What has been gathered for the header. -/
def gathered (l : Gs2) : Nat := inHeader l.header.length + base64Size (l.cbdata.getD []).length

variable {f : CS → Nat}

theorem pushHeader_pays (b : Bytes) :
    Pays wt (fun x : CS × Gs2 => f x.1 + gathered x.2) (inHeader b.length + k) (fun _ => k) (pushHeader b) := by
  refine ⟨fun s w => ?_⟩
  have := base64Size_add s.2.header.length b.length
  rw [pushHeader_apply]
  simp only [leftOver, gathered, inHeader, List.length_append]
  omega

theorem setCbdata_pays (b : Bytes) :
    Pays wt (fun x : CS × Gs2 => f x.1 + gathered x.2) (base64Size b.length + k) (fun _ => k) (setCbdata b) := by
  refine ⟨fun s w => ?_⟩
  rw [setCbdata_apply]
  simp only [leftOver, gathered, inHeader, Option.getD_some]
  omega

theorem escapeM_pays {S : Type} {φ : S → Nat} (x : Str) :
    Pays wt φ ((Str.bytes (writtenName x)).length + k) (fun s => (Str.bytes s).length + k) (escapeM x : M S Str) := by
  refine ⟨fun s w => ?_⟩
  rw [escapeM_apply]
  cases objectionSaslName x <;> simp [leftOver] <;> omega

/-- Channel bindings come from the session, at a price, or from the callback, who pays for them. -/
theorem maybeNeedCbData_pays {S : Type} {φ : S → Nat} {name : Str} {ctx : Provider} {f : Bytes → M S Unit} {price : Nat}
    (h1 : ∀ v, env.chanbind name = some v → Pays wt φ price (fun _ => 0) (f v))
    (h2 : ∀ v, Pays wt φ (wt (.answered .channelBindings v)) (fun _ => 0) (f v)) :
    Pays wt φ (n + price) (fun o => match o with | some _ => n | none => n + price) (maybeNeedCbData env name ctx f) := by
  unfold maybeNeedCbData
  dsimp only
  split
  · next v hv =>
    refine Pays.bind (((h1 v hv).frame n).weaken (by omega) fun _ => Nat.le_refl _) fun _ => .pure ?_
    dsimp only
    omega
  · refine (Pays.ask (p := .channelBindings) (c := fun _ => 0) fun v => h2 v).weaken (Nat.le_refl _) fun o => ?_
    cases o <;> simp

theorem needCbData_pays {S : Type} {φ : S → Nat} {name : Str} {ctx : Provider} {f : Bytes → M S Unit} {price : Nat}
    (h1 : ∀ v, env.chanbind name = some v → Pays wt φ price (fun _ => 0) (f v))
    (h2 : ∀ v, Pays wt φ (wt (.answered .channelBindings v)) (fun _ => 0) (f v)) :
    Pays wt φ (n + price) (fun _ => n) (needCbData env name ctx f) := by
  unfold needCbData
  refine Pays.bind (maybeNeedCbData_pays h1 h2) fun o => ?_
  cases o with
  | none => exact .fail _
  | some g => exact .pure (Nat.le_refl _)

/-- What the first part of the header and the channel bindings may cost. -/
def cbPrice (m : Nat) : CbSupport → Nat
  | .supported => inHeader 2 + (inHeader 12 + base64Size m)
  | _ => inHeader 1

theorem clientCb_pays {m : Nat} (hm : ∀ name v, env.chanbind name = some v → v.length ≤ m) (plus : CbSupport) :
    Pays scramAnswer (fun x : CS × Gs2 => f x.1 + gathered x.2) (n + cbPrice m plus) (fun _ => n) (clientCb env plus) := by
  have both : ∀ (name : Str) (v : Bytes) (p : Nat), (Str.bytes name).length ≤ 12 →
      inHeader 12 + base64Size v.length ≤ p →
      Pays scramAnswer (fun x : CS × Gs2 => f x.1 + gathered x.2) p (fun _ => 0)
        (do pushHeader (Str.bytes name); setCbdata v) := by
    intro name v p hn hp
    have : inHeader (Str.bytes name).length ≤ inHeader 12 := by
      have := base64Size_mono hn
      unfold inHeader
      omega
    refine Pays.bind ((pushHeader_pays (k := base64Size v.length) _).weaken (by omega) fun _ => Nat.le_refl _) fun _ =>
      setCbdata_pays (k := 0) _
  have fixed : ∀ (name : Str) (v : Bytes), env.chanbind name = some v →
      inHeader 12 + base64Size v.length ≤ inHeader 12 + base64Size m := by
    intro name v h
    have := base64Size_mono (hm name v h)
    omega
  cases plus with
  | clientNoSupport => exact (pushHeader_pays (k := n) _).weaken (by simp [cbPrice]; omega) fun _ => Nat.le_refl _
  | serverNoSupport => exact (pushHeader_pays (k := n) _).weaken (by simp [cbPrice]; omega) fun _ => Nat.le_refl _
  | supported =>
    refine Pays.bind (c := fun _ => n + (inHeader 12 + base64Size m)) ((pushHeader_pays (k := n + (inHeader 12 + base64Size m)) _).weaken
      (by simp [cbPrice]; omega) fun _ => Nat.le_refl _) fun _ =>
      Pays.bind (Pays.ask (p := .overrideCBType) (c := fun _ => 0) fun v => ?_) fun o => ?_
    · exact Pays.bind (pushHeader_pays (k := 0) _) fun _ => .pure (Nat.le_refl _)
    · cases o with
      | some name =>
        refine (needCbData_pays (n := n) (price := inHeader 12 + base64Size m) (fun v hv => ?_) fun v => ?_).weaken
          (by simp) fun _ => Nat.le_refl _
        · have := fixed _ v hv
          exact (setCbdata_pays (k := 0) _).weaken (by omega) fun _ => Nat.le_refl _
        · exact (setCbdata_pays (k := 0) _).weaken (by simp [scramAnswer]) fun _ => Nat.le_refl _
      | none =>
        refine Pays.bind ((maybeNeedCbData_pays (n := n) (price := inHeader 12 + base64Size m) (fun v hv => ?_) fun v => ?_).weaken
          (by simp) fun _ => Nat.le_refl _) fun o => ?_
        · exact both tlsExporter v _ (by decide) (fixed _ v hv)
        · exact both tlsExporter v _ (by decide) (Nat.le_refl _)
        · cases o with
          | some _ => exact .pure (Nat.le_refl _)
          | none =>
            refine needCbData_pays (fun v hv => ?_) fun v => ?_
            · exact both tlsUnique v _ (by decide) (fixed _ v hv)
            · exact both tlsUnique v _ (by decide) (Nat.le_refl _)

/-- Code at whose end the local variables are given up, with the potential they have. -/
structure Yields {S L α : Type} (wt : Event → Nat) (φ : S → Nat) (g : L → Nat) (n : Nat) (c : α → Nat) (m : M (S × L) α) : Prop where
  on : ∀ s w, (m s w).2.2.wr.out.length + leftOver c (m s w).1 + φ (m s w).2.1.1 + weigh wt w.log ≤
    w.wr.out.length + n + (φ s.1 + g s.2) + weigh wt (m s w).2.2.log

theorem Yields.bind {S L α β : Type} {φ : S → Nat} {g : L → Nat} {c : α → Nat} {c' : β → Nat} {m : M (S × L) α}
    {f : α → M (S × L) β} (h1 : Pays wt (fun x => φ x.1 + g x.2) n c m) (h2 : ∀ a, Yields wt φ g (c a) c' (f a)) :
    Yields wt φ g n c' (m >>= f) := by
  refine ⟨fun s w => ?_⟩
  have h := h1.on s w
  rcases hm : m s w with ⟨o, s1, w1⟩
  rw [hm] at h
  cases o with
  | ok a =>
    rw [M.bind_ok hm]
    have h' := (h2 a).on s1 w1
    simp only [leftOver] at h
    omega
  | err e =>
    rw [M.bind_err hm]
    simp only [leftOver] at h ⊢
    omega
  | panic =>
    rw [M.bind_panic hm]
    simp only [leftOver] at h ⊢
    omega

theorem Yields.withLocal {S L α : Type} {φ : S → Nat} {g : L → Nat} {c : α → Nat} {m : M (S × L) α} {l : L}
    (h : Yields wt φ g n c m) (hl : g l = 0) : Pays wt φ n c (M.withLocal l m) := by
  refine ⟨fun s w => ?_⟩
  have h := h.on (s, l) w
  rw [hl] at h
  exact h

/-- What a client has to send at first. -/
def fromStart (d : Digest) (m : Nat) (plus : CbSupport) : Nat :=
  cbPrice m plus + 2 * inHeader 1 + 29 + base64Size d.outLen

theorem first_yields (d : Digest) (start : CbSupport → Nat) (user : Str) (nonce : Bytes) (hn : nonce.length = 24) (s : CS) (l : Gs2)
    (w : World) :
    let r := (do
        M.writeVectored [l.header, b!"n=", Str.bytes user, b!",r=", nonce]
        pure (CState.clientFirst (Base64.encode (match l.cbdata with
          | some cbdata => l.header ++ cbdata
          | none => l.header)) nonce user) : M (CS × Gs2) CState) (s, l) w
    r.2.2.wr.out.length + leftOver (fun new => stillToSend d start (some new)) r.1 + stillToSend d start r.2.1.1 +
      weigh scramAnswer w.log ≤
    w.wr.out.length + ((Str.bytes user).length + (29 + base64Size d.outLen)) + (stillToSend d start s + gathered l) +
      weigh scramAnswer r.2.2.log := by
  have hcb : (Base64.encode (match l.cbdata with
      | some cbdata => l.header ++ cbdata
      | none => l.header)).length ≤ base64Size l.header.length + base64Size (l.cbdata.getD []).length := by
    have hb : ∀ x : Bytes, (Base64.encode x).length = base64Size x.length := by
      intro x
      rw [Base64.length_encode]
      rfl
    cases l.cbdata with
    | none => simp [hb]
    | some c =>
      rw [hb, List.length_append]
      exact base64Size_add _ _
  generalize Base64.encode _ = cb at hcb ⊢
  have hl : [l.header, b!"n=", Str.bytes user, b!",r=", nonce].flatten.length =
      l.header.length + 29 + (Str.bytes user).length := by
    simp [hn]
    omega
  obtain ⟨i, sc, hi, -, h⟩ := M.writeVectored_cases [l.header, b!"n=", Str.bytes user, b!",r=", nonce] (s, l) w
  have ht := List.length_take_le' i [l.header, b!"n=", Str.bytes user, b!",r=", nonce].flatten
  rcases h with h | ⟨e, h⟩
  · rw [M.bind_ok h]
    simp only [leftOver, stillToSend, gathered, inHeader, pure, M.pure, List.length_append]
    omega
  · rw [M.bind_err h]
    simp only [leftOver, List.length_append, gathered, inHeader]
    omega

theorem sendClientFirst_pays (d : Digest) {m : Nat} {start : CbSupport → Nat} (hm : ∀ name v, env.chanbind name = some v → v.length ≤ m)
    (plus : CbSupport) :
    Pays scramAnswer (stillToSend d start) (fromStart d m plus) (fun new => stillToSend d start (some new))
      (M.withLocal {} (sendClientFirst nonceLen env plus)) := by
  refine Yields.withLocal (g := gathered) ?_ rfl
  unfold sendClientFirst
  have h1 : inHeader 1 = inHeader (b!",").length := rfl
  refine Yields.bind (c := fun _ => 2 * inHeader 1 + 29 + base64Size d.outLen)
    ((clientCb_pays hm plus).weaken (by simp only [fromStart]; omega) fun _ => Nat.le_refl _) fun _ =>
    Yields.bind (c := fun _ => inHeader 1 + 29 + base64Size d.outLen) ((pushHeader_pays _).weaken (by omega) fun _ => Nat.le_refl _) fun _ =>
    Yields.bind (Pays.ask (p := .authzId) (c := fun _ => 0) fun v => ?_) fun o =>
    Yields.bind (c := fun _ => 29 + base64Size d.outLen) ((pushHeader_pays (k := 29 + base64Size d.outLen) _).weaken
      (by cases o <;> simp only [] <;> omega) fun _ => Nat.le_refl _) fun _ =>
    Yields.bind (Pays.needWith (p := .authId) (c := fun s => (Str.bytes s).length) fun v => escapeM_pays (k := 0) v) fun user => ?_
  · unfold clientAuthzid
    refine Pays.bind (c := fun _ => inHeader (Str.bytes (writtenName v)).length) ((pushHeader_pays _).weaken
      (by simp [scramAnswer]) fun _ => Nat.le_refl _) fun _ => ?_
    refine ⟨fun s w => ?_⟩
    have he := escapeM_apply v s w
    cases ho : objectionSaslName v with
    | some e =>
      rw [ho] at he
      rw [M.bind_err he]
      simp only [leftOver]
      omega
    | none =>
      rw [ho] at he
      rw [M.bind_ok he]
      exact (pushHeader_pays (k := 0) (Str.bytes (writtenName v))).on s w
  · refine ⟨fun s w => ?_⟩
    obtain ⟨s, l⟩ := s
    exact first_yields d start user _ (by simp [nonceLen]) s l { w with rng := fun i => w.rng (i + 24) }

theorem checkServerFirst_size {nonce input : Bytes} {sf : ServerFirst} {sn : Bytes} {it : UInt32} {salt : Bytes}
    (h : checkServerFirst nonce input = .ok (sf, sn, it, salt)) : sf.nonce.length + 8 ≤ input.length := by
  have hp : ServerFirst.parse input = .ok sf := by
    unfold checkServerFirst at h
    obtain ⟨sf', h1, h⟩ := Outcome.bind_eq_ok.1 h
    split at h
    · cases h
    · split at h
      · cases h
      · obtain ⟨count, -, h⟩ := Outcome.bind_eq_ok.1 h
        repeat' first
          | (cases h; done)
          | (cases h; exact h1)
          | split at h
  obtain ⟨-, -, -, -, rfl⟩ := ServerFirst.parse_eq_ok.1 hp
  simp
  omega

theorem handleServerFirst_pays (d : Digest) {start : CbSupport → Nat} (cb nonce : Bytes) (user : Str) (input : Bytes) :
    Pays scramAnswer (stillToSend d start) (input.length + (cb.length + base64Size d.outLen))
      (fun new => stillToSend d start (some new)) (handleServerFirst d env cb nonce user input) := by
  unfold handleServerFirst
  cases hc : checkServerFirst nonce input with
  | err e => exact .fail_bind
  | panic => exact .panic_bind
  | ok x =>
    obtain ⟨sf, sn, it, salt⟩ := x
    have hs := checkServerFirst_size hc
    refine Pays.pure_bind ?_
    dsimp only
    refine Pays.bind (c := fun _ => input.length + (cb.length + base64Size d.outLen)) ?_ fun keys => ?_
    · unfold clientKeys
      refine Pays.bind (Pays.ask (p := .scramCachedPassword) (c := fun _ => 0) fun v => ?_) fun o => ?_
      · unfold useCached
        split
        · exact .pure (Nat.zero_le _)
        · exact .panic
      · cases o with
        | some keys => exact .pure (by simp)
        | none =>
          refine Pays.bind (c := fun _ => input.length + (cb.length + base64Size d.outLen)) ((Pays.ask (p := .saltedPassword)
            (c := fun _ => 0) (n := input.length + (cb.length + base64Size d.outLen)) fun v => ?_).weaken (by simp)
            fun o => by cases o <;> simp) fun o => ?_
          · unfold useSalted
            split
            · exact .fail _
            · exact .pure (Nat.zero_le _)
          · cases o with
            | some keys => exact .pure (Nat.le_refl _)
            | none =>
              refine (Pays.needWith (p := .password) (c := fun _ => 0) fun v => ?_).weaken (Nat.le_refl _)
                fun _ => by simp
              exact .pure (Nat.zero_le _)
    · refine Pays.bind (c := fun _ => 0) ((Pays.writeVectored (k := 0) _).weaken ?_ fun _ => Nat.le_refl _) fun _ =>
        .pure (Nat.le_refl _)
      have hx : ∀ a b : Bytes, b.length = d.outLen → (Base64.encode (xor a b)).length ≤ base64Size d.outLen := by
        intro a b hb
        rw [Base64.length_encode]
        refine Nat.le_trans (Nat.le_refl (base64Size (xor a b).length)) (base64Size_mono ?_)
        unfold xor
        rw [List.length_zipWith]
        omega
      have := hx keys.1 (d.hmac (d.hash keys.1) (authMessage user nonce sn sf.salt sf.iterationCount cb)) (d.hmac_length _ _)
      simp [ClientFinal.ioslices, computeSignatures]
      omega

theorem handleServerFinal_pays {v ck sk salt : Bytes} {it : UInt32} {input : Bytes} {φ : CS → Nat} :
    Pays wt φ n (fun _ => 0) (handleServerFinal env v ck sk salt it input) := by
  unfold handleServerFinal
  refine Pays.bind (Pays.liftOutcome _) fun x => ?_
  split
  · split
    · exact .fail _
    · split
      · exact Pays.bind (Pays.attempt Pays.action) fun _ => .pure (Nat.zero_le _)
      · exact .fail _
  · exact .fail _

theorem client_pays (d : Digest) {m : Nat} (hm : ∀ name v, env.chanbind name = some v → v.length ≤ m)
    (input : Option Bytes) :
    Pays scramAnswer (stillToSend d (fromStart d m)) (input.getD []).length (fun _ => 0) (clientStep d nonceLen env input) := by
  unfold clientStep
  refine Pays.take rfl fun st => ?_
  split
  · refine Pays.bind ((sendClientFirst_pays d hm _).weaken (Nat.le_add_left _ _) fun _ => Nat.le_refl _) fun new => ?_
    exact Pays.bind (c := fun _ => 0) ((Pays.set (n := 0) (s' := some new)).weaken
      (Nat.le_of_eq (Nat.zero_add _)) fun _ => Nat.le_refl _) fun _ => .pure (Nat.le_refl _)
  · cases input with
    | none => exact .fail_bind
    | some i =>
      refine Pays.pure_bind ?_
      refine Pays.bind (handleServerFirst_pays d _ _ _ i) fun new => ?_
      exact Pays.bind (c := fun _ => 0) ((Pays.set (n := 0) (s' := some new)).weaken
        (Nat.le_of_eq (Nat.zero_add _)) fun _ => Nat.le_refl _) fun _ => .pure (Nat.le_refl _)
  · refine Pays.bind (Pays.okOr _ _) fun _ => Pays.bind handleServerFinal_pays fun _ => .pure (Nat.zero_le _)
  · exact .panic

end Scram

namespace Gssapi

variable {lib : Lib}

/-- The wrapped message not yet sent. -/
def lastToSend (k : Nat) : CState lib → Nat
  | .initial | .pending _ | .last _ _ => k
  | _ => 0

theorem client_pays {t k : Nat} (ht : ∀ ctx i tok, (lib.clientStep ctx i).1 = .ok (some tok) → tok.length ≤ t)
    (hk : ∀ ctx e i b, (lib.wrap ctx e i).1 = .ok b → b.length ≤ k) (input : Option Bytes) :
    Pays wt (lastToSend k) t (fun _ => 0) (clientStep lib env input) := by
  have h : ∀ ctx, Pays wt (lastToSend k) (t + k) (fun _ => 0) (clientPending lib env ctx input) := by
    intro ctx
    unfold clientPending
    dsimp only
    cases hs : (lib.clientStep ctx input).1 with
    | error e => exact .fail_bind
    | ok tok =>
      refine Pays.pure_bind ?_
      generalize (lib.clientStep ctx input).2 = ctx'
      have rest : Pays wt (lastToSend k) k (fun _ => 0) (if lib.isComplete ctx' then do
            let acceptable ← maybeNeedWith env .gssSecurityLayer .empty (clientAcceptable lib ctx')
            M.set (.last ctx' (match acceptable with
              | some a => a
              | none => .all))
            pure .running
          else do
            M.set (.pending ctx')
            pure .running : M (CState lib) State) := by
        split
        · refine Pays.bind (c := fun _ => k) ((Pays.ask (p := .gssSecurityLayer) (c := fun _ => 0) (n := k) fun v => ?_).weaken
            (Nat.le_refl _) fun o => by cases o <;> simp) fun o => ?_
          · unfold clientAcceptable
            refine Pays.bind (Pays.liftGss _) fun _ => ?_
            repeat' split
            all_goals first
              | exact .pure (Nat.zero_le _)
              | exact .fail _
          · exact Pays.bind (c := fun _ => 0) ((Pays.set (n := 0) (φ := lastToSend k) (s' := CState.last _ _)).weaken
              (by simp [lastToSend]) fun _ => Nat.le_refl _) fun _ => .pure (Nat.le_refl _)
        · exact Pays.bind (c := fun _ => 0) ((Pays.set (n := 0) (φ := lastToSend k) (s' := CState.pending _)).weaken
              (by simp [lastToSend]) fun _ => Nat.le_refl _) fun _ => .pure (Nat.le_refl _)
      cases tok with
      | none => exact rest.weaken (by omega) fun _ => Nat.le_refl _
      | some tok =>
        have := ht _ _ _ hs
        dsimp only
        split
        · exact rest.weaken (by omega) fun _ => Nat.le_refl _
        · exact Pays.bind ((Pays.writeAll (k := k) _).weaken (by omega) fun _ => Nat.le_refl _) fun _ => rest
  unfold clientStep
  refine Pays.take rfl fun st => ?_
  split
  · refine Pays.bind (Pays.needWith (p := .gssService) (c := fun _ => 0) fun v => .pure (Nat.zero_le _)) fun _ =>
      Pays.bind (Pays.needWith (p := .hostname) (c := fun _ => 0) fun v => .pure (Nat.zero_le _)) fun _ =>
      Pays.bind (Pays.liftGss _) fun _ => (h _).weaken (by simp [lastToSend]) fun _ => Nat.le_refl _
  · exact h _
  · refine Pays.bind (Pays.okOr _ _) fun _ => ?_
    dsimp only
    refine Pays.bind (Pays.liftGss _) fun _ => Pays.bind (Pays.lift _) fun _ => ?_
    split
    · exact .fail _
    · next response wrap _ =>
      generalize (lib.unwrap _ _).2 = ctx
      cases hw : (lib.wrap ctx false response).1 with
      | error e => exact .fail_bind
      | ok b =>
        have := hk _ _ _ _ hw
        refine Pays.pure_bind (Pays.bind (c := fun _ => 0) ((Pays.writeAll (k := 0) _).weaken
          (by simp only [lastToSend]; omega) fun _ => Nat.le_refl _)
          fun _ => Pays.bind (c := fun _ => 0) ?_ fun _ => .pure (Nat.le_refl _))
        exact Pays.set (n := 0) (φ := lastToSend k) (s' := CState.completed _)
  · exact .fail _
  · exact .fail _

end Gssapi

/-! ## C115: whole sessions -/

/-- In any session with any server a client sends no more than what its application supplies, with the labels around it, and a
fixed number of bytes; in SCRAM also as many bytes as it was sent. `m` bounds the channel bindings the session was given. -/
theorem C115_bounded (deps : Deps) (a : Auth) (ha : a ≠ .gssapi) (cli : Started) (h : a.startClient deps = some cli)
    (rng : Nat → Nat) (env : Env) {m : Nat} (hm : ∀ name v, env.chanbind name = some v → v.length ≤ m)
    (calls : List Call) :
    totalOut ((cli.session rng).run cli.mech env calls).1 ≤
      clientAllowance deps m a + forCalls a calls + clientAnswers a ((cli.session rng).run cli.mech env calls).2.log := by
  have key : ∀ (φ : cli.mech.S → Nat), (∀ input, Pays (clientAnswer a) φ (forCall a input) (fun _ => 0) (cli.mech.step env input)) →
      φ cli.init ≤ clientAllowance deps m a →
      totalOut ((cli.session rng).run cli.mech env calls).1 ≤
      clientAllowance deps m a + forCalls a calls + clientAnswers a ((cli.session rng).run cli.mech env calls).2.log := by
    intro φ hc h0
    have := Pays.run hc calls (cli.session rng)
    have hl : (cli.session rng).log = [] := rfl
    have hs : (cli.session rng).st = cli.init := rfl
    rw [hl, hs] at this
    simp only [forCalls, clientAnswers, weigh] at this ⊢
    simp only [List.map_nil, List.sum_nil] at this
    omega
  cases a <;> cases h
  case gssapi => exact absurd rfl ha
  case plain => exact key (fun _ => 0) (fun i => Plain.client_pays i) (Nat.le_refl _)
  case login => exact key (fun _ => 0) (fun i => Login.client_pays i) (Nat.le_refl _)
  case external => exact key (fun _ => 0) (fun i => External.client_pays i) (Nat.le_refl _)
  case anonymous => exact key (fun _ => 0) (fun i => Anonymous.client_pays i) (Nat.le_refl _)
  case xoauth2 => exact key (fun _ => 0) (fun i => XOAuth2.client_pays i) (Nat.le_refl _)
  case oauthbearer => exact key (fun _ => 0) (fun i => OAuthBearer.client_pays _ i) (Nat.le_refl _)
  case scramClient hash b =>
    refine key (Scram.stillToSend (deps.digest hash) (Scram.fromStart (deps.digest hash) m))
      (fun i => Scram.client_pays _ hm i) ?_
    cases b <;> simp only [Scram.clientNew, Scram.stillToSend, Scram.fromStart, Scram.cbPrice, clientAllowance] <;> simp <;> omega
  case scramClientPlus hash =>
    refine key (Scram.stillToSend (deps.digest hash) (Scram.fromStart (deps.digest hash) m))
      (fun i => Scram.client_pays _ hm i) ?_
    simp only [Scram.clientNewPlus, Scram.stillToSend, Scram.fromStart, Scram.cbPrice, clientAllowance]
    omega

/-- GSSAPI sends a token of its library per call and one wrapped message. -/
theorem C115_gssapi (lib : Gssapi.Lib) {t k : Nat}
    (ht : ∀ ctx i tok, (lib.clientStep ctx i).1 = .ok (some tok) → tok.length ≤ t)
    (hk : ∀ ctx e i b, (lib.wrap ctx e i).1 = .ok b → b.length ≤ k) (rng : Nat → Nat) (env : Env) (calls : List Call) :
    totalOut ((⟨Gssapi.client lib, .initial⟩ : Started).session rng |>.run (Gssapi.client lib) env calls).1 ≤
      t * calls.length + k := by
  have := Pays.run (m := Gssapi.client lib) (wt := fun _ => 0) (φ := Gssapi.lastToSend k) (cost := fun _ => t) (env := env)
    (fun i => Gssapi.client_pays ht hk i) calls ((⟨Gssapi.client lib, .initial⟩ : Started).session rng)
  have hz : ∀ l, weigh (fun _ => 0) l = 0 := by intro l; induction l <;> simp_all
  have hc : (calls.map fun _ => t).sum = t * calls.length := by
    rw [List.map_const', List.sum_replicate_nat, Nat.mul_comm]
  have h0 : Gssapi.lastToSend k ((⟨Gssapi.client lib, .initial⟩ : Started).session rng).st = k := rfl
  simp only [hz, hc, h0] at this
  exact Nat.le_trans this (by omega)

/-! ## The bounds are met -/

/-- What a client sent, and what it was allowed. -/
def sentAndAllowed (a : Auth) (cli : Started) (env : Env) (calls : List Call) : Nat × Nat :=
  (totalOut ((cli.session fun _ => 0).run cli.mech env calls).1,
    clientAllowance toyDeps 0 a + forCalls a calls + clientAnswers a ((cli.session fun _ => 0).run cli.mech env calls).2.log)

/-- PLAIN: all that was supplied, and the two separators. -/
example : sentAndAllowed .plain ⟨Plain.client, ()⟩ (exampleEnv [⟨.authId, c!"user"⟩, ⟨.password, b!"secret"⟩])
    [⟨none, []⟩] = (12, 12) := by
  decide +kernel

/-- XOAUTH2 -/
example : sentAndAllowed .xoauth2 ⟨XOAuth2.client, .initial⟩
    (exampleEnv [⟨.authId, c!"user"⟩, ⟨.oauthBearerToken, c!"token"⟩]) [⟨none, []⟩] = (29, 29) := by
  decide +kernel

/-- OAUTHBEARER: with another identity and a pair of the application's. -/
example : sentAndAllowed .oauthbearer ⟨OAuthBearer.client toyDeps.json, .initial⟩
    (exampleEnv [⟨.authzId, c!"a"⟩, ⟨.oauthBearerKV, [(c!"k", c!"v")]⟩, ⟨.oauthBearerToken, c!"token"⟩])
    [⟨none, []⟩] = (30, 30) := by
  decide +kernel

/-- SCRAM sends back the nonce. The allowance is not used up: names count as if each were put in base64 on its own. -/
example : sentAndAllowed (.scramClient .sha1 true) ⟨Scram.client toyDigest, Scram.clientNew true⟩
    (exampleEnv [⟨.authId, c!"user"⟩, ⟨.password, b!"secret"⟩])
    [⟨none, []⟩, ⟨some (b!"r=!!!!!!!!!!!!!!!!!!!!!!!!xyz,s=AAAA,i=1"), []⟩] = (79, 92) := by
  decide +kernel

/-- A -PLUS client with channel bindings of four bytes. -/
example : let env : Env := { exampleEnv [⟨.authId, c!"user"⟩] with chanbind := fun _ => some (b!"data") }
    (∀ name v, env.chanbind name = some v → v.length ≤ 4) ∧
    totalOut ((⟨Scram.client toyDigest, Scram.clientNewPlus⟩ : Started).session (fun _ => 0) |>.run (Scram.client toyDigest) env
      [⟨none, []⟩]).1 = 49 := by
  refine ⟨fun name v h => ?_, by decide +kernel⟩
  cases h
  decide

/-- A library whose tokens have three bytes and whose wrapped messages have four. -/
example : totalOut ((⟨Gssapi.client { toyGss with clientStep := fun _ _ => (.ok (some [1, 2, 3]), ()), wrap := fun _ _ b => (.ok (b.take 4), ()) },
      .initial⟩ : Started).session (fun _ => 0) |>.run
      (Gssapi.client { toyGss with clientStep := fun _ _ => (.ok (some [1, 2, 3]), ()), wrap := fun _ _ b => (.ok (b.take 4), ()) })
      (exampleEnv [⟨.gssService, c!"imap"⟩, ⟨.hostname, c!"h"⟩]) [⟨none, []⟩, ⟨some [1, 0, 0, 0], []⟩]).1 ≤ 3 * 2 + 4 := by
  refine C115_gssapi _ ?_ ?_ _ _ _
  · intro ctx i tok h
    cases h
    decide
  · intro ctx e i b h
    cases h
    exact List.length_take_le _ _

/-- PLAIN has no state: the bound grows with the calls because a client that is called again starts again. -/
theorem C115_plain_again (n : Nat) (rng : Nat → Nat) :
    totalOut ((⟨Plain.client, ()⟩ : Started).session rng |>.run Plain.client (exampleEnv []) (List.replicate n ⟨none, []⟩)).1 =
      n := by
  suffices h : ∀ ses : Session Unit,
      totalOut (Session.run Plain.client (exampleEnv []) ses (List.replicate n ⟨none, []⟩)).1 = n from h _
  induction n with
  | zero => exact fun _ => rfl
  | succ n ih =>
    intro ses
    have h : (Session.step Plain.client (exampleEnv []) ses ⟨none, []⟩).1.out = [0] := rfl
    have := ih (Session.step Plain.client (exampleEnv []) ses ⟨none, []⟩).2
    rw [List.replicate_succ]
    erw [run_cons]
    simp only [totalOut, List.map_cons, List.sum_cons] at this ⊢
    rw [h]
    erw [this]
    exact Nat.add_comm 1 n

end Rsasl

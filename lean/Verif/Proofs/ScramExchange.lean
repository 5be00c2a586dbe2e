/-
Good runs of the SCRAM client and server.
-/
import Verif.Spec.ScramExchange
import Verif.Proofs.ScramServerRun
import Verif.Props.ScramMsgs

namespace Rsasl

variable {S T α β G : Type}

/-! ## Runs that draw random numbers -/

/-- Like `Does`, for code that draws random numbers: it starts with the stream `ρ` and leaves
`ρ'`. -/
def DoesR (C : List WResp → Prop) (m : M S α) (s : S) (ρ : Nat → Nat) (a : α) (s' : S)
    (ρ' : Nat → Nat) (out : Bytes) : Prop :=
  ∀ w : World, C w.wr.sched → w.rng = ρ → ∃ es sched, sched <:+ w.wr.sched ∧ validations es = [] ∧
    m s w = (.ok a, s', { w with wr := ⟨w.wr.out ++ out, sched⟩, rng := ρ', log := w.log ++ es })

theorem Does.rng {C : List WResp → Prop} {m : M S α} {s s' : S} {a : α} {o : Bytes}
    (h : Does C m s a s' o) (ρ : Nat → Nat) : DoesR C m s ρ a s' ρ o := by
  rintro w hw rfl
  exact h w hw

theorem DoesR.bind {C : List WResp → Prop} (hC : SuffixClosed C) {m : M S α} {f : α → M S β}
    {s s' s'' : S} {ρ ρ' ρ'' : Nat → Nat} {a : α} {b : β} {o₁ o₂ : Bytes}
    (h1 : DoesR C m s ρ a s' ρ' o₁) (h2 : DoesR C (f a) s' ρ' b s'' ρ'' o₂) :
    DoesR C (m >>= f) s ρ b s'' ρ'' (o₁ ++ o₂) := by
  intro w hw hr
  obtain ⟨es, sc, hsc, hv, h⟩ := h1 w hw hr
  obtain ⟨es', sc', hsc', hv', h'⟩ := h2
    { w with wr := ⟨w.wr.out ++ o₁, sc⟩, rng := ρ', log := w.log ++ es } (hC _ _ hw hsc) rfl
  refine ⟨es ++ es', sc', hsc'.trans hsc, by rw [validations_append, hv, hv']; rfl, ?_⟩
  rw [M.bind_ok h, h']
  simp

theorem DoesR.bind' {C : List WResp → Prop} (hC : SuffixClosed C) {m : M S α} {f : α → M S β}
    {s s' s'' : S} {ρ ρ' ρ'' : Nat → Nat} {a : α} {b : β} {o₁ o₂ o : Bytes}
    (h1 : DoesR C m s ρ a s' ρ' o₁) (h2 : DoesR C (f a) s' ρ' b s'' ρ'' o₂) (ho : o = o₁ ++ o₂) :
    DoesR C (m >>= f) s ρ b s'' ρ'' o := ho ▸ DoesR.bind hC h1 h2

/-- Sequencing when the first part does not write. -/
theorem DoesR.seq {C : List WResp → Prop} (hC : SuffixClosed C) {m : M S α} {f : α → M S β}
    {s s' s'' : S} {ρ ρ' ρ'' : Nat → Nat} {a : α} {b : β} {o : Bytes}
    (h1 : DoesR C m s ρ a s' ρ' []) (h2 : DoesR C (f a) s' ρ' b s'' ρ'' o) :
    DoesR C (m >>= f) s ρ b s'' ρ'' o := DoesR.bind' hC h1 h2 (List.nil_append _).symm

theorem DoesR.draw (C : List WResp → Prop) (n : Nat) (s : S) (ρ : Nat → Nat) :
    DoesR C (M.draw n : M S (List Nat)) s ρ ((List.range n).map ρ) s (fun i => ρ (i + n)) [] := by
  rintro w hw rfl
  exact ⟨[], w.wr.sched, List.suffix_refl _, rfl, by simp [M.draw]⟩

theorem DoesR.nonce (C : List WResp → Prop) (n : Nat) (s : S) (ρ : Nat → Nat) :
    DoesR C (Scram.generateNonce n : M S Bytes) s ρ (((List.range n).map ρ).map Scram.nonceChar) s
      (fun i => ρ (i + n)) [] := by
  rintro w hw rfl
  exact ⟨[], w.wr.sched, List.suffix_refl _, rfl, by rw [Scram.generateNonce_apply]; simp⟩

theorem DoesR.withLocal {C : List WResp → Prop} {t t' : T} {m : M (S × T) α} {s s' : S}
    {ρ ρ' : Nat → Nat} {a : α} {o : Bytes} (h : DoesR C m (s, t) ρ a (s', t') ρ' o) :
    DoesR C (M.withLocal t m) s ρ a s' ρ' o := by
  intro w hw hr
  obtain ⟨es, sc, hsc, hv, h⟩ := h w hw hr
  exact ⟨es, sc, hsc, hv, by simp [M.withLocal, h]⟩

theorem DoesR.exec {C : List WResp → Prop} {m : M S α} {ses : Session S} {a : α} {s' : S}
    {ρ' : Nat → Nat} {o : Bytes} (h : DoesR C m ses.st ses.rng a s' ρ' o) {sched : List WResp}
    (hs : C sched) :
    ∃ es, validations es = [] ∧ ses.exec m sched =
      (⟨.ok a, o⟩, { ses with st := s', rng := ρ', log := ses.log ++ es }) := by
  obtain ⟨es, sc, hsc, hv, h⟩ := h ⟨⟨[], sched⟩, ses.rng, ses.slot, ses.log⟩ hs rfl
  exact ⟨es, hv, by simp [Session.exec, h]⟩

/-! ## Requests in a given context -/

theorem Does.maybeNeed_at {C : List WResp → Prop} {env : Env} {p : Property} {v : p.Value}
    {offer : (p : Property) → Option p.Value} (hv : env.GivesAt offer p v) {ctx : Provider}
    (hctx : ctx.Exactly offer) {f : p.Value → M S G} {s s' : S} {g : G} {o : Bytes}
    (hf : Does C (f v) s g s' o) : Does C (maybeNeedWith env p ctx f) s (some g) s' o := by
  intro w hw
  obtain ⟨es, hq, he⟩ := maybeNeedWith_answers (hv w.log ctx hctx) f s
  obtain ⟨es', sc, hsc, hval, h⟩ := hf (w.addLog (.asked p ctx :: es ++ [.answered p v])) hw
  rw [h] at he
  refine ⟨(.asked p ctx :: es ++ [.answered p v]) ++ es', sc, hsc, ?_, ?_⟩
  · rw [validations_append, validations_asked p ctx hq v, hval]; rfl
  · rw [he]; simp

theorem Does.maybeNeed_lacksAt {C : List WResp → Prop} {env : Env} {p : Property}
    {offer : (p : Property) → Option p.Value} (hv : env.LacksAt offer p) {ctx : Provider}
    (hctx : ctx.Exactly offer) (f : p.Value → M S G) (s : S) :
    Does C (maybeNeedWith env p ctx f) s none s [] := by
  intro w hw
  refine ⟨[.asked p ctx], w.wr.sched, List.suffix_refl _, rfl, ?_⟩
  rw [maybeNeedWith_declines (hv w.log ctx hctx) f s]
  simp [World.addLog]

theorem Does.need_at {C : List WResp → Prop} {env : Env} {p : Property} {v : p.Value}
    {offer : (p : Property) → Option p.Value} (hv : env.GivesAt offer p v) {ctx : Provider}
    (hctx : ctx.Exactly offer) {f : p.Value → M S G} {s s' : S} {g : G} {o : Bytes}
    (hf : Does C (f v) s g s' o) : Does C (needWith env p ctx f) s g s' o := by
  intro w hw
  obtain ⟨es, sc, hsc, hval, h⟩ := Does.maybeNeed_at hv hctx hf w hw
  refine ⟨es, sc, hsc, hval, ?_⟩
  unfold needWith
  rw [M.bind_ok h]
  rfl

end Rsasl

namespace Rsasl.Scram

variable {S G : Type}

theorem bindingCtx_empty (name : Str) :
    (Provider.and (.this ⟨.channelBindingName, name⟩) .empty).Exactly
      (Spec.bindingOffer name none none) := by
  intro p
  cases p <;> rfl

theorem bindingCtx_server (name authid : Str) (authzid : Option Str) :
    (Provider.and (.this ⟨.channelBindingName, name⟩) (serverProvider authid authzid)).Exactly
      (Spec.bindingOffer name (some authid) authzid) := by
  intro p
  cases authzid <;> cases p <;> rfl

theorem clientProvider_exactly (salt : Bytes) (it : UInt32) :
    (clientProvider salt it).Exactly (Spec.saltOffer salt it) := by
  intro p
  cases p <;> rfl

theorem does_maybeNeedCbData {C : List WResp → Prop} (hC : SuffixClosed C) {env : Env} {name : Str}
    {prov : Provider}
    {a z : Option Str} {data : Bytes} (h : Spec.HasBinding env name a z data)
    (hctx : (Provider.and (.this ⟨.channelBindingName, name⟩) prov).Exactly (Spec.bindingOffer name a z))
    {f : Bytes → M S G} {s s' : S} {g : G} {o : Bytes} (hf : Does C (f data) s g s' o) :
    Does C (maybeNeedCbData env name prov f) s (some g) s' o := by
  unfold maybeNeedCbData
  rcases h with h | ⟨h, hg⟩
  · simp only [h]
    exact Does.bind' hC hf (Does.pure _ _ _) (by simp)
  · simp only [h]
    exact Does.maybeNeed_at hg hctx hf

theorem does_needCbData {C : List WResp → Prop} (hC : SuffixClosed C) {env : Env} {name : Str}
    {prov : Provider}
    {a z : Option Str} {data : Bytes} (h : Spec.HasBinding env name a z data)
    (hctx : (Provider.and (.this ⟨.channelBindingName, name⟩) prov).Exactly (Spec.bindingOffer name a z))
    {f : Bytes → M S G} {s s' : S} {g : G} {o : Bytes} (hf : Does C (f data) s g s' o) :
    Does C (needCbData env name prov f) s g s' o :=
  Does.bind' hC (does_maybeNeedCbData hC h hctx hf) (Does.okOr _ _ _ _) (by simp)

theorem does_noCbData {C : List WResp → Prop} {env : Env} {name : Str} {prov : Provider}
    {a z : Option Str} (h : Spec.NoBinding env name a z)
    (hctx : (Provider.and (.this ⟨.channelBindingName, name⟩) prov).Exactly (Spec.bindingOffer name a z))
    (f : Bytes → M S G) (s : S) : Does C (maybeNeedCbData env name prov f) s none s [] := by
  unfold maybeNeedCbData
  simp only [h.1]
  exact Does.maybeNeed_lacksAt h.2 hctx f s

/-! ## The client's first step -/

theorem does_pushHeader (C : List WResp → Prop) (b : Bytes) (s : CS) (l : Gs2) :
    Does C (pushHeader b) (s, l) () (s, { l with header := l.header ++ b }) [] :=
  Does.modify C _ _

theorem does_setCbdata (C : List WResp → Prop) (b : Bytes) (s : CS) (l : Gs2) :
    Does C (setCbdata b) (s, l) () (s, { l with cbdata := some b }) [] :=
  Does.modify C _ _

theorem does_escape (C : List WResp → Prop) {x y : Str} (h : escape x = .ok y) (s : S) :
    Does C (escapeM x) s y s [] := by
  unfold escapeM
  rw [h]
  exact Does.pure _ _ _

/-- The binding data as a local variable: none unless there is binding. -/
def cbLocal (plus : CbSupport) (data : Bytes) : Option Bytes :=
  if plus = .supported then some data else none

theorem cbLocal_getD {env : Env} {plus : CbSupport} {flag : CbFlag} {data : Bytes}
    (h : Spec.ClientBinding env plus flag data) : (cbLocal plus data).getD [] = data := by
  cases plus with
  | supported => rfl
  | clientNoSupport => exact h.2.symm
  | serverNoSupport => exact h.2.symm

theorem does_clientCb {env : Env} {plus : CbSupport} {flag : CbFlag} {data : Bytes}
    (h : Spec.ClientBinding env plus flag data) :
    Does Cooperative (clientCb env plus) (none, {}) ()
      (none, ⟨Spec.flagBytes flag, cbLocal plus data⟩) [] := by
  have hC := cooperative_closed
  cases plus with
  | clientNoSupport =>
    obtain ⟨rfl, rfl⟩ := h
    exact does_pushHeader _ _ _ _
  | serverNoSupport =>
    obtain ⟨rfl, rfl⟩ := h
    exact does_pushHeader _ _ _ _
  | supported =>
    obtain ⟨name, rfl, hb, h⟩ := h
    refine Does.bind' hC (does_pushHeader _ _ _ _) ?_ rfl
    rcases h with h | ⟨h, rfl⟩ | ⟨h, hn, rfl⟩
    · refine Does.bind' hC (Does.maybeNeed_some h _ (Does.bind' hC (does_pushHeader _ _ _ _)
        (Does.pure _ _ _) rfl)) ?_ rfl
      exact does_needCbData hC hb (bindingCtx_empty _) (does_setCbdata _ _ _ _)
    · refine Does.bind' hC (Does.maybeNeed_none h _ _ _) ?_ rfl
      refine Does.bind' hC (does_maybeNeedCbData hC hb (bindingCtx_empty _)
        (Does.bind' hC (does_pushHeader _ _ _ _) (does_setCbdata _ _ _ _) rfl)) ?_ rfl
      exact Does.pure _ _ _
    · refine Does.bind' hC (Does.maybeNeed_none h _ _ _) ?_ rfl
      refine Does.bind' hC (does_noCbData hn (bindingCtx_empty _) _ _) ?_ rfl
      exact does_needCbData hC hb (bindingCtx_empty _)
        (Does.bind' hC (does_pushHeader _ _ _ _) (does_setCbdata _ _ _ _) rfl)

theorem Spec.Escapes.unique {s e f : Str} (h : Spec.Escapes s e) (h' : Spec.Escapes s f) : e = f := by
  induction h generalizing f with
  | nil => cases h'; rfl
  | comma _ ih =>
    cases h' with
    | comma h => rw [ih h]
    | other c h1 h2 h3 h => exact absurd rfl h1
  | equals _ ih =>
    cases h' with
    | equals h => rw [ih h]
    | other c h1 h2 h3 h => exact absurd rfl h2
  | other c h1 h2 h3 _ ih =>
    cases h' with
    | comma h => exact absurd rfl h1
    | equals h => exact absurd rfl h2
    | other c h1 h2 h3 h => rw [ih h]

theorem Spec.Escapes.nul {s e : Str} (h : Spec.Escapes s e) : '\x00' ∉ s := by
  induction h with
  | nil => exact List.not_mem_nil
  | comma _ ih => simpa using ih
  | equals _ ih => simpa using ih
  | other c h1 h2 h3 _ ih => simp [ih, Ne.symm h3]

theorem escape_of_written {s e : Str} (h : Spec.WrittenAs s e) : escape s = .ok e := by
  obtain ⟨f, hf⟩ := (C32_iff s).2 ⟨h.1, Spec.Escapes.nul h.2⟩
  rw [hf, Spec.Escapes.unique (C32_rfc s f hf) h.2]

/-- The name is given, and escaped for the message. -/
def EscapedOpt : Option Str → Option Str → Prop
  | none, none => True
  | some z, some z' => escape z = .ok z'
  | _, _ => False

theorem escapedOpt_of_written {z z' : Option Str} (h : Spec.WrittenAsOpt z z') : EscapedOpt z z' := by
  cases z <;> cases z' <;> first | trivial | exact h.elim | exact escape_of_written h

theorem does_sendClientFirst {n : Nat} {env : Env} {plus : CbSupport} {flag : CbFlag}
    {data : Bytes} (hb : Spec.ClientBinding env plus flag data) {authzid authzid' : Option Str}
    (hz : env.Offers .authzId authzid) (hz' : EscapedOpt authzid authzid') {name user : Str}
    (ha : env.Gives .authId name) (hu : escape name = .ok user) (ρ : Nat → Nat) :
    DoesR Cooperative (sendClientFirst n env plus) (none, {}) ρ
      (.clientFirst (Base64.encode (Spec.gs2Header flag authzid' ++ data))
        (((List.range n).map ρ).map nonceChar) user)
      (none, ⟨Spec.gs2Header flag authzid', cbLocal plus data⟩) (fun i => ρ (i + n))
      (Spec.gs2Header flag authzid' ++
        Spec.clientFirstBare user (((List.range n).map ρ).map nonceChar)) := by
  have hC := cooperative_closed
  unfold sendClientFirst
  refine DoesR.seq hC ((does_clientCb hb).rng _) ?_
  refine DoesR.seq hC ((does_pushHeader _ _ _ _).rng _) ?_
  have h3 : ∃ a : Option Unit, Does Cooperative (maybeNeedWith env .authzId .empty clientAuthzid)
      (none, ⟨Spec.flagBytes flag ++ b!",", cbLocal plus data⟩) a
      (none, ⟨Spec.flagBytes flag ++ b!"," ++ Spec.authzidBytes (b!"a=") authzid',
        cbLocal plus data⟩) [] := by
    cases authzid with
    | none =>
      cases authzid' with
      | some _ => exact hz'.elim
      | none =>
        refine ⟨none, ?_⟩
        simp only [Spec.authzidBytes, List.append_nil]
        exact Does.maybeNeed_none hz _ _ _
    | some z =>
      cases authzid' with
      | none => exact hz'.elim
      | some z' =>
        refine ⟨some (), Does.maybeNeed_some hz _ ?_⟩
        refine Does.bind' hC (does_pushHeader _ _ _ _) ?_ rfl
        refine Does.bind' hC (does_escape _ hz' _) ?_ rfl
        simp only [Spec.authzidBytes, ← List.append_assoc]
        exact does_pushHeader _ _ _ _
  obtain ⟨a, h3⟩ := h3
  refine DoesR.seq hC (h3.rng _) ?_
  refine DoesR.seq hC ((does_pushHeader _ _ _ _).rng _) ?_
  refine DoesR.seq hC ((Does.need ha _ (does_escape _ hu _)).rng _) ?_
  refine DoesR.seq hC (DoesR.nonce _ n _ _) ?_
  refine DoesR.seq hC ((Does.get _ _).rng _) ?_
  refine DoesR.bind' hC ((Does.writeVectored _ _).rng _) (o₂ := []) ?_ ?_
  · have : (match cbLocal plus data with
        | some cbdata => Spec.gs2Header flag authzid' ++ cbdata
        | none => Spec.gs2Header flag authzid') = Spec.gs2Header flag authzid' ++ data := by
      have := cbLocal_getD hb
      cases hl : cbLocal plus data with
      | none => rw [hl] at this; simp only [Option.getD_none] at this; simp [← this]
      | some d => rw [hl] at this; simp only [Option.getD_some] at this; simp [← this]
    rw [← this]
    exact (Does.pure _ _ _).rng _
  · simp [Spec.gs2Header, Spec.clientFirstBare]

theorem does_client_first {d : Digest} {n : Nat} {env : Env} {plus : CbSupport} {flag : CbFlag}
    {data : Bytes} (hb : Spec.ClientBinding env plus flag data) {authzid authzid' : Option Str}
    (hz : env.Offers .authzId authzid) (hz' : EscapedOpt authzid authzid') {name user : Str}
    (ha : env.Gives .authId name) (hu : escape name = .ok user) (ρ : Nat → Nat)
    (input : Option Bytes) :
    DoesR Cooperative (clientStep d n env input) (some (.initial plus)) ρ .running
      (some (.clientFirst (Base64.encode (Spec.gs2Header flag authzid' ++ data))
        (((List.range n).map ρ).map nonceChar) user)) (fun i => ρ (i + n))
      (Spec.gs2Header flag authzid' ++
        Spec.clientFirstBare user (((List.range n).map ρ).map nonceChar)) := by
  have hC := cooperative_closed
  unfold clientStep
  refine DoesR.seq hC ((Does.get _ _).rng _) ?_
  refine DoesR.seq hC ((Does.set _ _ _).rng _) ?_
  refine DoesR.bind' hC (DoesR.withLocal (does_sendClientFirst hb hz hz' ha hu ρ)) (o₂ := []) ?_
    (by simp)
  exact DoesR.bind' hC ((Does.set _ _ _).rng _) ((Does.pure _ _ _).rng _) rfl

/-! ## The server's first step -/

theorem bindingName_char {c : Char} (h : ('a' ≤ c ∧ c ≤ 'z') ∨ ('A' ≤ c ∧ c ≤ 'Z') ∨
    ('0' ≤ c ∧ c ≤ '9') ∨ c = '.' ∨ c = '-') :
    ∃ b, encodeChar c = [b] ∧ cbNameByte b = true ∧ Char.ofNat b.toNat = c := by
  have hr : c.toNat < 128 ∧ ((97 ≤ c.toNat ∧ c.toNat ≤ 122) ∨ (65 ≤ c.toNat ∧ c.toNat ≤ 90) ∨
      (48 ≤ c.toNat ∧ c.toNat ≤ 57) ∨ c.toNat = 46 ∨ c.toNat = 45) := by
    rcases h with ⟨h1, h2⟩ | ⟨h1, h2⟩ | ⟨h1, h2⟩ | rfl | rfl
    · have h1 : 97 ≤ c.toNat := h1
      have h2 : c.toNat ≤ 122 := h2
      omega
    · have h1 : 65 ≤ c.toNat := h1
      have h2 : c.toNat ≤ 90 := h2
      omega
    · have h1 : 48 ≤ c.toNat := h1
      have h2 : c.toNat ≤ 57 := h2
      omega
    · decide
    · decide
  have hn : (UInt8.ofNat c.toNat).toNat = c.toNat := toNat_ofNat_lt (by omega)
  refine ⟨UInt8.ofNat c.toNat, ?_, ?_, by rw [hn, char_ofNat_toNat]⟩
  · unfold encodeChar
    rw [if_pos (by omega)]
  · unfold cbNameByte
    rw [hn]
    rcases hr with ⟨-, h | h | h | h | h⟩
    · simp [h]
    · simp [h]
    · simp [h]
    · rw [h]; rfl
    · rw [h]; rfl

theorem BindingName.ascii {name : Str} (h : Spec.BindingName name) :
    asciiStr (Str.bytes name) = name ∧ CbFlag.Valid (.used (Str.bytes name)) := by
  obtain ⟨hne, h⟩ := h
  have key : asciiStr (Str.bytes name) = name ∧ ∀ b ∈ Str.bytes name, cbNameByte b = true := by
    clear hne
    induction name with
    | nil => exact ⟨rfl, nofun⟩
    | cons c name ih =>
      obtain ⟨b, h1, h2, h3⟩ := bindingName_char (h c (by simp))
      obtain ⟨h4, h5⟩ := ih (fun c hc => h c (by simp [hc]))
      rw [Str.bytes_cons, h1]
      constructor
      · unfold asciiStr at h4 ⊢
        rw [List.singleton_append, List.map_cons, h4, h3]
      · intro x hx
        rcases List.mem_cons.1 hx with rfl | hx
        · exact h2
        · exact h5 x hx
  exact ⟨key.1, by simpa [Str.bytes_eq_nil] using hne, key.2⟩

theorem ServerBinding.valid {env : Env} {canCb : Bool} {authid : Str} {authzid : Option Str}
    {flag : CbFlag} {data : Bytes} (h : Spec.ServerBinding env canCb authid authzid flag data) :
    flag.Valid := by
  cases flag with
  | notSupported => trivial
  | supportedNotUsed => trivial
  | used name =>
    obtain ⟨s, rfl, hs, -⟩ := h
    exact (BindingName.ascii hs).2

theorem does_serverCb {env : Env} {canCb : Bool} {authid : Str} {authzid : Option Str}
    {flag : CbFlag} {data : Bytes} (h : Spec.ServerBinding env canCb authid authzid flag data)
    (hd : Bytes) :
    Does Cooperative (serverCb env canCb (serverProvider authid authzid) flag) (none, hd) ()
      (none, hd ++ data) [] := by
  cases flag with
  | notSupported => rw [h]; simp only [List.append_nil]; exact Does.pure _ _ _
  | supportedNotUsed =>
    obtain ⟨rfl, rfl⟩ := h
    simp only [List.append_nil]
    exact Does.pure _ _ _
  | used name =>
    obtain ⟨s, rfl, hs, h⟩ := h
    unfold serverCb
    dsimp only
    rw [(BindingName.ascii hs).1]
    exact does_needCbData cooperative_closed h (bindingCtx_server _ _ _) (Does.modify _ _ _)

theorem serverFirst_flatten (cn sn salt it : Bytes) :
    (ServerFirst.ioslices ⟨cn, some sn, salt, it⟩).flatten = Spec.serverFirst (cn ++ sn) salt it := by
  simp [ServerFirst.ioslices, Spec.serverFirst]

theorem does_server_first {d : Digest} {n : Nat} {env : Env} {canCb : Bool} {b : Bytes}
    {msg : ClientFirst} (hp : ClientFirst.parse b = .ok msg) {data : Bytes}
    (hb : Spec.ServerBinding env canCb msg.username msg.authzid msg.cbflag data)
    {stored : StoredPassword}
    (hs : env.GivesAt (Spec.scramOffer msg.username msg.authzid) .scramStoredPassword stored)
    (hl1 : stored.storedKey.length = d.outLen) (hl2 : stored.serverKey.length = d.outLen)
    (ρ : Nat → Nat) :
    DoesR Cooperative (serverStep d n env (some b)) (some (.waitingClientFirst canCb)) ρ .running
      (some (.waitingClientFinal (some
        { clientNonce := msg.nonce, serverNonce := ((List.range n).map ρ).map nonceChar,
          gs2Header := msg.gs2Header ++ data, username := msg.username, authzid := msg.authzid,
          salt := Base64.encode stored.salt, iterations := Spec.storedCount stored,
          storedKey := stored.storedKey, serverKey := stored.serverKey }))) (fun i => ρ (i + n))
      (Spec.serverFirst (msg.nonce ++ ((List.range n).map ρ).map nonceChar)
        (Base64.encode stored.salt) (Spec.storedCount stored)) := by
  have hC := cooperative_closed
  unfold serverStep
  refine DoesR.seq hC ((Does.get _ _).rng _) ?_
  refine DoesR.seq hC ((Does.set _ _ _).rng _) ?_
  refine DoesR.seq hC ((Does.okOr _ _ _ _).rng _) ?_
  rw [hp]
  refine DoesR.seq hC ((Does.liftOutcome _ _ _).rng _) ?_
  refine DoesR.bind' hC (s' := none) (o₂ := []) (DoesR.withLocal (t' := msg.gs2Header ++ data) ?_)
    (DoesR.bind' hC ((Does.set _ _ _).rng _) ((Does.pure _ _ _).rng _) rfl) (List.append_nil _).symm
  unfold handleClientFirst
  refine DoesR.seq hC ((does_serverCb hb _).rng _) ?_
  refine DoesR.seq hC ((Does.maybeNeed_at hs (serverProvider_exactly _ _) (f := useStored d)
    (g := ⟨Spec.storedCount stored, Base64.encode stored.salt, stored.storedKey, stored.serverKey⟩)
    (s' := (none, msg.gs2Header ++ data)) (o := []) ?_).rng _) ?_
  · unfold useStored
    rw [if_neg (by simp [hl1, hl2])]
    exact Does.pure _ _ _
  refine DoesR.seq hC (DoesR.nonce _ n _ _) ?_
  rw [← serverFirst_flatten]
  refine DoesR.bind' hC ((Does.writeVectored _ _).rng _) (o₂ := []) ?_ (by simp)
  refine DoesR.seq hC ((Does.get _ _).rng _) ?_
  exact (Does.pure _ _ _).rng _

/-- The server's first step for an unknown user. -/
theorem does_server_first_unknown {d : Digest} {n : Nat} {env : Env} {canCb : Bool} {b : Bytes}
    {msg : ClientFirst} (hp : ClientFirst.parse b = .ok msg) {data : Bytes}
    (hb : Spec.ServerBinding env canCb msg.username msg.authzid msg.cbflag data)
    (hs : env.LacksAt (Spec.scramOffer msg.username msg.authzid) .scramStoredPassword)
    (ρ : Nat → Nat) :
    DoesR Cooperative (serverStep d n env (some b)) (some (.waitingClientFirst canCb)) ρ .running
      (some (.waitingClientFinal none)) (fun i => ρ (i + defaultSaltLen + n))
      (Spec.serverFirst (msg.nonce ++ ((List.range n).map ρ).map nonceChar)
        (Base64.encode (((List.range 32).map (fun i => ρ (i + n))).map UInt8.ofNat))
        (b!"16384")) := by
  have hC := cooperative_closed
  unfold serverStep
  refine DoesR.seq hC ((Does.get _ _).rng _) ?_
  refine DoesR.seq hC ((Does.set _ _ _).rng _) ?_
  refine DoesR.seq hC ((Does.okOr _ _ _ _).rng _) ?_
  rw [hp]
  refine DoesR.seq hC ((Does.liftOutcome _ _ _).rng _) ?_
  refine DoesR.bind' hC (s' := none) (o₂ := []) (DoesR.withLocal (t' := msg.gs2Header ++ data) ?_)
    (DoesR.bind' hC ((Does.set _ _ _).rng _) ((Does.pure _ _ _).rng _) rfl) (List.append_nil _).symm
  unfold handleClientFirst
  refine DoesR.seq hC ((does_serverCb hb _).rng _) ?_
  refine DoesR.seq hC ((Does.maybeNeed_lacksAt hs (serverProvider_exactly _ _) _ _).rng _) ?_
  refine DoesR.seq hC (DoesR.nonce _ n _ _) ?_
  refine DoesR.seq hC (DoesR.draw _ _ _ _) ?_
  rw [← serverFirst_flatten]
  refine DoesR.bind' hC ((Does.writeVectored _ _).rng _) (o₂ := []) ?_ (List.append_nil _).symm
  exact (Does.pure _ _ _).rng _

/-! ## The client's second step -/

theorem does_clientKeys {C : List WResp → Prop} (hC : SuffixClosed C) {d : Digest} {env : Env}
    {salt : Bytes} {it : UInt32} {ck sk : Bytes}
    (h : Spec.ClientKeys d env salt it ck sk) (s : CS) :
    Does C (clientKeys d env (clientProvider salt it) it salt) s (ck, sk) s [] := by
  have hx := clientProvider_exactly salt it
  unfold clientKeys
  rcases h with ⟨hg, h1, h2⟩ | ⟨hl, ⟨salted, hne, hg, rfl, rfl⟩ | ⟨hl', pw, hg, rfl, rfl⟩⟩
  · refine Does.bind' hC (Does.maybeNeed_at hg hx (f := useCached d) (g := (ck, sk)) (s' := s)
      (o := []) ?_) (Does.pure _ _ _) rfl
    unfold useCached
    rw [if_pos ⟨h1, h2⟩]
    exact Does.pure _ _ _
  · refine Does.bind' hC (Does.maybeNeed_lacksAt hl hx _ _) ?_ rfl
    refine Does.bind' hC (Does.maybeNeed_at hg hx (f := useSalted d)
      (g := (Spec.clientKey d salted, Spec.serverKey d salted)) (s' := s) (o := []) ?_)
      (Does.pure _ _ _) rfl
    unfold useSalted
    rw [if_neg (by simpa using hne)]
    exact Does.pure _ _ _
  · refine Does.bind' hC (Does.maybeNeed_lacksAt hl hx _ _) ?_ rfl
    refine Does.bind' hC (Does.maybeNeed_lacksAt hl' hx _ _) ?_ rfl
    exact Does.need_at hg hx (Does.pure _ _ _)

theorem ClientKeys.lengths {d : Digest} {env : Env} {salt : Bytes} {it : UInt32} {ck sk : Bytes}
    (h : Spec.ClientKeys d env salt it ck sk) : ck.length = d.outLen ∧ sk.length = d.outLen := by
  rcases h with ⟨hg, h1, h2⟩ | ⟨hl, ⟨salted, hne, hg, rfl, rfl⟩ | ⟨hl', pw, hg, rfl, rfl⟩⟩
  · exact ⟨h1, h2⟩
  · exact ⟨d.hmac_length .., d.hmac_length ..⟩
  · exact ⟨d.hmac_length .., d.hmac_length ..⟩

theorem does_client_second {d : Digest} {n : Nat} {env : Env} {cb64 cn : Bytes} {user : Str}
    {b sn salt64 it64 salt : Bytes} {it : UInt32} (hs : GoodServerFirst cn b sn salt64 it64 salt it)
    {ck sk : Bytes} (hk : Spec.ClientKeys d env salt it ck sk) {auth : Bytes}
    (ha : auth = Spec.authMessage (Spec.clientFirstBare user cn) b
      (Spec.clientFinalBare cb64 (cn ++ sn))) :
    Does Cooperative (clientStep d n env (some b)) (some (.clientFirst cb64 cn user)) .running
      (some (.serverFirst (d.hmac sk auth) ck sk salt it))
      (Spec.clientFinalBare cb64 (cn ++ sn) ++ b!",p=" ++
        Base64.encode (Spec.clientProof d ck auth)) := by
  have hC := cooperative_closed
  have hb := hs.message
  subst hb
  rw [← authMessage_eq] at ha
  subst ha
  unfold clientStep
  refine Does.bind' hC (Does.get _ _) ?_ (List.nil_append _).symm
  refine Does.bind' hC (Does.set _ _ _) ?_ (List.nil_append _).symm
  refine Does.bind' hC (Does.okOr _ _ _ _) ?_ (List.nil_append _).symm
  refine Does.bind' hC (s' := none) (o₂ := []) ?_
    (Does.bind' hC (Does.set _ _ _) (Does.pure _ _ _) rfl) (List.append_nil _).symm
  unfold handleServerFirst
  rw [(checkServerFirst_eq_ok (sf := ⟨cn ++ sn, none, salt64, it64⟩)).2 ⟨rfl, hs⟩]
  refine Does.bind' hC (Does.liftOutcome _ _ _) ?_ (List.nil_append _).symm
  refine Does.bind' hC (does_clientKeys hC hk _) ?_ (List.nil_append _).symm
  refine Does.bind' hC (Does.writeVectored _ _) (o₂ := []) (Does.pure _ _ _) ?_
  simp [ClientFinal.ioslices, Spec.clientFinalBare, Spec.clientProof, xor, computeSignatures]

/-! ## The server's second step -/

theorem xor_cancel (a b : Bytes) (h : a.length = b.length) : xor (xor a b) b = a := by
  unfold xor
  induction a generalizing b with
  | nil => rfl
  | cons x a ih =>
    cases b with
    | nil => cases h
    | cons y b =>
      simp only [List.zipWith_cons_cons]
      rw [ih b (by simpa using h), UInt8.xor_assoc, UInt8.xor_self, UInt8.xor_zero]

theorem length_xor (a b : Bytes) : (xor a b).length = min a.length b.length := by
  simp [xor]

/-- The server accepts the right proof. -/
theorem judge_right {d : Digest} {f : FinalInner} {ck auth : Bytes} (hck : ck.length = d.outLen)
    (hst : f.storedKey = d.hash ck)
    (ha : auth = authMessage f.username f.clientNonce f.serverNonce f.salt f.iterations
      (Base64.encode f.gs2Header)) :
    judge d (some f) ⟨Base64.encode f.gs2Header, f.clientNonce ++ f.serverNonce,
      Base64.encode (Spec.clientProof d ck auth)⟩ = .ok (.ok (f, d.hmac f.serverKey auth)) := by
  have hl : (Spec.clientProof d ck auth).length = d.outLen := by
    unfold Spec.clientProof
    rw [List.length_zipWith, hck, d.hmac_length, Nat.min_self]
  unfold judge
  dsimp only
  rw [Base64.decode_encode]
  dsimp only
  rw [if_neg (by simp), stripPrefix_eq_some.2 rfl]
  dsimp only
  rw [if_pos ⟨rfl, by rw [Base64.length_encode, hl]; omega⟩]
  unfold Base64.decodeSlice
  rw [Base64.decode_encode]
  dsimp only
  rw [if_pos (by omega)]
  dsimp only
  unfold computeSignatures
  dsimp only
  rw [← ha, hl, Nat.sub_self, List.replicate_zero, List.append_nil, if_pos]
  have : Spec.clientProof d ck auth = xor ck (d.hmac f.storedKey auth) := by
    rw [hst]; rfl
  rw [this, xor_cancel _ _ (by rw [d.hmac_length, hck]), hst]

theorem server_second_right {d : Digest} {n : Nat} {env : Env} {ses : Session SS} {f : FinalInner}
    {b : Bytes} {msg : ClientFinal} {sig : Bytes}
    (hst : ses.st = some (.waitingClientFinal (some f)))
    (hp : ClientFinal.parse b = .ok msg) (hj : judge d (some f) msg = .ok (.ok (f, sig)))
    {sched : List WResp} (hc : Cooperative sched) :
    EndsValidated env ses (serverProvider f.username f.authzid) (.finished .yes)
        (b!"v=" ++ Base64.encode sig) (ses.exec (serverStep d n env (some b)) sched) ∧
      ((ses.exec (serverStep d n env (some b)) sched).1.res = .ok (.finished .yes) →
        (ses.exec (serverStep d n env (some b)) sched).2.st = some .finished) := by
  obtain ⟨sc, hsc, hw⟩ := M.writeVectored_cooperative
    (ServerFinal.ioslices (.verifier (Base64.encode sig))) (none : SS)
    ⟨⟨[], sched⟩, ses.rng, ses.slot, ses.log⟩ hc
  have h := endsValidated' (env := env) (ses := ses) (ctx := serverProvider f.username f.authzid)
    (st := .finished .yes) (s₁ := none) (s' := some .finished)
    (m := serverStep d n env (some b)) (sched := sched) (sched' := sc)
    (out := b!"v=" ++ Base64.encode sig) (es₀ := []) (by
      rintro w rfl
      unfold serverStep
      rw [M.bind_ok (M.get_apply ..), M.bind_ok (M.set_apply ..), hst]
      dsimp only
      rw [M.bind_ok (M.okOr_some ..)]
      unfold handleClientFinal
      rw [hp, M.bind_assoc, M.bind_ok (M.liftOutcome_apply ..), hj, M.bind_assoc,
        M.bind_ok (M.lift_ok ..)]
      dsimp only
      rw [M.bind_assoc, M.bind_ok hw]
      simp [ServerFinal.ioslices])
  rw [List.append_nil] at h
  exact ⟨h.1, h.2.1⟩

end Rsasl.Scram

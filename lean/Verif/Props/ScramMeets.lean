/-
C106: exactly when a SCRAM exchange succeeds.
-/
import Verif.Spec.ScramMeets
import Verif.Props.ServerSteps

namespace Rsasl

open Spec Scram

namespace Spec

theorem passed_ok {S : Type} (st : State) (out : Bytes) (s : Session S) : passed (⟨.ok st, out⟩, s) = some (out, s) := rfl

theorem passed_err {S : Type} (e : SessionError) (out : Bytes) (s : Session S) : passed (⟨.err e, out⟩, s) = none := rfl

theorem passed_panic {S : Type} (out : Bytes) (s : Session S) : passed (⟨.panic, out⟩, s) = none := rfl

theorem comma_writtenName (x : Str) : 44 ∉ Str.bytes (writtenName x) := by
  refine comma_notMem_bytes fun h => ?_
  obtain ⟨c, -, hc⟩ := List.mem_flatMap.1 h
  by_cases h1 : c = ','
  · rw [if_pos h1] at hc
    exact absurd hc (by decide)
  · rw [if_neg h1] at hc
    by_cases h2 : c = '='
    · rw [if_pos h2] at hc
      exact absurd hc (by decide)
    · rw [if_neg h2] at hc
      exact h1 (List.mem_singleton.1 hc).symm

theorem rest_lengths {d : Digest} {asks : Asks} {log l : List Event} {salt ck sk : Bytes} {it : UInt32} {prog : CbProg}
    {ctx : Provider} (hp : ∀ c : CachedPassword, firstAnswer .scramCachedPassword prog = some c →
      c.clientKey.length = d.outLen ∧ c.serverKey.length = d.outLen)
    (h : gathered.rest d asks log salt it prog ctx = (.are ck sk, l)) : ck.length = d.outLen ∧ sk.length = d.outLen := by
  unfold gathered.rest at h
  simp only at h
  split at h
  · cases h
  · rename_i c hc
    cases h
    exact hp c (settled_some hc).1
  · split at h
    · cases h
    · cases h
      exact ⟨d.hmac_length .., d.hmac_length ..⟩
    · split at h
      · cases h
      · cases h
        exact ⟨d.hmac_length .., d.hmac_length ..⟩

theorem gathered_lengths {d : Digest} {asks : Asks} {log l : List Event} {salt ck sk : Bytes} {it : UInt32}
    (h : gathered d asks log salt it = (.are ck sk, l)) : ck.length = d.outLen ∧ sk.length = d.outLen := by
  unfold gathered at h
  simp only at h
  split at h
  · rename_i n c k hb
    split at h
    · cases h
    · rename_i hu
      refine rest_lengths (fun c' hc' => ?_) h
      unfold firstAnswer at hc'
      rw [hb] at hc'
      cases hc'
      exact Classical.not_not.1 hu
  · rename_i n r hb
    refine rest_lengths (fun c' hc' => ?_) h
    unfold firstAnswer at hc'
    rw [hb] at hc'
    cases hc'

end Spec

namespace Scram

/-- The last step of a client goes well only with the right signature. -/
theorem client_last_passes (d : Digest) (env : Env) (c : Session CS) (sig ck sk salt : Bytes) (it : UInt32)
    (hc : c.st = some (.serverFirst sig ck sk salt it)) (text : Bytes) (w : List WResp) :
    (passed (c.step (client d) env ⟨some text, w⟩)).isSome ↔ text = b!"v=" ++ Base64.encode sig := by
  rcases h : c.step (client d) env ⟨some text, w⟩ with ⟨⟨res, out⟩, c'⟩
  obtain ⟨-, -, ⟨h1, h2, -⟩ | ⟨h1, h2, -⟩⟩ := client_third d env c sig ck sk salt it hc _ _ _ h
  · simp only at h2
    subst h2
    simp only [Option.some.injEq] at h1
    simp [passed, h1]
  · simp only [ne_eq, Option.some.injEq] at h1
    simp only [h1, iff_false]
    cases res with
    | ok st => exact absurd rfl (h2 st)
    | err e => simp [passed]
    | panic => simp [passed]

theorem params_decimal (cn sn salt : Bytes) (it : UInt32) (h0 : it ≠ 0) (hsn : sn ≠ []) (hc : 44 ∉ cn ++ sn) :
    ServerParams cn (serverFirst (cn ++ sn) (Base64.encode salt) (Str.bytes (Nat.toDigits 10 it.toNat))) sn
      (Base64.encode salt) (Str.bytes (Nat.toDigits 10 it.toNat)) salt it :=
  ⟨rfl, hsn, ⟨hc, Base64.comma_notMem_encode _, comma_notMem_decimal _⟩, rfl,
    ⟨_, rfl, parseU32_iff.1 (parseU32_decimal it)⟩, h0⟩

/-- How the second half of an exchange goes: the client's last message, the server's and the client's verdict. -/
def secondHalf (d : Digest) (cenv senv : Env) (c : Session CS) (s : Session SS) (m₂ : Bytes) (w₂ w₃ w₄ : List WResp) :
    Option (Session CS × Session SS) :=
  (passed (c.step (client d) cenv ⟨some m₂, w₂⟩)).bind fun (m₃, c) =>
  (passed (s.step (server d) senv ⟨some m₃, w₃⟩)).bind fun (m₄, s) =>
  (passed (c.step (client d) cenv ⟨some m₄, w₄⟩)).map fun (_, c) => (c, s)

/-- Nothing comes of it if the server refuses. -/
theorem refused_none (d : Digest) (cenv senv : Env) (c : Session CS) (s : Session SS) (user : Str)
    (cb64 cn sn salt salt64 it64 : Bytes) (it : UInt32) (hc : c.st = some (.clientFirst cb64 cn user)) (data : Option FinalInner)
    (hs : s.st = some (.waitingClientFinal data))
    (hi : ServerParams cn (serverFirst (cn ++ sn) salt64 it64) sn salt64 it64 salt it) (hcb : 44 ∉ cb64)
    (hj : ∀ ck sk l, gathered d (fun l ctx => cenv.callback l cenv.sd ctx) c.log salt it = (.are ck sk, l) →
      ∃ text, Judged d data cb64 (cn ++ sn) (Base64.encode (clientProof d ck (Spec.authMessage (clientFirstBare user cn)
        (serverFirst (cn ++ sn) salt64 it64) (clientFinalBare cb64 (cn ++ sn))))) (.refuse (b!"e=" ++ text)))
    (w₂ w₃ w₄ : List WResp) (h2 : Cooperative w₂) (h3 : Cooperative w₃) :
    secondHalf d cenv senv c s (serverFirst (cn ++ sn) salt64 it64) w₂ w₃ w₄ = none := by
  unfold secondHalf
  rw [C104_client_second d cenv c cb64 cn user hc _ sn salt64 it64 salt it hi w₂ h2]
  rcases hg : gathered d (fun l ctx => cenv.callback l cenv.sd ctx) c.log salt it with ⟨_ | e | ⟨ck, sk⟩, l⟩
  · rfl
  · rfl
  · simp only [passed_ok, Option.bind_some]
    obtain ⟨text, hj⟩ := hj _ _ _ hg
    generalize Spec.authMessage (clientFirstBare user cn) _ _ = auth at hj ⊢
    have h := C76_server_final d senv s data hs cb64 (cn ++ sn) (Base64.encode (clientProof d ck auth)) []
      ⟨hcb, hi.commas.1, Base64.comma_notMem_encode _⟩ (by simp) w₃ h3 _ hj
    simp only [Spec.tail, List.append_nil] at h
    rw [h]
    simp only [passed_ok, Option.bind_some]
    have := client_last_passes d cenv ⟨some (.serverFirst (d.hmac sk auth) ck sk salt it), c.slot, c.rng, c.log ++ l⟩ _ _ _ _ _ rfl
      (b!"e=" ++ text) w₄
    rw [Option.map_eq_none_iff]
    cases hp : passed (Session.step (client d) cenv
      ⟨some (.serverFirst (d.hmac sk auth) ck sk salt it), c.slot, c.rng, c.log ++ l⟩ ⟨some (b!"e=" ++ text), w₄⟩) with
    | none => rfl
    | some x =>
      rw [hp] at this
      exact absurd (this.1 rfl) (by simp)

/-- The key's owner is recognized. -/
theorem judged_proof {d : Digest} {f : FinalInner} {ck auth : Bytes} (hck : ck.length = d.outLen) (ha : auth = authOf f) :
    (d.hash (List.zipWith (· ^^^ ·) (clientProof d ck auth) (d.hmac f.storedKey auth)) = f.storedKey →
      Judged d (some f) (Base64.encode f.gs2Header) (f.clientNonce ++ f.serverNonce) (Base64.encode (clientProof d ck auth))
        (.accept (serverFinal d f.serverKey auth))) ∧
    (¬ d.hash (List.zipWith (· ^^^ ·) (clientProof d ck auth) (d.hmac f.storedKey auth)) = f.storedKey →
      Judged d (some f) (Base64.encode f.gs2Header) (f.clientNonce ++ f.serverNonce) (Base64.encode (clientProof d ck auth))
        (.refuse (b!"e=invalid-proof"))) := by
  subst ha
  have hl : (clientProof d ck (authOf f)).length = d.outLen := by
    unfold clientProof
    rw [List.length_zipWith, hck, d.hmac_length, Nat.min_self]
  have h64 : (Base64.encode (clientProof d ck (authOf f))).length ≤ d.outLen * 4 / 3 + 3 := by
    rw [Base64.length_encode, hl]
    omega
  have hp : Proves d f (clientProof d ck (authOf f)) ↔
      d.hash (List.zipWith (· ^^^ ·) (clientProof d ck (authOf f)) (d.hmac f.storedKey (authOf f))) = f.storedKey := by
    unfold Proves
    rw [hl, Nat.sub_self, List.replicate_zero, List.append_nil]
  exact ⟨fun h => .right (by omega) h64 (hp.2 h), fun h => .wrong (by omega) h64 fun h' => h (hp.1 h')⟩

end Scram

/-- C106: a SCRAM exchange succeeds exactly if the callbacks agree. -/
theorem C106_agree (d : Digest) (cenv senv : Env) (c : Session CS) (s : Session SS) (plus : CbSupport) (canBind : Bool)
    (hc : c.st = some (.initial plus)) (hs : s.st = some (.waitingClientFirst canBind)) (w : Fin 5 → List WResp)
    (hw : ∀ i, Cooperative (w i)) (o : OpeningParts) (l₁ : List Event)
    (ho : opening cenv.chanbind (fun l ctx => cenv.callback l cenv.sd ctx) c.log plus = (.ok o, l₁))
    (flag : CbFlag) (authzid : Option Str) (hh : Heading flag authzid o.header) :
    (scramExchange d cenv senv c s w).isSome ↔ Agree d cenv senv c s canBind flag authzid o l₁ := by
  obtain ⟨hh1, hh2, hh3⟩ := hh
  have hpc : ∀ b ∈ drawnNonce c.rng, Printable b := by
    have := nonce_printable c.rng 24
    rw [List.map_map] at this
    exact this
  have hps : ∀ b ∈ drawnNonce s.rng, Printable b := by
    have := nonce_printable s.rng 24
    rw [List.map_map] at this
    exact this
  have hcn : 44 ∉ drawnNonce c.rng ++ drawnNonce s.rng := by
    rw [List.mem_append]
    exact fun h => h.elim (printable_comma hpc) (printable_comma hps)
  have hsn : drawnNonce s.rng ≠ [] := by
    intro h
    have := congrArg List.length h
    simp [drawnNonce] at this
  -- the client's first message
  unfold scramExchange Agree
  rw [C104_client_first d cenv c plus hc ⟨none, w 0⟩ (hw 0), ho]
  simp only [passed_ok, Option.bind_some]
  -- the server's first message
  have e1 : o.header ++ clientFirstBare (writtenName o.name) (drawnNonce c.rng) =
      o.header ++ b!"n=" ++ Str.bytes (writtenName o.name) ++ b!",r=" ++ drawnNonce c.rng ++ Spec.tail [] := by
    simp [clientFirstBare, Spec.tail]
  have hstart : Gs2Start flag authzid o.header := by
    refine ⟨_, _, hh2, hh3, ?_, hh1⟩
    cases authzid with
    | none => rfl
    | some z => exact ⟨_, _, rfl⟩
  rw [e1, C104_server_first d senv s canBind hs flag authzid (writtenName o.name) (drawnNonce c.rng) o.header [] hstart
    (comma_writtenName _) hpc (by simp) (w 1) (hw 1)]
  rcases hl : lookedUp d senv.chanbind (fun l ctx => senv.callback l senv.sd ctx) s.log canBind flag (writtenName o.name)
    authzid with ⟨e | ⟨data, _ | p⟩, l₂⟩
  · simp [passed_err]
  · -- a user who is not known
    simp only [passed_ok, Option.bind_some]
    have h := refused_none d cenv senv
      ⟨some (.clientFirst (Base64.encode (o.header ++ o.data)) (drawnNonce c.rng) (writtenName o.name)), c.slot,
        fun i => c.rng (i + 24), c.log ++ l₁⟩
      ⟨some (.waitingClientFinal none), s.slot, fun i => s.rng (i + 56), s.log ++ l₂⟩ (writtenName o.name) _ (drawnNonce c.rng)
      (drawnNonce s.rng) (madeUpSalt s.rng) _ _ 16384 rfl none rfl
      (params_decimal _ _ (madeUpSalt s.rng) 16384 (by decide) hsn hcn) (Base64.comma_notMem_encode _)
      (fun _ _ _ _ => ⟨b!"unknown-user", .unknown⟩) (w 2) (w 3) (w 4) (hw 2) (hw 3)
    have h' : secondHalf d cenv senv
      ⟨some (.clientFirst (Base64.encode (o.header ++ o.data)) (drawnNonce c.rng) (writtenName o.name)), c.slot,
        fun i => c.rng (i + 24), c.log ++ l₁⟩
      ⟨some (.waitingClientFinal none), s.slot, fun i => s.rng (i + 56), s.log ++ l₂⟩
      (serverFirst (drawnNonce c.rng ++ drawnNonce s.rng) (Base64.encode (madeUpSalt s.rng)) (b!"16384")) (w 2) (w 3) (w 4) = none := h
    unfold secondHalf at h'
    rw [h']
    simp
  · simp only [passed_ok, Option.bind_some]
    change (secondHalf d cenv senv _ _ _ (w 2) (w 3) (w 4)).isSome ↔ _
    generalize hcnd : drawnNonce c.rng = cn at *
    generalize hsnd : drawnNonce s.rng = sn at *
    by_cases h0 : p.iterations = 0
    · constructor
      · intro h
        unfold secondHalf at h
        have hf := C76_client_first d cenv (Base64.encode (o.header ++ o.data)) cn (writtenName o.name)
          ⟨⟨[], w 2⟩, fun i => c.rng (i + 24), c.slot, c.log ++ l₁⟩ (cn ++ sn) (Base64.encode p.salt)
          (Str.bytes (Nat.toDigits 10 p.iterations.toNat))
          ⟨hcn, Base64.comma_notMem_encode _, comma_notMem_decimal _⟩ _
          (.zero rfl hsn rfl (by
            have := parseU32_iff.1 (parseU32_decimal p.iterations)
            unfold decimal at this
            rw [h0] at this ⊢
            exact this))
        rw [step_of (m := client d) hf] at h
        cases h
      · rintro ⟨p', _, _, _, _, h, h0', -⟩
        cases h
        exact absurd h0 h0'
    by_cases hd : data = o.data
    · subst hd
      have hi := params_decimal cn sn p.salt p.iterations h0 hsn hcn
      generalize hf : (FinalInner.mk cn sn (gs2Header flag authzid ++ o.data) (writtenName o.name) authzid
        (Base64.encode p.salt) (Str.bytes (Nat.toDigits 10 p.iterations.toNat)) p.storedKey p.serverKey) = f
      have hfh : f.gs2Header = o.header ++ o.data := by rw [← hf, hh1]
      have hfn : f.clientNonce ++ f.serverNonce = cn ++ sn := by rw [← hf]
      have hauth : exchangeAuth (writtenName o.name) cn sn (o.header ++ o.data) p.salt
          (Str.bytes (Nat.toDigits 10 p.iterations.toNat)) = authOf f := by
        rw [← hf, hh1]
        rfl
      have hauth' : Spec.authMessage (clientFirstBare (writtenName o.name) cn) (serverFirst (cn ++ sn) (Base64.encode p.salt)
          (Str.bytes (Nat.toDigits 10 p.iterations.toNat))) (clientFinalBare (Base64.encode (o.header ++ o.data)) (cn ++ sn)) =
          authOf f := hauth
      have hkey : f.storedKey = p.storedKey ∧ f.serverKey = p.serverKey ∧ f.username = writtenName o.name ∧
          f.authzid = authzid := by rw [← hf]; exact ⟨rfl, rfl, rfl, rfl⟩
      clear hf
      obtain ⟨hk1, hk2, hk3, hk4⟩ := hkey
      rcases hg : gathered d (fun l ctx => cenv.callback l cenv.sd ctx) (c.log ++ l₁) p.salt p.iterations with
        ⟨_ | e | ⟨ck, sk⟩, l₃⟩
      · constructor
        · intro h
          unfold secondHalf at h
          rw [C104_client_second d cenv _ _ _ _ rfl _ _ _ _ _ _ hi (w 2) (hw 2), hg] at h
          cases h
        · rintro ⟨p', _, _, _, _, h, -, h', -⟩
          cases h
          rw [hg] at h'
          cases h'
      · constructor
        · intro h
          unfold secondHalf at h
          rw [C104_client_second d cenv _ _ _ _ rfl _ _ _ _ _ _ hi (w 2) (hw 2), hg] at h
          cases h
        · rintro ⟨p', _, _, _, _, h, -, h', -⟩
          cases h
          rw [hg] at h'
          cases h'
      · obtain ⟨hck, -⟩ := gathered_lengths hg
        obtain ⟨hright, hwrong⟩ := judged_proof (d := d) (f := f) (auth := authOf f) hck rfl
        rw [hfh, hfn, hk1] at hright hwrong
        by_cases hp : d.hash (List.zipWith (· ^^^ ·) (clientProof d ck (authOf f)) (d.hmac p.storedKey (authOf f))) = p.storedKey
        · have hr := C105_scram d senv ⟨some (.waitingClientFinal (some f)), s.slot, fun i => s.rng (i + 24), s.log ++ l₂⟩ f rfl
            (Base64.encode (o.header ++ o.data)) (cn ++ sn) (Base64.encode (clientProof d ck (authOf f))) []
            ⟨Base64.comma_notMem_encode _, hcn, Base64.comma_notMem_encode _⟩ (by simp) (w 3) (hw 3) _ (hright hp)
          simp only [Spec.tail, List.append_nil] at hr
          unfold secondHalf
          rw [C104_client_second d cenv _ _ _ _ rfl _ _ _ _ _ _ hi (w 2) (hw 2), hg]
          simp only [passed_ok, Option.bind_some]
          rw [hauth', hr, hk2, hk3, hk4]
          unfold ruling
          simp only
          rcases hv : returned senv.vtag s.slot.isNone (senv.validate (s.log ++ l₂) senv.sd
            (namesOffered (writtenName o.name) authzid)) with e | ⟨⟨⟩⟩
          · simp only [passed_err, Option.bind_none, Option.isSome_none, Bool.false_eq_true, false_iff]
            rintro ⟨p', _, _, _, _, h, -, -, -, h'⟩
            cases h
            rw [hv] at h'
            cases h'
          · simp only [passed_ok, Option.bind_some, Option.isSome_map]
            rw [client_last_passes d cenv _ _ _ _ _ _ rfl]
            constructor
            · intro h
              refine ⟨p, l₂, ck, sk, l₃, rfl, h0, hg, ?_, hv⟩
              rw [hauth]
              refine ⟨hp, ?_⟩
              unfold serverFinal at h
              exact Base64.encode_injective (List.append_cancel_left h)
            · rintro ⟨p', _, ck', sk', _, h, -, h', ⟨-, h''⟩, -⟩
              cases h
              rw [hg] at h'
              cases h'
              rw [hauth] at h''
              unfold serverFinal
              rw [h'']
        · constructor
          · intro h
            rw [refused_none d cenv senv _ _ (writtenName o.name) _ cn sn p.salt _ _ p.iterations rfl _ rfl
              hi (Base64.comma_notMem_encode _) (fun ck' sk' l' hg' => ⟨b!"invalid-proof", by
                rw [hauth']
                rw [hg] at hg'
                cases hg'
                exact hwrong hp⟩) (w 2) (w 3) (w 4) (hw 2) (hw 3)] at h
            cases h
          · rintro ⟨p', _, ck', sk', _, h, -, h', ⟨h'', -⟩, -⟩
            cases h
            rw [hg] at h'
            cases h'
            rw [hauth] at h''
            exact absurd h'' hp
    · constructor
      · intro h
        rw [refused_none d cenv senv _ _ (writtenName o.name) _ cn sn p.salt _ _ p.iterations rfl _ rfl
          (params_decimal _ _ _ _ h0 hsn hcn) (Base64.comma_notMem_encode _)
          (fun _ _ _ _ => ⟨b!"channel-bindings-dont-match", .binding (by
            rw [hh1]
            simpa using fun h => hd h.symm)⟩) (w 2) (w 3) (w 4) (hw 2) (hw 3)] at h
        cases h
      · rintro ⟨p', _, _, _, _, h, -⟩
        cases h
        exact absurd rfl hd

/-- C106: there is no exchange if the client has nothing to begin with. -/
theorem C106_begins (d : Digest) (cenv senv : Env) (c : Session CS) (s : Session SS) (plus : CbSupport)
    (hc : c.st = some (.initial plus)) (w : Fin 5 → List WResp) (hw : Cooperative (w 0)) (e : SessionError) (l₁ : List Event)
    (ho : opening cenv.chanbind (fun l ctx => cenv.callback l cenv.sd ctx) c.log plus = (.error e, l₁)) :
    scramExchange d cenv senv c s w = none := by
  unfold scramExchange
  rw [C104_client_first d cenv c plus hc ⟨none, w 0⟩ hw, ho]
  rfl

theorem cbName_append {a b : Bytes} (ha : a = [] ∨ CbName a) (hb : CbName b) : CbName (a ++ b) := by
  rcases ha with rfl | ha
  · exact hb
  · refine ⟨by simp [ha.1], fun x hx => ?_⟩
    rcases List.mem_append.1 hx with h | h
    · exact ha.2 x h
    · exact hb.2 x h

theorem cbName_exporter : CbName (b!"tls-exporter") := by unfold CbName; decide

theorem cbName_unique : CbName (b!"tls-unique") := by unfold CbName; decide

/-- The client's flag can be read if the callback names no odd types. -/
theorem announced_flag {chanbind : Str → Option Bytes} {asks : Asks} {log : List Event} {plus : CbSupport}
    (hn : plus = .supported → ∀ n, firstAnswer .overrideCBType (asks log .empty) = some n → CbName (Str.bytes n))
    {start data : Bytes} {l : List Event} (h : announced chanbind asks log plus = (.ok (start, data), l)) :
    ∃ flag, FlagText flag (flagBytes flag) ∧ start = flagBytes flag := by
  cases plus with
  | clientNoSupport =>
    cases h
    exact ⟨.notSupported, .notSupported, rfl⟩
  | serverNoSupport =>
    cases h
    exact ⟨.supportedNotUsed, .supportedNotUsed, rfl⟩
  | supported =>
    have hn := hn rfl
    suffices hs : ∃ n, CbName n ∧ start = b!"p=" ++ n by
      obtain ⟨n, h1, rfl⟩ := hs
      exact ⟨.used n, .used n h1, rfl⟩
    have hpre : ((firstAnswer .overrideCBType (asks log .empty)).map Str.bytes).getD [] = [] ∨
        CbName (((firstAnswer .overrideCBType (asks log .empty)).map Str.bytes).getD []) := by
      cases hf : firstAnswer .overrideCBType (asks log .empty) with
      | none => exact .inl rfl
      | some n => exact .inr (hn n hf)
    unfold announced at h
    simp only at h
    split at h
    · cases h
    · rename_i name hs
      split at h
      · cases h
      · cases h
        rw [(settled_some hs).1]
        exact ⟨_, hn _ (settled_some hs).1, rfl⟩
    · rename_i hs
      generalize ((firstAnswer .overrideCBType (asks log .empty)).map Str.bytes).getD [] = pre at hpre h
      split at h
      · cases h
      · rename_i v hx
        cases h
        rw [if_neg]
        · exact ⟨pre ++ b!"tls-exporter", cbName_append hpre cbName_exporter, by simp⟩
        · rw [bindingAsk_some hx]
          simp
      · split at h
        · cases h
        · cases h
          split
          · exact ⟨pre ++ b!"tls-unique", cbName_append hpre cbName_unique, by simp⟩
          · exact ⟨pre ++ b!"tls-exporter" ++ b!"tls-unique", cbName_append (.inr (cbName_append hpre cbName_exporter))
              cbName_unique, by simp⟩

/-- C106: a client whose callback names no odd types of channel bindings begins in a way the server can read. -/
theorem C106_heading (chanbind : Str → Option Bytes) (asks : Asks) (log : List Event) (plus : CbSupport)
    (hn : plus = .supported → ∀ n, firstAnswer .overrideCBType (asks log .empty) = some n → CbName (Str.bytes n))
    (o : OpeningParts) (l : List Event) (h : opening chanbind asks log plus = (.ok o, l)) :
    ∃ flag authzid, Heading flag authzid o.header := by
  unfold opening at h
  simp only at h
  split at h
  · cases h
  · rename_i start data l₁ ha
    obtain ⟨flag, hf, rfl⟩ := announced_flag hn ha
    split at h
    · cases h
    · split at h
      · cases h
      · cases h
        refine ⟨flag, (firstAnswer .authzId (asks (log ++ l₁) .empty)).map
          (fun z => if objectionSaslName z = none then writtenName z else []), ?_, hf, ?_⟩
        · cases firstAnswer .authzId (asks (log ++ l₁) .empty) with
          | none => rfl
          | some z =>
            simp only [gs2Header, authzidText, Option.map_some, authzidBytes]
            split <;> rfl
        · cases firstAnswer .authzId (asks (log ++ l₁) .empty) with
          | none => simp [authzidBytes]
          | some z =>
            simp only [Option.map_some, authzidBytes]
            split
            · have := comma_writtenName z
              simp [this]
            · decide

/-- C106: for a client and a server with keys of the same password the conditions on hashes hold. -/
theorem C106_same_keys (d : Digest) (ck auth : Bytes) (h : ck.length = d.outLen) :
    d.hash (List.zipWith (· ^^^ ·) (clientProof d ck auth) (d.hmac (d.hash ck) auth)) = d.hash ck := by
  have := xor_cancel ck (d.hmac (d.hash ck) auth) (by rw [d.hmac_length, h])
  unfold Scram.xor at this
  unfold clientProof
  rw [this]

/-! ### Examples -/

section Examples

/-- The client and the server of the example for `C27`. -/
example : (scramExchange toyDigest fitClient fitServer ⟨clientNewPlus, none, fun i => i, []⟩
    ⟨serverNewPlus, none, fun i => i + 5, []⟩ (fun _ => [])).isSome := by
  refine (C106_agree toyDigest fitClient fitServer ⟨clientNewPlus, none, fun i => i, []⟩
    ⟨serverNewPlus, none, fun i => i + 5, []⟩ .supported true rfl rfl (fun _ => []) (by intro i r hr; simp at hr)
    ⟨b!"p=tls-exporter,a=a=3Db,", [1, 2, 3], c!"us,er"⟩ _ rfl (.used (b!"tls-exporter")) (some (c!"a=3Db"))
    ⟨by decide, .used _ cbName_exporter, by decide⟩).2 ?_
  exact ⟨fitStored, _, _, _, _, rfl, by decide, rfl, ⟨C106_same_keys toyDigest _ _ rfl, rfl⟩, rfl⟩

/-- The same password but no iterations: the client does not go along. -/
example : (scramExchange toyDigest fitClient
    { exampleEnv [⟨.scramStoredPassword, { fitStored with iterations := 0 }⟩] with chanbind := fitBinding }
    ⟨clientNewPlus, none, fun i => i, []⟩ ⟨serverNewPlus, none, fun i => i + 5, []⟩ (fun _ => [])).isSome = false := by
  rw [← Bool.not_eq_true]
  refine mt (C106_agree toyDigest fitClient _ ⟨clientNewPlus, none, fun i => i, []⟩
    ⟨serverNewPlus, none, fun i => i + 5, []⟩ .supported true rfl rfl (fun _ => []) (by intro i r hr; simp at hr)
    ⟨b!"p=tls-exporter,a=a=3Db,", [1, 2, 3], c!"us,er"⟩ _ rfl (.used (b!"tls-exporter")) (some (c!"a=3Db"))
    ⟨by decide, .used _ cbName_exporter, by decide⟩).1 ?_
  rintro ⟨p, l, _, _, _, h, h0, -⟩
  cases h
  exact h0 rfl

/-- Without channel binding every beginning can be read. -/
example : ∃ flag authzid, Heading flag authzid (b!"n,a=,") :=
  C106_heading (fun _ => none) (fun l c => careless.callback l careless.sd c) [] .clientNoSupport (by simp)
    ⟨b!"n,a=,", [], c!"u,v"⟩ _ rfl

/-- Who has no name has nothing to begin with. -/
example : scramExchange toyDigest (exampleEnv []) fitServer ⟨some (.initial .clientNoSupport), none, fun i => i, []⟩
    ⟨serverNewPlus, none, fun i => i + 5, []⟩ (fun _ => []) = none :=
  C106_begins toyDigest _ _ _ _ .clientNoSupport rfl _ (by intro r hr; simp at hr) _ _ rfl

end Examples

end Rsasl

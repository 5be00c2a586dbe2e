/-
C107: exactly when an exchange of one of the simple mechanisms succeeds.
-/
import Verif.Spec.SimpleMeets
import Verif.Props.ScramMeets
import Verif.Props.Phrases
import Verif.Props.Refusals

namespace Rsasl

open Spec

variable {S : Type}

theorem ruling_finished (env : Env) (s : Session S) (log : List Event) (st : S) (rng : Nat → Nat) (ctx : Provider) (out : Bytes)
    (after : S) :
    (ruling env ⟨st, s.slot, rng, s.log ++ log⟩ ctx out (.finished .no) after).1.res = .ok (.finished .no) ↔
      Validates env s log ctx := by
  unfold ruling Validates
  simp only
  rcases returned env.vtag s.slot.isNone (env.validate (s.log ++ log) env.sd ctx) with e | ⟨⟨⟩⟩
  · simp
  · simp

theorem ruling_finished' (env : Env) (s : Session S) (ctx : Provider) (out : Bytes) (after : S) :
    (ruling env s ctx out (.finished .no) after).1.res = .ok (.finished .no) ↔ Validates env s [] ctx := by
  have := ruling_finished env s [] s.st s.rng ctx out after
  rwa [List.append_nil] at this

/-- What a needed answer adds to a message. -/
theorem said_of_need {p : Property} {obj : p.Value → Option SessionError} {text : p.Value → Bytes} {prog : CbProg} {v : p.Value}
    (h : settled p obj prog = .ok (some v)) : said p obj text prog = text v := by
  obtain ⟨h1, h2⟩ := settled_some h
  unfold said
  unfold firstAnswer at h1
  rcases hb : beginning p 0 prog with ⟨n, r⟩ | ⟨n, u, k⟩
  · rw [hb] at h1
    cases h1
  · rw [hb] at h1
    cases h1
    simp [h2]

theorem settledNeed_iff {p : Property} {obj : p.Value → Option SessionError} {prog : CbProg} {v : p.Value} :
    settledNeed p obj prog = .ok v ↔ settled p obj prog = .ok (some v) := by
  unfold settledNeed
  rcases settled p obj prog with e | (_ | u) <;> simp

theorem said_text {p : Property} {obj : p.Value → Option SessionError} {toStr : p.Value → Str} {prog : CbProg} :
    said p obj (fun v => Str.bytes (toStr v)) prog = Str.bytes (optionalText p toStr obj prog) := by
  unfold said optionalText firstAnswer
  rcases beginning p 0 prog with ⟨n, r⟩ | ⟨n, u, k⟩
  · rfl
  · simp only
    split <;> rfl

/-- C107, EXTERNAL. -/
theorem C107_external (cenv senv : Env) (c s : Session Unit) (w w' : List WResp) (hw : Cooperative w) :
    Accepted External.client External.server cenv senv c s w w' ↔
      TextAgree .authzId id (fun z => .this ⟨.authzId, z⟩) cenv senv c s := by
  unfold Accepted TextAgree
  rw [C103_external cenv c ⟨none, w⟩ hw]
  simp only [externalPhrases, compose]
  rcases hs : settled .authzId fine (cenv.callback c.log cenv.sd .empty) with e | o
  · simp [passed]
  · have ht := said_text (p := .authzId) (obj := fine) (toStr := id) (prog := cenv.callback c.log cenv.sd .empty)
    simp only [id] at ht
    have hx : ∀ sc, Session.step External.server senv s ⟨some (said .authzId fine Str.bytes (cenv.callback c.log cenv.sd .empty)), sc⟩ =
        ruling senv s (.this ⟨.authzId, optionalText .authzId id fine (cenv.callback c.log cenv.sd .empty)⟩) [] (.finished .no) () :=
      fun sc => C105_external senv s ⟨_, sc⟩ _ (by exact ht)
    have hf := ruling_finished' senv s (.this ⟨.authzId, optionalText .authzId id fine (cenv.callback c.log cenv.sd .empty)⟩) [] ()
    cases o <;> simp [passed, hx, hf]

/-- C107, ANONYMOUS. -/
theorem C107_anonymous (cenv senv : Env) (c s : Session Unit) (w w' : List WResp) (hw : Cooperative w) :
    Accepted Anonymous.client Anonymous.server cenv senv c s w w' ↔
      TextAgree .anonymousToken id (fun z => .this ⟨.anonymousToken, z⟩) cenv senv c s := by
  unfold Accepted TextAgree
  rw [C103_anonymous cenv c ⟨none, w⟩ hw]
  simp only [anonymousPhrases, compose]
  rcases hs : settled .anonymousToken fine (cenv.callback c.log cenv.sd .empty) with e | o
  · simp [passed]
  · have ht := said_text (p := .anonymousToken) (obj := fine) (toStr := id) (prog := cenv.callback c.log cenv.sd .empty)
    simp only [id] at ht
    have hx : ∀ sc, Session.step Anonymous.server senv s
        ⟨some (said .anonymousToken fine Str.bytes (cenv.callback c.log cenv.sd .empty)), sc⟩ =
        ruling senv s (.this ⟨.anonymousToken, optionalText .anonymousToken id fine (cenv.callback c.log cenv.sd .empty)⟩) []
          (.finished .no) () :=
      fun sc => C105_anonymous senv s ⟨_, sc⟩ _ (by exact ht)
    have hf := ruling_finished' senv s
      (.this ⟨.anonymousToken, optionalText .anonymousToken id fine (cenv.callback c.log cenv.sd .empty)⟩) [] ()
    cases o <;> simp [passed, hx, hf]

/-! ## PLAIN -/

/-- The server finishes exactly with a message it can read whose contents the callback accepts. -/
theorem plain_server_finishes (prep : Str → Option Str) (senv : Env) (s : Session Unit) (message : Bytes) (w : List WResp) :
    (s.step (Plain.server prep) senv ⟨some message, w⟩).1.res = .ok (.finished .no) ↔
      4 ≤ message.length ∧ ∃ z a p, PlainMessage prep message z a p ∧
        Validates senv s [] (.chain [⟨.authId, a⟩, ⟨.password, p⟩, ⟨.authzId, z⟩]) := by
  constructor
  · intro h
    rcases Plain.fault_or prep message with ⟨f, hf⟩ | ⟨hl, z, a, p, hm⟩
    · rw [(C87_plain prep senv s message w _).2 ⟨f, rfl, hf⟩] at h
      cases h
    · rw [C105_plain prep senv s message z a p hm hl w, ruling_finished'] at h
      exact ⟨hl, z, a, p, hm, h⟩
  · rintro ⟨hl, z, a, p, hm, h⟩
    rw [C105_plain prep senv s message z a p hm hl w, ruling_finished']
    exact h

/-- What is in a message, if it has no NUL where it should not. -/
theorem plainMessage_iff {prep : Str → Option Str} {z₀ name : Str} {password : Bytes} (h0 : '\x00' ∉ z₀) (h1 : '\x00' ∉ name)
    (h2 : 0 ∉ password) (z a : Str) (p : Bytes) :
    PlainMessage prep (Str.bytes z₀ ++ 0 :: (Str.bytes name ++ 0 :: password)) z a p ↔
      z = z₀ ∧ prep name = some a ∧ a ≠ [] ∧ PreparedPassword prep password p ∧ p ≠ [] := by
  have nul : ∀ {x : Str}, '\x00' ∉ x → (0 : UInt8) ∉ Str.bytes x := by
    intro x hx
    rw [mem_bytes_ascii (by decide) x]
    exact hx
  constructor
  · rintro ⟨rawId, rawPw, hi, nz, na, np, hprep, hne, hpw, hpne⟩
    have e1 : splitOn 0 (Str.bytes z₀ ++ 0 :: (Str.bytes name ++ 0 :: password)) = [Str.bytes z₀, Str.bytes name, password] :=
      splitOn_three.2 ⟨by simp, nul h0, nul h1, h2⟩
    have e2 : splitOn 0 (Str.bytes z₀ ++ 0 :: (Str.bytes name ++ 0 :: password)) = [Str.bytes z, Str.bytes rawId, rawPw] :=
      splitOn_three.2 ⟨by rw [hi]; simp, nz, na, np⟩
    rw [e1] at e2
    simp only [List.cons.injEq, and_true] at e2
    obtain ⟨f1, f2, rfl⟩ := e2
    cases Str.bytes_injective f1
    cases Str.bytes_injective f2
    exact ⟨rfl, hprep, hne, hpw, hpne⟩
  · rintro ⟨rfl, h3, h4, h5, h6⟩
    exact ⟨name, password, rfl, nul h0, nul h1, h2, h3, h4, h5, h6⟩

/-- When a PLAIN client has a message, and what it is. -/
theorem plain_composed (asks : List Event → CbProg) (log l₁ l₂ : List Event)
    (h₁ : l₁ = settledLog .authzId objectionNul .empty (asks log))
    (h₂ : l₂ = l₁ ++ settledLog .authId objectionName .empty (asks (log ++ l₁))) :
    ((compose asks log plainPhrases).result = .ok () ↔ ∃ o n p, settled .authzId objectionNul (asks log) = .ok o ∧
      settledNeed .authId objectionName (asks (log ++ l₁)) = .ok n ∧
      settledNeed .password objectionPassword (asks (log ++ l₂)) = .ok p) ∧
    ∀ n p, settledNeed .authId objectionName (asks (log ++ l₁)) = .ok n →
      settledNeed .password objectionPassword (asks (log ++ l₂)) = .ok p →
      (compose asks log plainPhrases).result = .ok () →
      (compose asks log plainPhrases).out =
        Str.bytes (optionalText .authzId id objectionNul (asks log)) ++ 0 :: (Str.bytes n ++ 0 :: p) := by
  have ht := said_text (p := .authzId) (obj := objectionNul) (toStr := id) (prog := asks log)
  simp only [id] at ht
  have hn := @said_of_need .authId objectionName Str.bytes (asks (log ++ l₁))
  have hp := @said_of_need .password objectionPassword id (asks (log ++ l₂))
  simp only [plainPhrases, compose, ← h₁, List.append_assoc, ← h₂]
  rw [ht]
  unfold settledNeed
  rcases hs : settled .authzId objectionNul (asks log) with e | o
  · simp
  rcases hs₁ : settled .authId objectionName (asks (log ++ l₁)) with e | (_ | n)
  · cases o <;> simp
  · cases o <;> simp
  rw [hn hs₁]
  rcases hs₂ : settled .password objectionPassword (asks (log ++ l₂)) with e | (_ | p)
  · cases o <;> simp
  · cases o <;> simp
  rw [hp hs₂]
  cases o <;> simp +contextual

theorem objectionName_none {n : Str} (h : objectionName n = none) : n ≠ [] ∧ '\x00' ∉ n := by
  unfold objectionName objectionNul at h
  by_cases h1 : n = [] <;> by_cases h2 : '\x00' ∈ n <;> simp_all

theorem objectionPassword_none {p : Bytes} (h : objectionPassword p = none) : p ≠ [] ∧ 0 ∉ p := by
  unfold objectionPassword at h
  by_cases h1 : p = [] <;> by_cases h2 : 0 ∈ p <;> simp_all

/-- C107, PLAIN. -/
theorem C107_plain (prep : Str → Option Str) (cenv senv : Env) (c s : Session Unit) (w w' : List WResp) (hw : Cooperative w) :
    Accepted Plain.client (Plain.server prep) cenv senv c s w w' ↔ PlainAgree prep cenv senv c s := by
  unfold Accepted PlainAgree
  rw [C103_plain cenv c ⟨none, w⟩ hw]
  simp only [plain_server_finishes]
  have hz : '\x00' ∉ optionalText .authzId id objectionNul (cenv.callback c.log cenv.sd .empty) := by
    unfold optionalText
    split
    · simp
    · rename_i v _
      split
      · rename_i h
        unfold objectionNul at h
        by_cases hv : '\x00' ∈ v
        · rw [if_pos hv] at h
          cases h
        · exact hv
      · simp
  have hcomp := plain_composed (fun l => cenv.callback l cenv.sd .empty) c.log _ _ rfl rfl
  generalize settledLog .authzId objectionNul .empty (cenv.callback c.log cenv.sd .empty) = l₁ at *
  generalize l₁ ++ settledLog .authId objectionName .empty (cenv.callback (c.log ++ l₁) cenv.sd .empty) = l₂ at *
  generalize compose (fun l => cenv.callback l cenv.sd .empty) c.log plainPhrases = t at *
  obtain ⟨hc1, hc2⟩ := hcomp
  generalize optionalText .authzId id objectionNul (cenv.callback c.log cenv.sd .empty) = z₀ at *
  have facts : ∀ {n : Str} {p : Bytes}, settledNeed .authId objectionName (cenv.callback (c.log ++ l₁) cenv.sd .empty) = .ok n →
      settledNeed .password objectionPassword (cenv.callback (c.log ++ l₂) cenv.sd .empty) = .ok p → (n ≠ [] ∧ '\x00' ∉ n) ∧ p ≠ [] ∧ 0 ∉ p := by
    intro n p h1 h2
    exact ⟨objectionName_none (settled_some (settledNeed_iff.1 h1)).2, objectionPassword_none (settled_some (settledNeed_iff.1 h2)).2⟩
  constructor
  · rintro ⟨m, c', hp, hl, z, a, p, hm, hv⟩
    have hr : t.result = .ok () ∧ m = t.out := by
      rcases hr : t.result with e | ⟨⟨⟩⟩
      · rw [hr] at hp
        cases hp
      · rw [hr] at hp
        cases hp
        exact ⟨rfl, rfl⟩
    obtain ⟨o, n, pw, h1, h2, h3⟩ := hc1.1 hr.1
    obtain ⟨⟨f1, f2⟩, f3, f4⟩ := facts h2 h3
    rw [hr.2, hc2 n pw h2 h3 hr.1] at hm
    obtain ⟨rfl, k1, k2, k3, k4⟩ := (plainMessage_iff hz f2 f4 z a p).1 hm
    exact ⟨o, n, pw, a, p, h1, h2, h3, k1, k2, k3, k4, hv⟩
  · rintro ⟨o, n, pw, a, p, h1, h2, h3, k1, k2, k3, k4, hv⟩
    obtain ⟨⟨f1, f2⟩, f3, f4⟩ := facts h2 h3
    have hr := hc1.2 ⟨o, n, pw, h1, h2, h3⟩
    refine ⟨t.out, _, by rw [hr]; rfl, ?_, z₀, a, p, ?_, hv⟩
    · rw [hc2 n pw h2 h3 hr]
      have e1 : 0 < (Str.bytes n).length := by
        rw [List.length_pos_iff]
        exact fun h => f1 (Str.bytes_injective h)
      have e2 : 0 < pw.length := List.length_pos_iff.2 f3
      simp only [List.length_append, List.length_cons]
      omega
    · rw [hc2 n pw h2 h3 hr]
      exact (plainMessage_iff hz f2 f4 z₀ a p).2 ⟨rfl, k1, k2, k3, k4⟩

/-! ## LOGIN -/

theorem login_prompted (env : Env) (s : Session Login.SState) (hs : s.st = .new) (input : Option Bytes) (w : List WResp)
    (hw : Patient w) :
    s.step Login.server env ⟨input, w⟩ = (⟨.ok .running, b!"User Name\x00"⟩, { s with st := .waitingForUsername }) := by
  obtain ⟨st, slot, rng, log⟩ := s
  cases hs
  obtain ⟨sc, -, h⟩ := M.writeAll_patient Login.userPrompt Login.SState.new ⟨⟨[], w⟩, rng, slot, log⟩ hw
  refine step_of (m := Login.server) (w' := ⟨⟨Login.userPrompt, sc⟩, rng, slot, log⟩) ?_
  exact (M.bind_ok (M.get_apply ..)).trans ((M.bind_ok h).trans rfl)

theorem login_named (env : Env) (s : Session Login.SState) (hs : s.st = .waitingForUsername) (name : Str) (w : List WResp)
    (hw : Patient w) :
    s.step Login.server env ⟨some (Str.bytes name), w⟩ =
      (⟨.ok .running, b!"Password\x00"⟩, { s with st := .waitingForPassword name }) := by
  obtain ⟨st, slot, rng, log⟩ := s
  cases hs
  obtain ⟨sc, -, h⟩ := M.writeAll_patient Login.passwordPrompt Login.SState.waitingForUsername ⟨⟨[], w⟩, rng, slot, log⟩ hw
  refine step_of (m := Login.server) (w' := ⟨⟨Login.passwordPrompt, sc⟩, rng, slot, log⟩) ?_
  refine (M.bind_ok (M.get_apply ..)).trans ?_
  have hn : M.okOr (S := Login.SState) (.mechanismError .loginUtf8) (fromUtf8 (Str.bytes name)) .waitingForUsername
      ⟨⟨[], w⟩, rng, slot, log⟩ = (.ok name, .waitingForUsername, ⟨⟨[], w⟩, rng, slot, log⟩) := by
    rw [fromUtf8_bytes]
    rfl
  exact (M.bind_ok hn).trans ((M.bind_ok h).trans rfl)

/-- C107, LOGIN. -/
theorem C107_login (cenv senv : Env) (c : Session Login.CState) (s : Session Login.SState) (hc : c.st = .authid)
    (hs : s.st = .new) (w : Fin 5 → List WResp) (hw : ∀ i, Cooperative (w i)) :
    (loginExchange cenv senv c s w).isSome ↔ LoginAgree cenv senv c s := by
  unfold loginExchange LoginAgree
  rw [login_prompted senv s hs none (w 0) (hw 0).patient]
  simp only [passed_ok, Option.bind_some]
  have h1 := (C103_login cenv c ⟨some (b!"User Name\x00"), w 1⟩ (hw 1)).1 hc
  simp only [loginName, compose] at h1
  rw [h1]
  unfold settledNeed
  rcases hs₁ : settled .authId fine (cenv.callback c.log cenv.sd .empty) with e | (_ | n)
  · simp [passed]
  · simp [passed]
  · simp only [said_of_need hs₁, List.append_nil, passed_ok, Option.bind_some]
    erw [login_named senv ⟨.waitingForUsername, s.slot, s.rng, s.log⟩ rfl n (w 2) (hw 2).patient]
    simp only [passed_ok, Option.bind_some]
    have h2 := (C103_login cenv { c with st := .password, log := c.log ++ settledLog .authId fine .empty (cenv.callback c.log cenv.sd .empty) }
      ⟨some (b!"Password\x00"), w 3⟩ (hw 3)).2 rfl
    simp only [loginPassword, compose] at h2
    erw [h2]
    rcases hs₂ : settled .password fine (cenv.callback (c.log ++ settledLog .authId fine .empty
      (cenv.callback c.log cenv.sd .empty)) cenv.sd .empty) with e | (_ | p)
    · simp [passed]
    · simp [passed]
    · simp only [said_of_need hs₂, List.append_nil, passed_ok, Option.bind_some, id]
      erw [C105_login senv ⟨.waitingForPassword n, s.slot, s.rng, s.log⟩ n rfl]
      unfold ruling Validates
      simp only [List.append_nil]
      constructor
      · intro h
        refine ⟨n, p, rfl, rfl, ?_⟩
        rcases hv : returned senv.vtag s.slot.isNone (senv.validate s.log senv.sd (.chain [⟨.authId, n⟩, ⟨.password, p⟩])) with
          e | ⟨⟨⟩⟩
        · rw [hv] at h
          cases h
        · rfl
      · rintro ⟨n', p', h3, h4, h5⟩
        cases h3
        cases h4
        rw [h5]
        rfl

/-! ## OAuth -/

theorem tokenChecked_finished (p : Property) (refused : p.Value → Option Bytes) (good : p.Value)
    (hg : ∀ v, refused v = none ↔ v = good) (env : Env) (s : Session OAuthSState) (ctx : Provider) :
    (tokenChecked p refused env s ctx).1.res = .ok (.finished .no) ↔ TokenTaken p good env s ctx := by
  unfold tokenChecked TokenTaken
  simp only
  rcases settledNeed p fine (env.callback s.log env.sd ctx) with e | v
  · simp
  · simp only [Except.ok.injEq]
    by_cases hv : refused v = none
    · have := (hg v).1 hv
      subst this
      simp only [hv, Option.isSome_none, Bool.false_eq_true, if_false, true_and]
      exact ruling_finished env s _ _ _ ctx _ _
    · have hne : v ≠ good := fun h => hv ((hg v).2 h)
      have : (refused v).isSome = true := by
        rwa [← Option.ne_none_iff_isSome]
      simp only [this, if_true, hne, false_and, iff_false]
      unfold ruling
      simp only
      split <;> simp

theorem xoauth2_server_finishes (senv : Env) (s : Session OAuthSState) (hs : s.st = .initial) (message : Bytes) (w : List WResp)
    (hw : Patient w) :
    (s.step XOAuth2.server senv ⟨some message, w⟩).1.res = .ok (.finished .no) ↔
      ∃ user token, message = xoauth2Message user token ∧ '\x01' ∉ user ∧
        TokenTaken .xoauth2Validate (.ok ()) senv s (.chain [⟨.authId, user⟩, ⟨.oauthBearerToken, token⟩]) := by
  have hg : ∀ v, xoauth2Refusal v = none ↔ v = .ok () := by
    rintro (e | ⟨⟨⟩⟩) <;> simp [xoauth2Refusal]
  constructor
  · intro h
    rcases hp : XOAuth2.parse message with e | ⟨user, token⟩
    · obtain ⟨m, rfl, hm⟩ := (XOAuth2.C87_xoauth2_parse message e).1 hp
      rw [(C87_xoauth2 senv s hs message w _).2 ⟨m, rfl, hm⟩] at h
      cases h
    · obtain ⟨rfl, hu⟩ := (XOAuth2.parse_eq_ok _ _ _).1 hp
      rw [C105_xoauth2 senv s hs user token hu w hw] at h
      exact ⟨user, token, rfl, hu, (tokenChecked_finished _ _ _ hg ..).1 h⟩
  · rintro ⟨user, token, rfl, hu, h⟩
    rw [C105_xoauth2 senv s hs user token hu w hw]
    exact (tokenChecked_finished _ _ _ hg ..).2 h

theorem bearer_server_finishes (json : OAuthBearer.Json) (senv : Env) (s : Session OAuthSState) (hs : s.st = .initial)
    (message : Bytes) (w : List WResp) (hw : Patient w) :
    (s.step (OAuthBearer.server json) senv ⟨some message, w⟩).1.res = .ok (.finished .no) ↔
      ∃ authzid token fields, OAuthWire message authzid token fields ∧
        TokenTaken .oauthBearerValidate (.ok ()) senv s (bearerOffer authzid token fields) := by
  have hg : ∀ v, bearerRefusal json v = none ↔ v = .ok () := by
    rintro (e | ⟨⟨⟩⟩) <;> simp [bearerRefusal]
  constructor
  · intro h
    rcases hp : OAuthBearer.Msg.parse message with e | ⟨authzid, token, fields⟩
    · rw [(C87_oauthbearer json senv s hs message w _).2 ⟨e, rfl, (OAuthBearer.C87_oauthbearer_parse _ _).1 hp⟩] at h
      cases h
    · have hm := (OAuthBearer.C52_parse _ _ _ _).1 hp
      rw [C105_oauthbearer json senv s hs message _ _ _ hm w hw] at h
      exact ⟨authzid, token, fields, hm, (tokenChecked_finished _ _ _ hg ..).1 h⟩
  · rintro ⟨authzid, token, fields, hm, h⟩
    rw [C105_oauthbearer json senv s hs message _ _ _ hm w hw]
    exact (tokenChecked_finished _ _ _ hg ..).2 h

/-- C107, XOAUTH2. -/
theorem C107_xoauth2 (cenv senv : Env) (c : Session OAuthCState) (s : Session OAuthSState) (hc : c.st = .initial)
    (hs : s.st = .initial) (w w' : List WResp) (hw : Cooperative w) (hw' : Patient w') :
    Accepted XOAuth2.client XOAuth2.server cenv senv c s w w' ↔ XOAuth2Agree cenv senv c s := by
  unfold Accepted XOAuth2Agree
  have h1 := C103_xoauth2 cenv c ⟨none, w⟩ hw hc
  rw [h1]
  simp only [xoauth2_server_finishes senv s hs _ w' hw']
  simp only [xoauth2Phrases, compose]
  unfold settledNeed
  rcases hs₁ : settled .authId fine (cenv.callback c.log cenv.sd .empty) with e | (_ | n)
  · simp [passed]
  · simp [passed]
  rcases hs₂ : settled .oauthBearerToken fine (cenv.callback (c.log ++ settledLog .authId fine .empty
      (cenv.callback c.log cenv.sd .empty)) cenv.sd .empty) with e | (_ | t)
  · simp [passed]
  · simp [passed]
  simp only [passed_ok]
  rw [said_of_need hs₁, said_of_need hs₂]
  have hm : b!"user=" ++ Str.bytes n ++ b!"\x01auth=Bearer " ++ (Str.bytes t ++ b!"\x01\x01" ++ []) = xoauth2Message n t := by
    simp [xoauth2Message]
  simp only [hm]
  constructor
  · rintro ⟨m, c', h, u, r, hm', h2⟩
    have h3 : xoauth2Message n t = m := (Prod.mk.injEq .. ▸ Option.some.inj h).1
    exact ⟨n, t, u, r, rfl, rfl, h3.trans hm', h2⟩
  · rintro ⟨n', t', u, r, h3, h4, h5⟩
    cases h3
    cases h4
    exact ⟨_, _, rfl, u, r, h5⟩

/-- C107, OAUTHBEARER. -/
theorem C107_oauthbearer (json : OAuthBearer.Json) (cenv senv : Env) (c : Session OAuthCState) (s : Session OAuthSState)
    (hc : c.st = .initial) (hs : s.st = .initial) (w w' : List WResp) (hw : Cooperative w) (hw' : Patient w') :
    Accepted (OAuthBearer.client json) (OAuthBearer.server json) cenv senv c s w w' ↔ BearerAgree cenv senv c s := by
  unfold Accepted BearerAgree
  have h1 := C103_oauthbearer json cenv c ⟨none, w⟩ hw hc
  rw [h1]
  simp only [bearer_server_finishes json senv s hs _ w' hw']
  generalize compose (fun l => cenv.callback l cenv.sd .empty) c.log oauthbearerPhrases = t
  rcases t with ⟨e | ⟨⟨⟩⟩, out, l⟩
  · simp [passed]
  · simp [passed]

/-! ### Examples -/

section Examples

def simpleClient : Env :=
  exampleEnv [⟨.authId, c!"user"⟩, ⟨.authzId, c!"other"⟩, ⟨.password, b!"pw"⟩, ⟨.oauthBearerToken, c!"t"⟩, ⟨.anonymousToken, c!"guest"⟩]

/-- Accepts every token, and everyone whose name is `user`. -/
def simpleServer : Env :=
  { exampleEnv [⟨.xoauth2Validate, .ok ()⟩, ⟨.oauthBearerValidate, .ok ()⟩] with
    validate := fun _ _ ctx => (.ret (if ctx.getRef .authId = some (c!"user") then .ok () else .error .missingRequiredProperty) : ValProg) }

example : Accepted Plain.client (Plain.server some) simpleClient simpleServer ⟨(), none, fun _ => 0, []⟩ ⟨(), none, fun _ => 0, []⟩ [] [] := by
  refine (C107_plain some _ _ _ _ _ _ (by intro r hr; simp at hr)).2 ?_
  exact ⟨_, _, _, _, _, rfl, rfl, rfl, rfl, by decide, .inl ⟨c!"pw", c!"pw", rfl, rfl, rfl⟩, by decide, rfl⟩

/-- A password whose preparation is forbidden: all the same who accepts it. -/
example : ¬ Accepted Plain.client (Plain.server fun x => if x = c!"pw" then none else some x) simpleClient simpleServer
    ⟨(), none, fun _ => 0, []⟩ ⟨(), none, fun _ => 0, []⟩ [] [] := by
  refine mt (C107_plain _ _ _ _ _ _ _ (by intro r hr; simp at hr)).1 ?_
  rintro ⟨o, n, p, a, q, -, -, h, -, -, h', -⟩
  cases h
  rcases h' with ⟨x, y, h1, h2, -⟩ | ⟨h1, -⟩
  · have : x = c!"pw" := Str.bytes_injective (h1.symm.trans rfl)
    subst this
    cases h2
  · exact h1 (c!"pw") rfl

example : (loginExchange simpleClient simpleServer ⟨.authid, none, fun _ => 0, []⟩ ⟨.new, none, fun _ => 0, []⟩ (fun _ => [])).isSome := by
  refine (C107_login _ _ _ _ rfl rfl _ (by intro i r hr; simp at hr)).2 ?_
  exact ⟨c!"user", b!"pw", rfl, rfl, rfl⟩

/-- EXTERNAL offers no name, so that this server does not accept it; one that accepts everyone does. -/
example : ¬ Accepted External.client External.server simpleClient simpleServer ⟨(), none, fun _ => 0, []⟩ ⟨(), none, fun _ => 0, []⟩ [] [] := by
  refine mt (C107_external _ _ _ _ _ _ (by intro r hr; simp at hr)).1 ?_
  rintro ⟨-, h⟩
  cases h

example : Accepted Anonymous.client Anonymous.server simpleClient (exampleEnv []) ⟨(), none, fun _ => 0, []⟩ ⟨(), none, fun _ => 0, []⟩ [] [] := by
  refine (C107_anonymous _ _ _ _ _ _ (by intro r hr; simp at hr)).2 ?_
  exact ⟨⟨_, rfl⟩, rfl⟩

example : Accepted XOAuth2.client XOAuth2.server simpleClient simpleServer ⟨.initial, none, fun _ => 0, []⟩ ⟨.initial, none, fun _ => 0, []⟩ [] [] := by
  refine (C107_xoauth2 _ _ _ _ rfl rfl _ _ (by intro r hr; simp at hr) (by intro r hr; simp at hr)).2 ?_
  exact ⟨c!"user", c!"t", c!"user", c!"t", rfl, rfl, rfl, by decide, rfl, rfl⟩

example (json : OAuthBearer.Json) : Accepted (OAuthBearer.client json) (OAuthBearer.server json) simpleClient
    { simpleServer with validate := fun _ _ _ => (.ret (.ok ()) : ValProg) } ⟨.initial, none, fun _ => 0, []⟩
    ⟨.initial, none, fun _ => 0, []⟩ [] [] := by
  refine (C107_oauthbearer json _ _ _ _ rfl rfl _ _ (by intro r hr; simp at hr) (by intro r hr; simp at hr)).2 ?_
  exact ⟨rfl, some (c!"other"), c!"Bearer t", [], ⟨b!",", [.auth (c!"Bearer t")], rfl, by simp,
    .inr ⟨[], rfl, by simp⟩, by intro i hi; simp at hi; subst hi; unfold OAuthItem.Plain; decide, rfl, rfl⟩, rfl, rfl⟩

end Examples

end Rsasl

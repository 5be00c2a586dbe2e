/-
C91: the client of the crate's documentation.
-/
import Verif.Spec.Documented
import Verif.Props.Panics
import Verif.Props.Turns
import Verif.Props.ExampleClients
import Verif.Props.ExampleServers
import Verif.Props.First
import Verif.Props.StepErrors
import Verif.Props.Nothing

namespace Rsasl

open Spec Documented

/-! ## The loop is a sequence of calls -/

theorem EndsWith.cons {rs : List (Reply State)} {res : Outcome State} {r : Reply State}
    (hr : r.res = .ok .running) (h : EndsWith rs res) : EndsWith (r :: rs) res := by
  obtain ⟨rs', l, rfl, h1, h2⟩ := h
  refine ⟨r :: rs', l, rfl, ?_, h2⟩
  intro x hx
  rcases List.mem_cons.1 hx with rfl | hx
  · exact hr
  · exact h1 x hx

theorem EndsWith.one {r : Reply State} : EndsWith [r] r.res := ⟨[], r, rfl, nofun, rfl⟩

theorem loop_run (m : Mech) (env : Env) (p : Protocol) (fuel i : Nat) (data : Option Bytes)
    (s : Session m.S) :
    (loop m env p fuel i data s).2 =
      (s.run m env (loopCalls p data i (loop m env p fuel i data s).2.length)).1 ∧
    LoopEnds fuel (loop m env p fuel i data s).2 (loop m env p fuel i data s).1 := by
  induction fuel generalizing i data s with
  | zero => exact ⟨rfl, nofun, rfl⟩
  | succ fuel ih =>
    unfold loop
    generalize hc : (⟨data, p.sched i⟩ : Call) = c
    simp only
    have one : ∀ r, (s.step m env c).1 = r →
        [r] = (s.run m env (loopCalls p data i ([r] : List (Reply State)).length)).1 := by
      intro r hr
      show [r] = (s.run m env [⟨data, p.sched i⟩]).1
      rw [hc, run_cons, hr]
      rfl
    rcases hr : (s.step m env c).1.res with state | e | _
    · cases state with
      | running =>
        simp only [State.isRunning, if_true]
        obtain ⟨h1, h2⟩ := ih (i + 1) (p.more i) (s.step m env c).2
        refine ⟨?_, ?_⟩
        · show _ = (s.run m env (⟨data, p.sched i⟩ :: loopCalls p (p.more i) (i + 1) _)).1
          rw [hc, run_cons]
          exact congrArg _ h1
        · revert h2
          cases (loop m env p fuel (i + 1) (p.more i) (s.step m env c).2).1 with
          | done =>
            rintro ⟨rs', r, k, h, h', h''⟩
            obtain ⟨a, b, c, d, e⟩ := EndsWith.cons hr ⟨rs', r, h, h', h''⟩
            exact ⟨a, b, k, c, d, e⟩
          | noMechanism => exact id
          | stepErrored e => exact EndsWith.cons hr
          | panicked => exact EndsWith.cons hr
          | unfinished =>
            rintro ⟨h1, h2⟩
            refine ⟨?_, congrArg (· + 1) h2⟩
            intro x hx
            rcases List.mem_cons.1 hx with rfl | hx
            · exact hr
            · exact h1 x hx
      | finished k =>
        refine ⟨one _ rfl, ?_⟩
        exact ⟨[], _, k, rfl, nofun, hr⟩
    · exact ⟨one _ rfl, [], _, rfl, nofun, hr⟩
    · exact ⟨one _ rfl, [], _, rfl, nofun, hr⟩

theorem loop_ends {m : Mech} {rank count : m.S → Nat} {fin : Nat → Prop} {needs : m.S → Prop}
    {pan : Prop} (h : Tame m rank count fin needs pan) (env : Env) (p : Protocol) (fuel i : Nat)
    (data : Option Bytes) (s : Session m.S) (hf : rank s.st < fuel) :
    (loop m env p fuel i data s).1 ≠ .unfinished ∧
    loop m env p (fuel + 1) i data s = loop m env p fuel i data s := by
  induction fuel generalizing i data s with
  | zero => exact absurd hf (Nat.not_lt_zero _)
  | succ fuel ih =>
    rw [loop, loop]
    have ht := h.step std_true env.errs_true s ⟨data, p.sched i⟩
    generalize s.step m env ⟨data, p.sched i⟩ = x at ht
    simp only
    rcases hr : x.1.res with state | e | _
    · cases state with
      | running =>
        simp only [State.isRunning, if_true]
        have := ih (i + 1) (p.more i) x.2 (by have := (ht.running hr).1; omega)
        rw [this.2]
        exact ⟨this.1, rfl⟩
      | finished k => exact ⟨nofun, rfl⟩
    · exact ⟨nofun, rfl⟩
    · exact ⟨nofun, rfl⟩

theorem loop_fuel {m : Mech} {rank count : m.S → Nat} {fin : Nat → Prop} {needs : m.S → Prop}
    {pan : Prop} (h : Tame m rank count fin needs pan) (env : Env) (p : Protocol) (more i : Nat)
    (data : Option Bytes) (s : Session m.S) (hf : rank s.st ≤ 2) :
    (loop m env p 3 i data s).1 ≠ .unfinished ∧
    loop m env p (3 + more) i data s = loop m env p 3 i data s := by
  refine ⟨(loop_ends h env p 3 i data s (by omega)).1, ?_⟩
  induction more with
  | zero => rfl
  | succ n ih => exact (loop_ends h env p (3 + n) i data s (by omega)).2.trans ih

/-- What the configuration can come to. -/
theorem client_of {config : Config} (hs : ∀ m ∈ config.mechs, m ∈ shipped) (deps : Deps)
    (offered : List Bytes) :
    (∃ e, config.clientStart offered = .err e) ∨
    ∃ a m client, config.clientStart offered = .ok (a, m) ∧ m ∈ config.mechs ∧
      a.startClient deps = some client ∧ (a = .gssapi → m = GSSAPI) ∧
      (∀ h b, a = .scramClient h b → m = SCRAM h) ∧ (∀ h, a = .scramClientPlus h → m = SCRAMPLUS h) := by
  rcases hc : config.clientStart offered with ⟨a, m⟩ | e | _
  · refine .inr ?_
    obtain ⟨hm, _, _, hau⟩ := clientStart_ok (shipped_known hs) hc
    have hsh := hs m hm
    simp only [shipped, List.mem_cons, List.not_mem_nil, or_false] at hsh
    rcases hsh with rfl | rfl | rfl | rfl | rfl | rfl | rfl | rfl | rfl | rfl | rfl | rfl | rfl <;>
      (cases hau
       refine ⟨_, _, _, rfl, hm, rfl, ?_, ?_, ?_⟩
       · intro h; cases h; try rfl
       · intro _ _ h; cases h; try rfl
       · intro _ h; cases h; try rfl)
  · exact .inl ⟨e, rfl⟩
  · obtain ⟨m, hm, hn, _⟩ := C04_panic config (shipped_known hs) offered hc
    have hsh := hs m hm
    simp only [shipped, List.mem_cons, List.not_mem_nil, or_false] at hsh
    rcases hsh with rfl | rfl | rfl | rfl | rfl | rfl | rfl | rfl | rfl | rfl | rfl | rfl | rfl <;>
      cases hn

/-- C91: what the loop does is a sequence of calls of `step`, the first without input if the client
goes first and with the initial data if not, every other with what the other side has sent, and it
ends as the last of them does: no call is made after one that has ended the exchange. Without a
mechanism there are no calls. -/
theorem C91_calls (deps : Deps) (config : Config) (hs : ∀ m ∈ config.mechs, m ∈ shipped)
    (env : Mechanism → Env) (rng : Nat → Nat) (offered : List Bytes) (p : Protocol) (fuel : Nat) :
    ((∃ e, config.clientStart offered = .err e) ∧
      authenticate deps config env rng offered p fuel = (.noMechanism, [])) ∨
    ∃ a m client, config.clientStart offered = .ok (a, m) ∧ a.startClient deps = some client ∧
      ∀ e rs, authenticate deps config env rng offered p fuel = (e, rs) →
        rs = ((client.session rng).run client.mech (env m) (loopCalls p
          (if (env m).areWeFirst then none else some p.initial) 0 rs.length)).1 ∧
        LoopEnds fuel rs e := by
  rcases client_of hs deps offered with ⟨e, h⟩ | ⟨a, m, client, h, -, hc, -⟩
  · refine .inl ⟨⟨e, h⟩, ?_⟩
    unfold authenticate
    rw [h]
  · refine .inr ⟨a, m, client, h, hc, ?_⟩
    intro e rs he
    unfold authenticate at he
    rw [h] at he
    dsimp only at he
    rw [hc] at he
    dsimp only at he
    have := loop_run client.mech (env m) p fuel 0 (firstData (env m) p) (client.session rng)
    rw [he] at this
    exact this

/-- C91: without GSSAPI the loop ends, after three calls of `step` at the latest, whatever the
callback, the writer and the other side do. -/
theorem C91_ends (deps : Deps) (config : Config) (hs : ∀ m ∈ config.mechs, m ∈ shipped)
    (hg : GSSAPI ∉ config.mechs) (env : Mechanism → Env) (rng : Nat → Nat) (offered : List Bytes)
    (p : Protocol) :
    (authenticate deps config env rng offered p 3).1 ≠ .unfinished ∧
    ∀ more, authenticate deps config env rng offered p (3 + more) =
      authenticate deps config env rng offered p 3 := by
  rcases client_of hs deps offered with ⟨e, h⟩ | ⟨a, m, client, h, hm, hc, hgs, -⟩
  · unfold authenticate
    rw [h]
    exact ⟨nofun, fun _ => rfl⟩
  · have ha : a ≠ .gssapi := fun h' => hg (hgs h' ▸ hm)
    unfold authenticate
    rw [h]
    dsimp only
    rw [hc]
    dsimp only
    generalize firstData (env m) p = data
    have key : ∀ (me : Mech) (init : me.S) (rank count : me.S → Nat) fin (needs : me.S → Prop)
        (pan : Prop), Tame me rank count fin needs pan → rank init ≤ 2 →
        (loop me (env m) p 3 0 data ((⟨me, init⟩ : Started).session rng)).1 ≠ .unfinished ∧
        ∀ more, loop me (env m) p (3 + more) 0 data ((⟨me, init⟩ : Started).session rng) =
          loop me (env m) p 3 0 data ((⟨me, init⟩ : Started).session rng) := by
      intro me init rank count fin needs pan ht h2
      exact ⟨(loop_fuel ht (env m) p 0 0 data _ h2).1,
        fun more => (loop_fuel ht (env m) p more 0 data _ h2).2⟩
    cases a with
    | gssapi => exact absurd rfl ha
    | plain => cases hc; exact key _ _ _ _ _ _ _ Plain.client_tame (by decide)
    | login => cases hc; exact key _ _ _ _ _ _ _ Login.client_tame (by decide)
    | external => cases hc; exact key _ _ _ _ _ _ _ External.client_tame (by decide)
    | anonymous => cases hc; exact key _ _ _ _ _ _ _ Anonymous.client_tame (by decide)
    | xoauth2 => cases hc; exact key _ _ _ _ _ _ _ XOAuth2.client_tame (by decide)
    | oauthbearer => cases hc; exact key _ _ _ _ _ _ _ (OAuthBearer.client_tame _) (by decide)
    | scramClient x b =>
      cases hc; exact key _ _ _ _ _ _ _ (Scram.client_tame _) (by cases b <;> decide)
    | scramClientPlus x => cases hc; exact key _ _ _ _ _ _ _ (Scram.client_tame _) (by decide)
    | scramServer x b => cases hc
    | scramServerPlus x => cases hc
    | custom n => cases hc

/-! ## The last call -/

theorem run_concat (m : Mech) (env : Env) (s : Session m.S) (cs : List Call) (c : Call) :
    (s.run m env (cs ++ [c])).1 =
      (s.run m env cs).1 ++ [((s.run m env cs).2.step m env c).1] := by
  induction cs generalizing s with
  | nil => rw [List.nil_append, run_cons]; rfl
  | cons c0 cs ih =>
    rw [List.cons_append, run_cons, run_cons]
    exact congrArg _ (ih _)

theorem loopCalls_length (p : Protocol) (data : Option Bytes) (i n : Nat) :
    (loopCalls p data i n).length = n := by
  induction n generalizing i data with
  | zero => rfl
  | succ n ih => exact congrArg (· + 1) (ih _ _)

theorem loopCalls_concat (p : Protocol) (data : Option Bytes) (i n : Nat) :
    ∃ c : Call, loopCalls p data i (n + 1) = loopCalls p data i n ++ [c] ∧
      c.input = match n with
        | 0 => data
        | n + 1 => p.more (i + n) := by
  induction n generalizing i data with
  | zero => exact ⟨⟨data, p.sched i⟩, rfl, rfl⟩
  | succ n ih =>
    obtain ⟨c, h1, h2⟩ := ih (p.more i) (i + 1)
    refine ⟨c, ?_, ?_⟩
    · rw [loopCalls, h1]
      rfl
    · rw [h2]
      cases n with
      | zero => rfl
      | succ n =>
        show p.more _ = p.more _
        congr 1
        omega

/-- The last reply of a loop that has ended is that of the last call. -/
theorem last_call {m : Mech} {env : Env} {p : Protocol} {data : Option Bytes} {s : Session m.S}
    {rs : List (Reply State)} {res : Outcome State}
    (hr : rs = (s.run m env (loopCalls p data 0 rs.length)).1) (he : EndsWith rs res) :
    ∃ n c, rs.length = n + 1 ∧ AllRunning (s.run m env (loopCalls p data 0 n)).1 ∧
      ((s.run m env (loopCalls p data 0 n)).2.step m env c).1.res = res ∧
      c.input = match n with
        | 0 => data
        | n + 1 => p.more n := by
  obtain ⟨rs', r, rfl, h1, h2⟩ := he
  obtain ⟨c, h3, h4⟩ := loopCalls_concat p data 0 rs'.length
  rw [List.length_append, List.length_singleton, h3, run_concat] at hr
  obtain ⟨e1, e2⟩ := List.append_inj' hr rfl
  refine ⟨rs'.length, c, by simp, e1 ▸ h1, ?_, ?_⟩
  · injection e2 with e2 _
    rw [← e2]
    exact h2
  · rw [h4]
    cases rs'.length with
    | zero => rfl
    | succ n => simp

theorem Spec.NoInventedIDR.withholds {env : Env} (h : NoInventedIDR env) :
    Withholds env .inputDataRequired := by
  have : (fun e : SessionError => e ≠ .inputDataRequired ∨ e = earlyReturn ∨
      e = .callbackError .noValue) = fun e => e ≠ .inputDataRequired := by
    funext e
    refine propext ⟨?_, .inl⟩
    rintro (h | rfl | rfl)
    · exact h
    · exact nofun
    · exact nofun
  unfold Withholds Env.ErrsIn
  rw [this]
  exact h

/-- C91: if the other side always sends something when it is asked, no call misses its input: the
first one has it when it needs it. -/
theorem C91_input (deps : Deps) (config : Config) (hs : ∀ m ∈ config.mechs, m ∈ shipped)
    (env : Mechanism → Env) (henv : ∀ m, NoInventedIDR (env m)) (rng : Nat → Nat)
    (offered : List Bytes) (p : Protocol) (hp : ∀ i, p.more i ≠ none) (fuel : Nat) :
    (authenticate deps config env rng offered p fuel).1 ≠ .stepErrored .inputDataRequired := by
  intro h
  rcases C91_calls deps config hs env rng offered p fuel with ⟨-, hn⟩ | ⟨a, m, client, -, hc, hall⟩
  · rw [hn] at h
    cases h
  obtain ⟨e, rs, hr⟩ : ∃ e rs, authenticate deps config env rng offered p fuel = (e, rs) :=
    ⟨_, _, rfl⟩
  obtain ⟨h1, h2⟩ := hall e rs hr
  rw [hr] at h
  cases h
  obtain ⟨n, c, -, -, hres, hin⟩ := last_call h1 h2
  rw [← afterAll_steps] at hres
  have hnone := C67_input deps a client (.inl hc) (env m) (henv m).withholds rng _ c hres
  cases n with
  | zero =>
    obtain ⟨input, sched⟩ := c
    cases hnone
    exact C48_client deps client ⟨a, hc⟩ (env m) (henv m) rng sched hres
  | succ n => exact hp n (hin.symm.trans hnone)

/-- C91: the loop panics in the crate only for SCRAM, and exactly if the second or the third message is
one of those of C55 (cached keys having the length of the digest). In particular it never meets a
session that has failed before. -/
theorem C91_panic (deps : Deps) (config : Config) (hs : ∀ m ∈ config.mechs, m ∈ shipped)
    (env : Mechanism → Env)
    (henv : ∀ h, ∀ m ∈ [SCRAM h, SCRAMPLUS h],
      (env m).Supplies .scramCachedPassword (Scram.CachedOk (deps.digest h)))
    (rng : Nat → Nat) (offered : List Bytes) (p : Protocol) (fuel : Nat) (rs : List (Reply State))
    (hr : authenticate deps config env rng offered p fuel = (.panicked, rs)) :
    ∃ h a, (config.clientStart offered = .ok (a, SCRAM h) ∨
        config.clientStart offered = .ok (a, SCRAMPLUS h)) ∧
      ((rs.length = 2 ∧ ∃ b, p.more 0 = some b ∧ Scram.ServerFirst.parse b = .panic) ∨
       (rs.length = 3 ∧ ∃ b, p.more 1 = some b ∧ Scram.ServerFinal.parse b = .panic)) := by
  rcases client_of hs deps offered with ⟨e, h⟩ | ⟨a, m, client, hst, -, hc, -, hm1, hm2⟩
  · unfold authenticate at hr
    rw [h] at hr
    cases hr
  rcases C91_calls deps config hs env rng offered p fuel with ⟨⟨_, hn⟩, -⟩ |
    ⟨a', m', client', hst', hc', hall⟩
  · rw [hn] at hst
    cases hst
  rw [hst] at hst'
  cases hst'
  rw [hc] at hc'
  cases hc'
  obtain ⟨h1, h2⟩ := hall _ _ hr
  obtain ⟨n, c, hlen, hrun, hres, hin⟩ := last_call h1 h2
  have key : ∀ h plus, m ∈ [SCRAM h, SCRAMPLUS h] →
      client = ⟨Scram.client (deps.digest h), some (.initial plus)⟩ →
      ∃ h a, (config.clientStart offered = .ok (a, SCRAM h) ∨
        config.clientStart offered = .ok (a, SCRAMPLUS h)) ∧
      ((rs.length = 2 ∧ ∃ b, p.more 0 = some b ∧ Scram.ServerFirst.parse b = .panic) ∨
       (rs.length = 3 ∧ ∃ b, p.more 1 = some b ∧ Scram.ServerFinal.parse b = .panic)) := by
    rintro h plus hm rfl
    refine ⟨h, a, ?_, ?_⟩
    · simp only [List.mem_cons, List.not_mem_nil, or_false] at hm
      rcases hm with rfl | rfl
      · exact .inl hst
      · exact .inr hst
    obtain ⟨b, hb, ⟨hl, hp⟩ | ⟨hl, hp⟩⟩ := (C55_client_session (deps.digest h) (env m) (henv h m hm)
      plus rng _ c hrun).1 hres
    · rw [loopCalls_length] at hl
      subst hl
      exact .inl ⟨hlen, b, hin.symm.trans hb, hp⟩
    · rw [loopCalls_length] at hl
      subst hl
      exact .inr ⟨hlen, b, hin.symm.trans hb, hp⟩
  have other : a.isScram = false → False := by
    intro ha
    obtain ⟨rs', r, hrs, -, hrp⟩ := h2
    have hmem : r ∈ rs := by
      rw [hrs]
      simp
    exact C35_partial deps client a ha (.inr hc) (env m) rng _ r (h1 ▸ hmem) hrp
  cases a with
  | scramClient h b =>
    cases hm1 h b rfl
    cases hc
    cases b <;> exact key h _ (by simp) rfl
  | scramClientPlus h =>
    cases hm2 h rfl
    cases hc
    exact key h _ (by simp) rfl
  | scramServer h b => cases hc
  | scramServerPlus h => cases hc
  | custom n => cases hc
  | _ => exact (other rfl).elim

/-! ## The example as it stands -/

/-- The mechanisms the documentation's server offers, src/lib.rs:139. -/
def documentedOffer : List Bytes := [b!"PLAIN", b!"GSSAPI"]

/-- C91: with PLAIN enabled and GSSAPI not, and credentials that PLAIN can carry, the example sends
one message, that of RFC 4616, and is done; it asks the other side for nothing. -/
theorem C91_plain (deps : Deps) (config : Config) (hs : ∀ m ∈ config.mechs, m ∈ shipped)
    (hpl : PLAIN ∈ config.mechs) (hg : GSSAPI ∉ config.mechs)
    (hpref : config.prefer = defaultPrefer) (env : Mechanism → Env) (username password : Str)
    (hsd : (env PLAIN).sd = ⟨PLAIN.desc, .client⟩)
    (henv : (env PLAIN).HasCredentials none username password) (hu : Sendable username)
    (hp : Sendable password) (rng : Nat → Nat) (p : Protocol) (hw : Patient (p.sched 0))
    (fuel : Nat) :
    authenticate deps config env rng documentedOffer p (fuel + 1) =
      (.done, [⟨.ok (.finished .yes), plainText username password⟩]) := by
  have hst : config.clientStart documentedOffer = .ok (.plain, PLAIN) := by
    have hall : config.AllStart := by
      intro m hm
      have := hs m hm
      simp only [shipped, List.mem_cons, List.not_mem_nil, or_false] at this
      rcases this with rfl | rfl | rfl | rfl | rfl | rfl | rfl | rfl | rfl | rfl | rfl | rfl | rfl <;>
        exact ⟨_, rfl⟩
    obtain ⟨a, m, h⟩ := (C04_no_shared config (shipped_known hs) hall hpref documentedOffer).2
      ⟨PLAIN, hpl, by cases config.enableCb <;> decide⟩
    obtain ⟨hm, hus, -, hau⟩ := clientStart_ok (shipped_known hs) h
    have hsh := hs m hm
    simp only [shipped, List.mem_cons, List.not_mem_nil, or_false] at hsh
    rcases hsh with rfl | rfl | rfl | rfl | rfl | rfl | rfl | rfl | rfl | rfl | rfl | rfl | rfl
    case inl => cases hau; exact h
    case inr.inr.inr.inr.inr.inr.inl => exact absurd hm hg
    all_goals
      exfalso
      revert hus
      cases config.enableCb <;> decide
  have hf : firstData (env PLAIN) p = none := by
    unfold firstData Env.areWeFirst
    rw [hsd]
    rfl
  unfold authenticate
  rw [hst]
  dsimp only [Auth.startClient]
  rw [hf]
  obtain ⟨ea, na⟩ := hu
  obtain ⟨ep, np⟩ := hp
  have hnul : ∀ s : Str, '\x00' ∉ s ↔ (0 : UInt8) ∉ Str.bytes s := fun s => by
    rw [← contains_nul_iff]
    simp
  rw [hnul] at na np
  obtain ⟨es, _, he⟩ := (Plain.client_does (henv.offers .authzId) (henv.offers .authId)
    (henv.offers .password) nofun na np ea (by rwa [Ne, Str.bytes_eq_nil]) none).exec
    (ses := (⟨Plain.client, ()⟩ : Started).session rng) (sched := p.sched 0) hw
  have he : Session.step Plain.client (env PLAIN) ((⟨Plain.client, ()⟩ : Started).session rng)
    ⟨none, p.sched 0⟩ = _ := he
  rw [loop]
  simp only [he]
  rfl

/-- C91: the text the documentation shows as the data of this exchange (src/lib.rs:42-80) is that of
the password "secret" with a line feed; without it the text is another one. -/
theorem C91_primer :
    Base64.decode (b!"AHVzZXJuYW1lAHNlY3JldAo=") = some (plainText (c!"username") (c!"secret\n")) ∧
    Base64.encode (plainText (c!"username") (c!"secret")) = b!"AHVzZXJuYW1lAHNlY3JldA==" := by
  decide +kernel

/-- The configuration of an application that enables every mechanism but GSSAPI. -/
def documentedConfig : Config := ⟨shipped.filter (fun m => m.name ≠ GSSAPI.name), false, defaultPrefer⟩

theorem documentedConfig_mechs :
    (∀ m ∈ documentedConfig.mechs, m ∈ shipped) ∧ GSSAPI ∉ documentedConfig.mechs ∧
      PLAIN ∈ documentedConfig.mechs := by
  refine ⟨fun m hm => (List.mem_filter.1 hm).1, ?_, ?_⟩
  · intro h
    simpa using (List.mem_filter.1 h).2
  · exact List.mem_filter.2 ⟨by simp [shipped], by decide +kernel⟩

def documentedEnv (m : Mechanism) : Env :=
  Example.credentialEnv m (c!"username") (c!"secret")

example (p : Protocol) (hw : Patient (p.sched 0)) :
    authenticate toyDeps documentedConfig documentedEnv id documentedOffer p 1 =
      (.done, [⟨.ok (.finished .yes), plainText (c!"username") (c!"secret")⟩]) := by
  obtain ⟨h1, h2, h3⟩ := documentedConfig_mechs
  refine C91_plain _ _ h1 h3 h2 rfl documentedEnv _ _ rfl ?_ ?_ ?_ id p hw 0
  · exact credentialEnv_has PLAIN (c!"username") (c!"secret")
  · exact ⟨nofun, by decide⟩
  · exact ⟨nofun, by decide⟩

/-- A server that answers with attributes cut short. -/
def shortServer : Protocol := ⟨fun _ => [], [], fun _ => some (b!"r=x,s")⟩

/-- `C91_panic` is about this: -/
example : (authenticate toyDeps ⟨[SCRAM .sha256], false, defaultPrefer⟩ documentedEnv (fun _ => 0)
    [b!"SCRAM-SHA-256"] shortServer 3).1 = .panicked := by
  decide +kernel

/-- The callback of the example neither has keys nor makes up errors. -/
example (m : Mechanism) : NoInventedIDR (documentedEnv m) ∧
    ∀ V, (documentedEnv m).Supplies .scramCachedPassword V := by
  constructor
  · rintro _ _ (e | _) h
    · exact fun e' he => h e' he
    · rintro (e | _) h
      · exact fun e' he => h e' he
      · exact nofun
  · intro V _ _
    refine ⟨nofun, ?_⟩
    rintro (_ | _)
    · trivial
    · exact ⟨nofun, by rintro (_ | _) <;> trivial⟩

/-! ## GSSAPI -/

/-- A peer that sends empty tokens, over a writer that takes everything. -/
def emptyPeer : Protocol := ⟨fun _ => [], [], fun _ => some []⟩

def gssEnv (m : Mechanism) : Env :=
  { exampleEnv [⟨.gssService, c!"imap"⟩, ⟨.hostname, c!"h"⟩] with sd := ⟨m.desc, .client⟩ }

/-- C91: with GSSAPI the loop goes on as long as the library's context is not complete. -/
theorem C91_gssapi (fuel : Nat) :
    (authenticate { toyDeps with gss := endlessGss } ⟨[GSSAPI], false, defaultPrefer⟩
      gssEnv id documentedOffer emptyPeer fuel).1 = .unfinished := by
  have pending : ∀ fuel i data (s : Session (Gssapi.CState endlessGss)), s.st = .pending () →
      (loop (Gssapi.client endlessGss) (gssEnv GSSAPI) emptyPeer fuel i data s).1 = .unfinished := by
    intro fuel
    induction fuel with
    | zero => intros; rfl
    | succ n ih =>
      rintro i data ⟨st, slot, rng, log⟩ rfl
      exact ih (i + 1) (some []) ⟨.pending (), slot, rng, log⟩ rfl
  show (loop (Gssapi.client endlessGss) (gssEnv GSSAPI) emptyPeer fuel 0 none
    ((⟨Gssapi.client endlessGss, .initial⟩ : Started).session id)).1 = .unfinished
  cases fuel with
  | zero => rfl
  | succ n => exact pending n 1 (some []) _ rfl

end Rsasl

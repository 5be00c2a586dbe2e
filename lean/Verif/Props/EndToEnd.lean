/-
C62: a client made from credentials and a server that knows them, from the list of mechanisms to the
end of the exchange.
-/
import Verif.Spec.Talk
import Verif.Spec.Examples
import Verif.Props.Selection
import Verif.Props.Plain
import Verif.Props.Simple
import Verif.Props.ScramExchange
import Verif.Props.Callback

namespace Rsasl

open Spec

/-! ## Negotiation -/

theorem shipped_name {m m' : Mechanism} (h : m ∈ shipped) (h' : m' ∈ shipped)
    (hn : m.name = m'.name) : m = m' := by
  simp only [shipped, List.mem_cons, List.not_mem_nil, or_false] at h h'
  rcases h with rfl | rfl | rfl | rfl | rfl | rfl | rfl | rfl | rfl | rfl | rfl | rfl | rfl <;>
  rcases h' with rfl | rfl | rfl | rfl | rfl | rfl | rfl | rfl | rfl | rfl | rfl | rfl | rfl <;>
  first
  | rfl
  | exact absurd hn (by decide)

theorem serverStart_shipped {sc : Config} (hs : ∀ m ∈ sc.mechs, m ∈ shipped) {m : Mechanism}
    (hm : m ∈ sc.mechs) {f : List Bytes → Except SASLError Auth} (hf : m.server = some f) {b : Auth}
    (hb : f (sc.mechs.map (·.name)) = .ok b) : sc.serverStart m.name = .ok (b, m) := by
  rw [C05_start]
  obtain ⟨before, after, he, hn⟩ := List.eq_append_cons_of_mem hm
  refine ⟨before, after, f, he, rfl, hf, hb, ?_⟩
  intro x hx hxn
  have hx' : x ∈ sc.mechs := by rw [he]; exact List.mem_append_left _ hx
  exact absurd (shipped_name (hs x hx') (hs m hm) hxn ▸ hx) hn

theorem shipped_server {m : Mechanism} (h : m ∈ shipped) :
    ∃ f, m.server = some f ∧ ∀ l, ∃ b, f l = .ok b := by
  simp only [shipped, List.mem_cons, List.not_mem_nil, or_false] at h
  rcases h with rfl | rfl | rfl | rfl | rfl | rfl | rfl | rfl | rfl | rfl | rfl | rfl | rfl <;>
  exact ⟨_, rfl, fun _ => ⟨_, rfl⟩⟩

theorem withCredentials_known (authzid : Option Str) : (Config.withCredentials authzid).Known := by
  intro m hm
  cases authzid <;>
    simp only [Config.withCredentials, credentialMechs, Option.isSome, if_true, if_false,
      List.mem_cons, List.not_mem_nil, or_false, Bool.false_eq_true] at hm
  · rcases hm with rfl | rfl | rfl | rfl | rfl
    · exact .inr (.inl ⟨_, rfl⟩)
    · exact .inr (.inl ⟨_, rfl⟩)
    · exact .inr (.inl ⟨_, rfl⟩)
    · exact .inl rfl
    · exact .inl rfl
  · rcases hm with rfl | rfl | rfl | rfl
    · exact .inr (.inl ⟨_, rfl⟩)
    · exact .inr (.inl ⟨_, rfl⟩)
    · exact .inr (.inl ⟨_, rfl⟩)
    · exact .inl rfl

theorem withCredentials_start (authzid : Option Str) : (Config.withCredentials authzid).AllStart := by
  intro m hm
  cases authzid <;>
    simp only [Config.withCredentials, credentialMechs, Option.isSome, if_true, if_false,
      List.mem_cons, List.not_mem_nil, or_false, Bool.false_eq_true] at hm
  · rcases hm with rfl | rfl | rfl | rfl | rfl <;> exact ⟨_, rfl⟩
  · rcases hm with rfl | rfl | rfl | rfl <;> exact ⟨_, rfl⟩

/-- The mechanisms that need no more than credentials. -/
def ForCredentials (authzid : Option Str) (m : Mechanism) : Prop :=
  (∃ h, m = SCRAM h) ∨ m = PLAIN ∨ (m = LOGIN ∧ authzid = none)

theorem mem_withCredentials (authzid : Option Str) (m : Mechanism) :
    m ∈ (Config.withCredentials authzid).mechs ↔ ForCredentials authzid m := by
  unfold ForCredentials
  constructor
  · intro hm
    cases authzid <;>
      simp only [Config.withCredentials, credentialMechs, Option.isSome, if_true, if_false,
        List.mem_cons, List.not_mem_nil, or_false, Bool.false_eq_true] at hm
    · rcases hm with rfl | rfl | rfl | rfl | rfl
      · exact .inl ⟨_, rfl⟩
      · exact .inl ⟨_, rfl⟩
      · exact .inl ⟨_, rfl⟩
      · exact .inr (.inl rfl)
      · exact .inr (.inr ⟨rfl, rfl⟩)
    · rcases hm with rfl | rfl | rfl | rfl
      · exact .inl ⟨_, rfl⟩
      · exact .inl ⟨_, rfl⟩
      · exact .inl ⟨_, rfl⟩
      · exact .inr (.inl rfl)
  · rintro (⟨h, rfl⟩ | rfl | ⟨rfl, rfl⟩)
    · cases authzid <;> cases h <;> simp [Config.withCredentials, credentialMechs]
    · cases authzid <;> simp [Config.withCredentials, credentialMechs]
    · simp [Config.withCredentials, credentialMechs]

/-- What client and server run for a mechanism that needs only credentials. -/
def StartedPair (m : Mechanism) (a b : Auth) : Prop :=
  (∃ h canCb, m = SCRAM h ∧ a = .scramClient h true ∧ b = .scramServer h canCb) ∨
  (m = PLAIN ∧ a = .plain ∧ b = .plain) ∨ (m = LOGIN ∧ a = .login ∧ b = .login)

/-- C62, negotiation: offered the server's list, a client made from credentials starts the server's
best mechanism that needs only credentials, and the server starts its side of the same one; if the
server has none of them, the client says so. -/
theorem C62_start (authzid : Option Str) (sc : Config) (hs : ∀ m ∈ sc.mechs, m ∈ shipped) :
    (∃ a b m, m ∈ sc.mechs ∧ ForCredentials authzid m ∧ StartedPair m a b ∧
      (Config.withCredentials authzid).clientStart (sc.getAvailable.map (·.name)) = .ok (a, m) ∧
      sc.serverStart m.name = .ok (b, m) ∧
      ∀ m' ∈ sc.mechs, ForCredentials authzid m' → m'.priority ≤ m.priority) ∨
    ((Config.withCredentials authzid).clientStart (sc.getAvailable.map (·.name)) =
        .err .noSharedMechanism ∧ ∀ m' ∈ sc.mechs, ¬ ForCredentials authzid m') := by
  have hav : ∀ n, n ∈ sc.getAvailable.map (·.name) ↔ ∃ m ∈ sc.mechs, m.name = n := by
    intro n
    simp only [List.mem_map, (C05_available sc).1]
    constructor
    · rintro ⟨m, ⟨h1, _⟩, h2⟩
      exact ⟨m, h1, h2⟩
    · rintro ⟨m, h1, h2⟩
      obtain ⟨f, hf, _⟩ := shipped_server (hs m h1)
      exact ⟨m, ⟨h1, by rw [hf]; nofun⟩, h2⟩
  have hship : ∀ m, ForCredentials authzid m → m ∈ shipped := by
    rintro m (⟨h, rfl⟩ | rfl | ⟨rfl, -⟩)
    · cases h <;> simp [shipped]
    · simp [shipped]
    · simp [shipped]
  have hus : ∀ m, ForCredentials authzid m →
      (Usable false (sc.getAvailable.map (·.name)) m ↔ m ∈ sc.mechs) := by
    intro m hm
    have h1 : Usable false (sc.getAvailable.map (·.name)) m ↔
        m.name ∈ sc.getAvailable.map (·.name) := by
      rcases hm with ⟨h, rfl⟩ | rfl | ⟨rfl, -⟩
      · simp [Usable, SCRAM]
      · simp [Usable, PLAIN]
      · simp [Usable, LOGIN]
    rw [h1, hav]
    constructor
    · rintro ⟨m', h2, h3⟩
      rw [← shipped_name (hs m' h2) (hship m hm) h3]
      exact h2
    · exact fun h => ⟨m, h, rfl⟩
  have hk := withCredentials_known authzid
  obtain ⟨h1, h2⟩ := C04_no_shared (Config.withCredentials authzid) hk (withCredentials_start authzid)
    rfl (sc.getAvailable.map (·.name))
  by_cases hex : ∃ m ∈ sc.mechs, ForCredentials authzid m
  · left
    obtain ⟨m0, hm0, hc0⟩ := hex
    obtain ⟨a, m, hst⟩ := h2 ⟨m0, (mem_withCredentials authzid m0).2 hc0, (hus m0 hc0).2 hm0⟩
    obtain ⟨before, after, he, hu, hb, ha⟩ := C03_priority _ hk rfl _ a m hst
    have hmc : ForCredentials authzid m := (mem_withCredentials authzid m).1 (by rw [he]; simp)
    have hms : m ∈ sc.mechs := (hus m hmc).1 hu
    obtain ⟨f, hf, hf'⟩ := shipped_server (hs m hms)
    obtain ⟨b, hb'⟩ := hf' (sc.mechs.map (·.name))
    refine ⟨a, b, m, hms, hmc, ?_, hst, serverStart_shipped hs hms hf hb', ?_⟩
    · obtain ⟨-, ⟨x, rfl, rfl⟩ | ⟨rfl, rfl⟩ | ⟨rfl, rfl, -⟩⟩ := C06_mechanisms authzid _ a m hst
      · cases hf
        cases hb'
        exact .inl ⟨x, _, rfl, rfl, rfl⟩
      · cases hf
        cases hb'
        exact .inr (.inl ⟨rfl, rfl, rfl⟩)
      · cases hf
        cases hb'
        exact .inr (.inr ⟨rfl, rfl, rfl⟩)
    · intro m' hm' hc'
      have hmem := (mem_withCredentials authzid m').2 hc'
      have hu' := (hus m' hc').2 hm'
      rw [he] at hmem
      rcases List.mem_append.1 hmem with h | h
      · exact hb m' h hu'
      · rcases List.mem_cons.1 h with rfl | h
        · exact Nat.le_refl _
        · exact Nat.le_of_lt (ha m' h hu')
  · right
    refine ⟨h1.2 ?_, fun m hm hc => hex ⟨m, hm, hc⟩⟩
    intro m hm hu
    have hc := (mem_withCredentials authzid m).1 hm
    exact hex ⟨m, (hus m hc).1 hu, hc⟩

/-! ## What is started -/

/-- C62: the implementations and initial states behind the names. Every client and server runs on the
hash of its mechanism, plain SCRAM clients say what their configuration makes of channel binding,
`-PLUS` ones bind. -/
theorem C62_started (deps : Deps) (h : Hash) :
    Auth.startClient deps .plain = some ⟨Plain.client, ()⟩ ∧
    Auth.startServer deps .plain = some ⟨Plain.server deps.prep, ()⟩ ∧
    Auth.startClient deps .login = some ⟨Login.client, .authid⟩ ∧
    Auth.startServer deps .login = some ⟨Login.server, .new⟩ ∧
    (∀ b, Auth.startClient deps (.scramClient h b) = some ⟨Scram.client (deps.digest h),
      (some (.initial (if b then .clientNoSupport else .serverNoSupport)) : Scram.CS)⟩) ∧
    (∀ b, Auth.startServer deps (.scramServer h b) = some ⟨Scram.server (deps.digest h),
      (some (.waitingClientFirst b) : Scram.SS)⟩) ∧
    Auth.startClient deps (.scramClientPlus h) = some ⟨Scram.client (deps.digest h),
      (some (.initial .supported) : Scram.CS)⟩ ∧
    Auth.startServer deps (.scramServerPlus h) = some ⟨Scram.server (deps.digest h),
      (some (.waitingClientFirst true) : Scram.SS)⟩ :=
  ⟨rfl, rfl, rfl, rfl, fun _ => rfl, fun _ => rfl, rfl, rfl⟩

/-! ## The exchange -/

/-- The callback of `SASLConfig::with_credentials`. -/
def Env.HasCredentials (env : Env) (authzid : Option Str) (authid password : Str) : Prop :=
  ∀ log ctx, env.callback log env.sd ctx = credentialCallback authzid authid password

theorem Env.HasCredentials.offers {env : Env} {authzid : Option Str} {authid password : Str}
    (h : env.HasCredentials authzid authid password) (p : Property) :
    env.Offers p (Spec.credential authzid authid password p) := by
  have := C06_callback authzid authid password p
  cases hp : Spec.credential authzid authid password p <;>
    rw [hp] at this <;> intro log ctx <;> rw [h] <;> exact this

theorem EndsValidated.accepted {S : Type} {env : Env} {s : Session S} {ctx : Provider} {st : State}
    {out : Bytes} {r : Reply State × Session S} (h : EndsValidated env s ctx st out r)
    {offer : (p : Property) → Option p.Value} (hx : ctx.Exactly offer) {v : VVal}
    (ha : Accepts env offer v) (hs : s.slot = none) :
    r.1.res = .ok st ∧ r.2.slot = some v := by
  obtain ⟨h1, h2⟩ := ha s.log ctx hx
  constructor
  · rw [h.res, Spec.verdict, hs]
    simp only [Option.isNone]
    rw [h1]
  · rw [h.slot, hs]
    exact h2

theorem talk_five {A B : Mech} {ea eb : Env} {a0 a1 a2 a3 : Session A.S} {b0 b1 b2 : Session B.S}
    {w0 w1 w2 w3 w4 : List WResp} {input : Option Bytes} {r0 r1 r2 r3 r4 : Reply State}
    (h0 : a0.step A ea ⟨input, w0⟩ = (r0, a1)) (h1 : b0.step B eb ⟨some r0.out, w1⟩ = (r1, b1))
    (h2 : a1.step A ea ⟨some r1.out, w2⟩ = (r2, a2)) (h3 : b1.step B eb ⟨some r2.out, w3⟩ = (r3, b2))
    (h4 : a2.step A ea ⟨some r3.out, w4⟩ = (r4, a3)) :
    talk [w0, w1, w2, w3, w4] input ⟨A, ea, a0⟩ ⟨B, eb, b0⟩ =
      ([r0, r1, r2, r3, r4], ⟨A, ea, a3⟩, ⟨B, eb, b2⟩) := by
  simp only [talk, Party.step, h0, h1, h2, h3, h4]

theorem five {α : Type} {a b c d e a' b' c' d' e' : α} (h0 : a = a') (h1 : b = b') (h2 : c = c')
    (h3 : d = d') (h4 : e = e') : [a, b, c, d, e] = [a', b', c', d', e'] := by
  rw [h0, h1, h2, h3, h4]

theorem two {α : Type} {a b a' b' : α} (h0 : a = a') (h1 : b = b') : [a, b] = [a', b'] := by
  rw [h0, h1]

/-- C62, SCRAM: with the right credentials both sides finish and the server has the application's
value. The server knows the key it stores for the password, for whatever salt and count. -/
theorem C62_scram (deps : Deps) (h : Hash) (canCb : Bool) (cenv senv : Env)
    (authzid authzid' : Option Str) (authid authid' password : Str)
    (hc : cenv.HasCredentials authzid authid password)
    (hn : WrittenAs authid authid') (hz : WrittenAsOpt authzid authzid')
    (salt : Bytes) (it : UInt32) (hit : it ≠ 0)
    (hst : senv.GivesAt (scramOffer authid' authzid') .scramStoredPassword
      ⟨it, salt, (deps.digest h).hash (clientKey (deps.digest h)
        ((deps.digest h).pbkdf2 (Str.bytes password) salt it)),
        serverKey (deps.digest h) ((deps.digest h).pbkdf2 (Str.bytes password) salt it)⟩)
    (v : VVal) (hv : Accepts senv (scramOffer authid' authzid') v)
    (client server : Started) (hcs : Auth.startClient deps (.scramClient h true) = some client)
    (hss : Auth.startServer deps (.scramServer h canCb) = some server)
    (crng srng : Nat → Nat) (w0 w1 w2 w3 w4 : List WResp)
    (hw : Cooperative w0 ∧ Cooperative w1 ∧ Cooperative w2 ∧ Cooperative w3 ∧ Cooperative w4) :
    let r := talk [w0, w1, w2, w3, w4] none (start client cenv crng) (start server senv srng)
    r.1.map (·.res) = [.ok .running, .ok .running, .ok .running, .ok (.finished .yes),
      .ok (.finished .no)] ∧ r.2.2.ses.slot = some v := by
  cases hcs
  cases hss
  rcases h0 : Session.step (Scram.client (deps.digest h)) cenv
    { st := Scram.clientNew true, rng := crng } ⟨none, w0⟩ with ⟨r0, c1⟩
  rcases h1 : Session.step (Scram.server (deps.digest h)) senv
    { st := Scram.serverNew canCb, rng := srng } ⟨some r0.out, w1⟩ with ⟨r1, s1⟩
  rcases h2 : Session.step (Scram.client (deps.digest h)) cenv c1 ⟨some r1.out, w2⟩ with ⟨r2, c2⟩
  rcases h3 : Session.step (Scram.server (deps.digest h)) senv s1 ⟨some r2.out, w3⟩ with ⟨r3, s2⟩
  rcases h4 : Session.step (Scram.client (deps.digest h)) cenv c2 ⟨some r3.out, w4⟩ with ⟨r4, c3⟩
  obtain ⟨e0, e1, e2, ⟨ctx, out, hx, he⟩, hslot, -, e4, -⟩ :=
    C27 (deps.digest h) cenv senv .clientNoSupport canCb .notSupported [] authid authid'
      authzid authzid' _ _ _ (hc.offers .authId) hn (hc.offers .authzId) hz ⟨rfl, rfl⟩ rfl
      (.inr ⟨Env.Lacks.at (hc.offers .scramCachedPassword) _,
        .inr ⟨Env.Lacks.at (hc.offers .saltedPassword) _, _,
          Env.Gives.at (hc.offers .password) _, rfl, rfl⟩⟩) hit ⟨rfl, rfl⟩ hst _ _ _ _ _ _ _
      rfl rfl none w0 w1 w2 w3 w4 hw r0 r1 r2 r3 r4 h0 h1 h2 h3 h4
  obtain ⟨e3, hv'⟩ := he.accepted hx hv hslot
  have ht := talk_five (A := Scram.client (deps.digest h)) (B := Scram.server (deps.digest h))
    h0 h1 h2 h3 h4
  show (talk _ _ ⟨_, _, _⟩ ⟨_, _, _⟩).1.map (·.res) = _ ∧ (talk _ _ ⟨_, _, _⟩ ⟨_, _, _⟩).2.2.ses.slot = _
  erw [ht]
  exact ⟨five e0 e1 e2 e3 e4, hv'⟩

/-- C62, PLAIN. -/
theorem C62_plain (deps : Deps) (cenv senv : Env) (authzid : Option Str) (authid authid' password : Str)
    (password' : Bytes) (hc : cenv.HasCredentials authzid authid password)
    (nz : ∀ z ∈ authzid, (0 : UInt8) ∉ Str.bytes z) (na : (0 : UInt8) ∉ Str.bytes authid)
    (np : (0 : UInt8) ∉ Str.bytes password) (ea : authid ≠ []) (ep : password ≠ [])
    (hprep : deps.prep authid = some authid') (ea' : authid' ≠ [])
    (hpw : Spec.PreparedPassword deps.prep (Str.bytes password) password') (ep' : password' ≠ [])
    (v : VVal) (hv : Accepts senv (plainOffer (authzid.getD []) authid' password') v)
    (client server : Started) (hcs : Auth.startClient deps .plain = some client)
    (hss : Auth.startServer deps .plain = some server)
    (crng srng : Nat → Nat) (w0 w1 : List WResp) (hw : Patient w0) :
    let r := talk [w0, w1] none (start client cenv crng) (start server senv srng)
    r.1.map (·.res) = [.ok (.finished .yes), .ok (.finished .no)] ∧ r.2.2.ses.slot = some v := by
  cases hcs
  cases hss
  simp only [talk, Party.step, start, Started.session]
  obtain ⟨h1, ctx, hx, he⟩ := C07_round_trip deps.prep cenv senv authzid authid authid'
    (Str.bytes password) password' (hc.offers .authzId) (hc.offers .authId) (hc.offers .password)
    nz na np ea (by rwa [Ne, Str.bytes_eq_nil]) hprep ea' hpw ep' { st := (), rng := crng }
    { st := (), rng := srng } none w0 w1 hw
  obtain ⟨h2, h3⟩ := he.accepted hx hv rfl
  exact ⟨two h1 h2, h3⟩

/-- C62, LOGIN: the server speaks first. -/
theorem C62_login (deps : Deps) (cenv senv : Env) (authid password : Str)
    (hc : cenv.HasCredentials none authid password)
    (v : VVal) (hv : Accepts senv (loginOffer authid (Str.bytes password)) v)
    (client server : Started) (hcs : Auth.startClient deps .login = some client)
    (hss : Auth.startServer deps .login = some server)
    (crng srng : Nat → Nat) (w0 w1 w2 w3 w4 : List WResp)
    (hw : Patient w0 ∧ Patient w1 ∧ Patient w2 ∧ Patient w3) :
    let r := talk [w0, w1, w2, w3, w4] none (start server senv srng) (start client cenv crng)
    r.1.map (·.res) = [.ok .running, .ok .running, .ok .running, .ok (.finished .yes),
      .ok (.finished .no)] ∧ r.2.1.ses.slot = some v := by
  cases hcs
  cases hss
  obtain ⟨hw0, hw1, hw2, hw3⟩ := hw
  simp only [talk, Party.step, start, Started.session]
  obtain ⟨⟨e0, -⟩, ⟨e1, -⟩, ⟨e2, -⟩, ⟨e3, -⟩, -, hslot, ctx, hx, he, -⟩ := C10_exchange cenv senv authid
    (Str.bytes password) (hc.offers .authId) (hc.offers .password)
    { st := .authid, rng := crng } { st := .new, rng := srng } rfl rfl none _ _ w0 w1 w2 w3 w4
    hw0 hw1 hw2 hw3
  obtain ⟨e4, h5⟩ := he.accepted hx hv hslot
  exact ⟨five e0 e1 e2 e3 e4, h5⟩

/-! ## All together -/

/-- The server's callbacks know the user: whichever of the mechanisms is used, they have what the
mechanism needs and accept what it shows, with the value `v`. The names and the password are shown as
the mechanisms show them: escaped by SCRAM, prepared by PLAIN. -/
structure Knows (deps : Deps) (env : Env) (authzid : Option Str) (authid password : Str) (v : VVal) :
    Prop where
  scram : ∀ h, ∃ authid' authzid' salt, ∃ it : UInt32, WrittenAs authid authid' ∧
    WrittenAsOpt authzid authzid' ∧ it ≠ 0 ∧
    env.GivesAt (scramOffer authid' authzid') .scramStoredPassword
      ⟨it, salt, (deps.digest h).hash (clientKey (deps.digest h)
        ((deps.digest h).pbkdf2 (Str.bytes password) salt it)),
        serverKey (deps.digest h) ((deps.digest h).pbkdf2 (Str.bytes password) salt it)⟩ ∧
    Accepts env (scramOffer authid' authzid') v
  nul : (∀ z ∈ authzid, (0 : UInt8) ∉ Str.bytes z) ∧ (0 : UInt8) ∉ Str.bytes authid ∧
    (0 : UInt8) ∉ Str.bytes password
  nonempty : authid ≠ [] ∧ password ≠ []
  plain : ∃ authid' password', deps.prep authid = some authid' ∧ authid' ≠ [] ∧
    Spec.PreparedPassword deps.prep (Str.bytes password) password' ∧ password' ≠ [] ∧
    Accepts env (plainOffer (authzid.getD []) authid' password') v
  login : authzid = none → Accepts env (loginOffer authid (Str.bytes password)) v

theorem list_five {α : Type} {l : List α} (h : l.length = 5) : ∃ a b c d e, l = [a, b, c, d, e] := by
  match l, h with
  | [a, b, c, d, e], _ => exact ⟨a, b, c, d, e, rfl⟩

theorem list_two {α : Type} {l : List α} (h : l.length = 2) : ∃ a b, l = [a, b] := by
  match l, h with
  | [a, b], _ => exact ⟨a, b, rfl⟩

/-- C62: a client made from credentials, offered the list of a server whose application knows them,
starts a mechanism that the server starts too, and the two come to an end in which both have finished
and the server's application has its value; unless the server has no mechanism for credentials. -/
theorem C62 (deps : Deps) (sc : Config) (hs : ∀ m ∈ sc.mechs, m ∈ shipped) (cenv senv : Env)
    (authzid : Option Str) (authid password : Str) (hc : cenv.HasCredentials authzid authid password)
    (v : VVal) (hk : Knows deps senv authzid authid password v)
    (hex : ∃ m ∈ sc.mechs, ForCredentials authzid m) :
    ∃ a b m client server n,
      (Config.withCredentials authzid).clientStart (sc.getAvailable.map (·.name)) = .ok (a, m) ∧
      sc.serverStart m.name = .ok (b, m) ∧
      Auth.startClient deps a = some client ∧ Auth.startServer deps b = some server ∧
      Completes n m.first client server cenv senv v := by
  rcases C62_start authzid sc hs with ⟨a, b, m, -, hfor, hp, h1, h2, -⟩ | ⟨-, h⟩
  · obtain ⟨nz, na, np⟩ := hk.nul
    rcases hp with ⟨h, canCb, rfl, rfl, rfl⟩ | ⟨rfl, rfl, rfl⟩ | ⟨rfl, rfl, rfl⟩
    · obtain ⟨authid', authzid', salt, it, hn, hz, hit, hst, hv⟩ := hk.scram h
      refine ⟨_, _, _, _, _, 3, h1, h2, rfl, rfl, fun crng srng ws hl hw => ?_⟩
      obtain ⟨w0, w1, w2, w3, w4, rfl⟩ := list_five hl
      exact C62_scram deps h canCb cenv senv authzid authzid' authid authid' password hc hn hz salt it
        hit hst v hv _ _ rfl rfl crng srng w0 w1 w2 w3 w4 ⟨hw _ (by simp), hw _ (by simp),
          hw _ (by simp), hw _ (by simp), hw _ (by simp)⟩
    · obtain ⟨authid', password', hprep, ea', hpw, ep', hv⟩ := hk.plain
      refine ⟨_, _, _, _, _, 0, h1, h2, rfl, rfl, fun crng srng ws hl hw => ?_⟩
      obtain ⟨w0, w1, rfl⟩ := list_two hl
      exact C62_plain deps cenv senv authzid authid authid' password password' hc nz na np
        hk.nonempty.1 hk.nonempty.2 hprep ea' hpw ep' v hv _ _ rfl rfl crng srng w0 w1
        (hw _ (by simp)).patient
    · have hn : authzid = none := by
        rcases hfor with ⟨h, hm⟩ | hm | ⟨-, h⟩
        · exact absurd (congrArg (·.name) hm) (by cases h <;> decide)
        · exact absurd (congrArg (·.name) hm) (by decide)
        · exact h
      subst hn
      refine ⟨_, _, _, _, _, 3, h1, h2, rfl, rfl, fun crng srng ws hl hw => ?_⟩
      obtain ⟨w0, w1, w2, w3, w4, rfl⟩ := list_five hl
      exact C62_login deps cenv senv authid password hc v (hk.login rfl) _ _ rfl rfl crng srng w0 w1 w2
        w3 w4 ⟨(hw _ (by simp)).patient, (hw _ (by simp)).patient, (hw _ (by simp)).patient,
          (hw _ (by simp)).patient⟩
  · obtain ⟨m, hm, hf⟩ := hex
    exact absurd hf (h m hm)

/-- A server that knows one user, with the salt of `examples/server_scram.rs`. -/
def knowingEnv : Env where
  callback _ _ _ := answerAll [⟨.scramStoredPassword, ⟨4096, b!"salt",
    toyDigest.hash (clientKey toyDigest (toyDigest.pbkdf2 (b!"secret") (b!"salt") 4096)),
    serverKey toyDigest (toyDigest.pbkdf2 (b!"secret") (b!"salt") 4096)⟩⟩]
  validate _ _ _ := .finalize 0 (b!"user id 1") (.ret (.ok ()))
  chanbind _ := none
  vtag := 0
  sd := ⟨⟨b!"X", 0, .client⟩, .server⟩

theorem escapes_username : Escapes (c!"username") (c!"username") := by
  repeat refine .other _ (by decide) (by decide) (by decide) ?_
  exact .nil

theorem knowingEnv_knows :
    Knows toyDeps knowingEnv none (c!"username") (c!"secret") (b!"user id 1") where
  scram h := ⟨c!"username", none, b!"salt", 4096, ⟨by decide, escapes_username⟩, trivial, by decide,
    fun _ _ _ => .satisfy _ (fun _ => rfl), fun _ _ _ => ⟨rfl, rfl⟩⟩
  nul := ⟨nofun, by decide, by decide⟩
  nonempty := ⟨by decide, by decide⟩
  plain := ⟨c!"username", b!"secret", rfl, by decide, .inl ⟨c!"secret", c!"secret", by decide +kernel, rfl,
    by decide +kernel⟩, by decide, fun _ _ _ => ⟨rfl, rfl⟩⟩
  login _ := fun _ _ _ => ⟨rfl, rfl⟩

/-- The server of `examples/mechanism_selection.rs` offers some of the mechanisms. -/
example : ∃ m ∈ (⟨[LOGIN, PLAIN, GSSAPI, SCRAM .sha1, SCRAM .sha256], false, defaultPrefer⟩ : Config).mechs,
    ForCredentials none m := ⟨PLAIN, by simp, .inr (.inl rfl)⟩

end Rsasl

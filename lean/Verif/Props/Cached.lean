/-
C118: the keys a client hands out for caching let it in again.
-/
import Verif.Spec.Cached
import Verif.Props.ScramMeets
import Verif.Props.ScramClient

namespace Rsasl

open Spec Scram

/-- A callback that answers begins with this answer, and hands on what it is told. -/
theorem beginning_answers {p : Property} {v : p.Value} {prog : CbProg} (h : Answers p v prog) :
    ∀ n, ∃ m k, beginning p n prog = .answers m v k ∧ ∀ e, k (.error e) = .ret (.error e) := by
  induction h with
  | satisfy k hk => exact fun n => ⟨n, k, by simp [beginning], hk⟩
  | satisfyWith k hk => exact fun n => ⟨n + 1, k, by simp [beginning], hk⟩
  | skip q u k hq _ ih =>
    intro n
    rw [show beginning p n (.satisfy q u k) = beginning p n (k (.ok ())) by simp [beginning, hq]]
    exact ih n
  | skipWith q u k hq _ ih =>
    intro n
    rw [show beginning p n (.satisfyWith q u k) = beginning p n (k (.ok ())) by cases u <;> simp [beginning, hq]]
    exact ih n
  | skipAction q k _ ih => exact fun n => ih n
  | is q k _ ih => exact fun n => ih n

/-- With a callback that has keys of the right length, these are the keys. -/
theorem gathered_cached {d : Digest} {env : Env} {salt : Bytes} {it : UInt32} {k : CachedPassword}
    (hk : env.GivesAt (saltOffer salt it) .scramCachedPassword k)
    (hl : k.clientKey.length = d.outLen ∧ k.serverKey.length = d.outLen) (log : List Event) :
    ∃ l, gathered d (fun l c => env.callback l env.sd c) log salt it = (.are k.clientKey k.serverKey, l) := by
  have ha := hk log (.chain [⟨.salt, salt⟩, ⟨.iterations, it⟩]) (by
    intro p
    cases p <;> rfl)
  obtain ⟨m, next, hb, hn⟩ := beginning_answers ha 0
  unfold gathered
  simp only [hb]
  rw [if_neg (not_not.2 hl)]
  unfold gathered.rest
  have hs : settled .scramCachedPassword fine (env.callback log env.sd (.chain [⟨.salt, salt⟩, ⟨.iterations, it⟩])) =
      .ok (some k) := by
    unfold settled
    rw [hb]
    simp [fine, hn, sequel, complaint]
  simp only [hs]
  exact ⟨_, rfl⟩

/-- Where keys that were handed out come from. -/
theorem handed_out {d : Digest} {env : Env} {ses : Session CS} {plus : CbSupport} (hst : ses.st = some (.initial plus))
    {calls : List Call} {es : List Event} (hlog : (ses.run (client d) env calls).2.log = ses.log ++ es) {salt : Bytes}
    {it : UInt32} {k : CachedPassword} (hh : HandedOut es salt it k) :
    ∃ c0 c1 c2 rest r0 r1 r2 post es0 es1 gs2 cb name user nonce b snonce salt64 it64 auth,
      calls = c0 :: c1 :: c2 :: rest ∧ (ses.run (client d) env calls).1 = r0 :: r1 :: r2 :: post ∧
      r2.res = .ok (.finished .no) ∧ ClientFirstSent ses.rng plus c0 r0 es0 gs2 cb name user nonce ∧
      c1.input = some b ∧ ServerParams nonce b snonce salt64 it64 salt it ∧
      ClientFinalSent d c1 r1 es1 (gs2 ++ cb) user nonce snonce b salt it k.clientKey k.serverKey auth ∧
      c2.input = some (serverFinal d k.serverKey auth) := by
  obtain ⟨e1, e2, hl, hno, h⟩ := C51 d env ses plus hst calls
  rw [hlog, List.append_assoc] at hl
  obtain rfl := List.append_cancel_left hl
  obtain ⟨hn, hd⟩ := hh
  have hn2 : .notified .scramCachedPassword (.chain [⟨.salt, salt⟩, ⟨.iterations, it⟩]) ∈ e2 :=
    (List.mem_append.1 hn).resolve_left fun h => hno _ h trivial
  have hd2 : .delivered .scramCachedPassword k ∈ e2 := (List.mem_append.1 hd).resolve_left fun h => hno _ h trivial
  rcases h with rfl | ⟨c0, c1, c2, rest, r0, r1, r2, post, es0, es1, gs2, cb, name, user, nonce, b, snonce, salt64, it64, salt',
    it', ck, sk, auth, -, h1, h2, h3, h4, h5, h6, h7, h8, rfl | rfl⟩
  · cases hn2
  · simp at hd2
  · have hs : salt = salt' ∧ it = it' := by simpa using hn2
    have hk : k = ⟨ck, sk⟩ := by simpa using hd2
    obtain ⟨rfl, rfl⟩ := hs
    subst hk
    exact ⟨c0, c1, c2, rest, r0, r1, r2, post, es0, es1, gs2, cb, name, user, nonce, b, snonce, salt64, it64, auth, h1, h2, h3,
      h4, h5, h6, h7, h8⟩

theorem replies_cons {m : Mech} {env : Env} {s s' : Session m.S} {c : Call} {r : Reply State} (h : s.step m env c = (r, s'))
    (cs : List Call) : (s.run m env (c :: cs)).1 = r :: (s'.run m env cs).1 := by
  rw [run_cons, h]

/-- C118: what is handed out can be given back: keys of the right length. -/
theorem C118_usable (d : Digest) (env : Env) (ses : Session CS) (plus : CbSupport) (hst : ses.st = some (.initial plus))
    (calls : List Call) (es : List Event) (hlog : (ses.run (client d) env calls).2.log = ses.log ++ es) (salt : Bytes)
    (it : UInt32) (k : CachedPassword) (hh : HandedOut es salt it k) :
    k.clientKey.length = d.outLen ∧ k.serverKey.length = d.outLen ∧ it ≠ 0 := by
  obtain ⟨c0, c1, c2, rest, r0, r1, r2, post, es0, es1, gs2, cb, name, user, nonce, b, snonce, salt64, it64, auth, h1, h2, h3, h4,
    h5, h6, h7, h8⟩ := handed_out hst hlog hh
  exact ⟨h7.lengths.1, h7.lengths.2, h6.positive⟩

/-- C118: a client that has nothing but the keys handed out to another one says word for word what the other one said, whatever
the server says, if both introduce themselves alike and draw the same nonce. -/
theorem C118_same (d : Digest) (env env' : Env) (ses ses' : Session CS) (plus : CbSupport)
    (hst : ses.st = some (.initial plus)) (hst' : ses'.st = some (.initial plus)) (hr : ses'.rng = ses.rng)
    (o : OpeningParts) (l l' : List Event)
    (ho : opening env.chanbind (fun l ctx => env.callback l env.sd ctx) ses.log plus = (.ok o, l))
    (ho' : opening env'.chanbind (fun l ctx => env'.callback l env'.sd ctx) ses'.log plus = (.ok o, l'))
    (calls : List Call) (hw : ∀ c ∈ calls, Cooperative c.sched) (es : List Event)
    (hlog : (ses.run (client d) env calls).2.log = ses.log ++ es) (salt : Bytes) (it : UInt32) (k : CachedPassword)
    (hh : HandedOut es salt it k) (hk : env'.GivesAt (saltOffer salt it) .scramCachedPassword k) :
    (ses'.run (client d) env' calls).1 = (ses.run (client d) env calls).1 := by
  obtain ⟨c0, c1, c2, rest, -, -, -, -, -, -, -, -, -, -, -, -, -, -, -, -, rfl, -⟩ := handed_out hst hlog hh
  have w0 := hw c0 (by simp)
  have w1 := hw c1 (by simp)
  have hno : ∀ {e}, Concerns firstAsks e → ¬ Handed e := by
    intro e h1 h2
    cases e <;> first | exact h2 | exact h1
  have hno1 : ∀ {e salt it}, SecretEvent salt it e → ¬ Handed e := by
    intro e salt it h1 h2
    cases e <;> first | exact h2 | exact h1
  -- the first messages
  have f := C104_client_first d env ses plus hst c0 w0
  have f' := C104_client_first d env' ses' plus hst' c0 w0
  rw [ho] at f
  rw [ho', hr] at f'
  obtain ⟨e0, le, ae, -⟩ := client_first d env ses plus hst c0 _ _ f
  obtain rfl : l = e0 := List.append_cancel_left le
  rw [run_cons, f] at hlog
  rw [replies_cons f, replies_cons f']
  dsimp only at hlog ⊢
  refine congrArg _ ?_
  -- the final messages
  generalize hs0 : (⟨some (.clientFirst (Base64.encode (o.header ++ o.data)) (drawnNonce ses.rng) (writtenName o.name)), ses.slot,
    fun i => ses.rng (i + 24), ses.log ++ l⟩ : Session CS) = s0 at hlog ⊢
  generalize hs0' : (⟨some (.clientFirst (Base64.encode (o.header ++ o.data)) (drawnNonce ses.rng) (writtenName o.name)),
    ses'.slot, fun i => ses.rng (i + 24), ses'.log ++ l'⟩ : Session CS) = s0' at hlog ⊢
  have st0 : s0.st = some (.clientFirst (Base64.encode (o.header ++ o.data)) (drawnNonce ses.rng) (writtenName o.name)) := by
    rw [← hs0]
  have st0' : s0'.st = some (.clientFirst (Base64.encode (o.header ++ o.data)) (drawnNonce ses.rng) (writtenName o.name)) := by
    rw [← hs0']
  have l0 : s0.log = ses.log ++ l := by rw [← hs0]
  rcases h1 : s0.step (client d) env c1 with ⟨r1, s1⟩
  rw [run_cons, h1] at hlog
  rw [replies_cons h1]
  dsimp only at hlog
  have absurd_quiet : ∀ {es1 : List Event}, (∀ e ∈ es1, ¬ Handed e) → ses.log ++ l ++ es1 = ses.log ++ es → False := by
    intro es1 h1 h2
    rw [List.append_assoc] at h2
    have := hh.1
    rw [← List.append_cancel_left h2] at this
    rcases List.mem_append.1 this with h | h
    · exact hno (ae _ h) trivial
    · exact h1 _ h trivial
  rcases client_second d env s0 _ _ _ st0 c1 r1 s1 h1 with ⟨-, -, d1, l1, -⟩ |
      ⟨b, sn, salt64, it64, salt', it', es1, i1, p1, l1, a1, h⟩
  · rw [client_dead d env s1 d1] at hlog
    exact (absurd_quiet (es1 := []) nofun (by rw [List.append_nil, ← l0, ← l1]; exact hlog)).elim
  · have q1 : ∀ e ∈ es1, ¬ Handed e := fun e he => hno1 (a1 e he)
    rcases h with ⟨-, d1⟩ | ⟨ck, sk, auth, f1, st1⟩
    · rw [client_dead d env s1 d1] at hlog
      exact (absurd_quiet q1 (by rw [← l0, ← l1]; exact hlog)).elim
    · rcases h2 : s1.step (client d) env c2 with ⟨r2, s2⟩
      rw [run_cons, h2] at hlog
      obtain ⟨o2, d2, ⟨i2, f2, es2, l2, q2⟩ | ⟨-, -, l2⟩⟩ := client_third d env s1 _ _ _ _ _ st1 c2 r2 s2 h2
      · rw [client_dead d env s2 d2] at hlog
        dsimp only at hlog
        rw [l2, l1, l0, List.append_assoc, List.append_assoc] at hlog
        have hes := List.append_cancel_left hlog
        have hin : ∀ {e}, Handed e → e ∈ es → e ∈ Event.notified .scramCachedPassword (clientProvider salt' it') :: es2 := by
          intro e he hm
          rw [← hes] at hm
          rcases List.mem_append.1 hm with h | h
          · exact absurd he (hno (ae _ h))
          · exact (List.mem_append.1 h).resolve_left fun h => q1 _ h he
        have m1 := hin (e := .notified ..) trivial hh.1
        have m2 := hin (e := .delivered ..) trivial hh.2
        have hk' : (salt = salt' ∧ it = it') ∧ k = ⟨ck, sk⟩ := by
          rcases q2 with rfl | rfl
          · simp at m2
          · exact ⟨by simpa [clientProvider] using m1, by simpa using m2⟩
        obtain ⟨⟨rfl, rfl⟩, rfl⟩ := hk'
        -- the other client
        obtain ⟨lg, hg⟩ := gathered_cached (d := d) hk f1.lengths s0'.log
        obtain ⟨in1, sc1⟩ := c1
        obtain ⟨in2, sc2⟩ := c2
        dsimp only at i1 i2
        subst i1 i2
        have g := C104_client_second d env' s0' _ _ _ st0' b sn salt64 it64 salt it p1 sc1 w1
        rw [hg] at g
        dsimp only at g
        rw [← f1.auth_eq] at g
        rw [replies_cons g, replies_cons (C104_client_last d env' _ (d.hmac sk auth) ck sk salt it rfl sc2), replies_cons h2,
          client_dead d env s2 d2, client_dead d env' _ rfl]
        obtain ⟨res1, out1⟩ := r1
        obtain ⟨res2, out2⟩ := r2
        have e1 := f1.whole w1
        have e2 := f1.running
        dsimp only at e1 e2 o2 f2
        rw [e1, e2, o2, f2]
      · rw [client_dead d env s2 d2] at hlog
        exact (absurd_quiet q1 (by rw [← l0, ← l1, ← l2]; exact hlog)).elim

/-- C118: keys handed out in any session let the client in again: in another session, with other nonces, other channel bindings
or another name, with a server that has stored what belongs to these keys. -/
theorem C118_again (d : Digest)
    -- the session in which the keys were handed out
    (env₀ : Env) (ses₀ : Session CS) (plus₀ : CbSupport) (hst₀ : ses₀.st = some (.initial plus₀)) (calls : List Call)
    (es : List Event) (hlog : (ses₀.run (client d) env₀ calls).2.log = ses₀.log ++ es) (salt : Bytes) (it : UInt32)
    (k : CachedPassword) (hh : HandedOut es salt it k)
    -- the session in which they are used
    (cenv senv : Env) (c : Session CS) (s : Session SS) (plus : CbSupport) (canBind : Bool)
    (hc : c.st = some (.initial plus)) (hs : s.st = some (.waitingClientFirst canBind)) (w : Fin 5 → List WResp)
    (hw : ∀ i, Cooperative (w i)) (o : OpeningParts) (l₁ l₂ : List Event)
    (ho : opening cenv.chanbind (fun l ctx => cenv.callback l cenv.sd ctx) c.log plus = (.ok o, l₁))
    (flag : CbFlag) (authzid : Option Str) (hf : Heading flag authzid o.header)
    (hk : cenv.GivesAt (saltOffer salt it) .scramCachedPassword k)
    (hl : lookedUp d senv.chanbind (fun l ctx => senv.callback l senv.sd ctx) s.log canBind flag (writtenName o.name) authzid =
      (.ok (o.data, some ⟨it, salt, d.hash k.clientKey, k.serverKey⟩), l₂))
    (hv : returned senv.vtag s.slot.isNone
      (senv.validate (s.log ++ l₂) senv.sd (namesOffered (writtenName o.name) authzid)) = .ok ()) :
    (scramExchange d cenv senv c s w).isSome := by
  obtain ⟨k1, k2, hit⟩ := C118_usable d env₀ ses₀ plus₀ hst₀ calls es hlog salt it k hh
  obtain ⟨l₃, hg⟩ := gathered_cached (d := d) hk ⟨k1, k2⟩ (c.log ++ l₁)
  exact (C106_agree d cenv senv c s plus canBind hc hs w hw o l₁ ho flag authzid hf).2
    ⟨_, l₂, _, _, l₃, hl, hit, hg, ⟨C106_same_keys d _ _ k1, rfl⟩, hv⟩

/-! ## The assumptions -/

section Examples

/-- A client with a password, whose callback takes the keys when it is offered them. -/
def keeper : Env := { exampleEnv [] with
  callback := fun _ _ _ => .getAction .scramCachedPassword fun _ => answerAll [⟨.authId, c!"u"⟩, ⟨.password, b!"pw"⟩] }

/-- Its session. -/
def keeping : Session CS := ⟨some (.initial .clientNoSupport), none, fun i => i, []⟩

/-- The keys for the salt 7 and 9 iterations. -/
def kept : CachedPassword :=
  ⟨clientKey toyDigest (toyDigest.pbkdf2 (b!"pw") [7] 9), serverKey toyDigest (toyDigest.pbkdf2 (b!"pw") [7] 9)⟩

def keptNonce : Bytes := drawnNonce (fun i => i) ++ b!"xyz"

def keptFirst : Bytes := serverFirst keptNonce (Base64.encode [7]) (b!"9")

/-- What the server says. -/
def keeperCalls : List Call :=
  [⟨none, []⟩, ⟨some keptFirst, []⟩, ⟨some (serverFinal toyDigest kept.serverKey (authMessage
    (clientFirstBare (c!"u") (drawnNonce (fun i => i))) keptFirst (clientFinalBare (Base64.encode (b!"n,,")) keptNonce))), []⟩]

/-- What the callback went through. -/
def keeperLog : List Event := (keeping.run (client toyDigest) keeper keeperCalls).2.log

theorem keeper_log : (keeping.run (client toyDigest) keeper keeperCalls).2.log = keeping.log ++ keeperLog := by
  rw [show keeping.log = [] from rfl, List.nil_append, keeperLog]

def isNotice : Event → Bool
  | .notified .scramCachedPassword (.chain [⟨.salt, s⟩, ⟨.iterations, i⟩]) => decide (s = ([7] : Bytes)) && decide (i = (9 : UInt32))
  | _ => false

def isHandover : Event → Bool
  | .delivered .scramCachedPassword k => decide (k = kept)
  | _ => false

theorem keeper_hands : HandedOut keeperLog [7] 9 kept := by
  constructor
  · have h : keeperLog.any isNotice = true := by decide +kernel
    obtain ⟨e, he, h⟩ := List.any_eq_true.1 h
    unfold isNotice at h
    split at h
    · simp only [Bool.and_eq_true, decide_eq_true_eq] at h
      obtain ⟨rfl, rfl⟩ := h
      exact he
    · cases h
  · have h : keeperLog.any isHandover = true := by decide +kernel
    obtain ⟨e, he, h⟩ := List.any_eq_true.1 h
    unfold isHandover at h
    split at h
    · simp only [decide_eq_true_eq] at h
      subst h
      exact he
    · cases h

/-- A client that has its name and these keys. -/
def returning : Env := exampleEnv [⟨.authId, c!"u"⟩, ⟨.scramCachedPassword, kept⟩]

theorem returning_gives : returning.Gives .scramCachedPassword kept := fun _ _ =>
  answers_answerAll _ [⟨.authId, c!"u"⟩] [] rfl (by simp)

/-- It says the same. -/
example : ((⟨some (.initial .clientNoSupport), none, fun i => i, [.validated .empty]⟩ : Session CS).run (client toyDigest) returning keeperCalls).1 =
    (keeping.run (client toyDigest) keeper keeperCalls).1 :=
  C118_same toyDigest keeper returning keeping ⟨some (.initial .clientNoSupport), none, fun i => i, [.validated .empty]⟩ .clientNoSupport rfl rfl rfl
    ⟨b!"n,,", [], c!"u"⟩ _ _ rfl rfl keeperCalls (by unfold keeperCalls; simp [Cooperative]) keeperLog keeper_log [7] 9 kept
    keeper_hands (returning_gives.at _)

/-- It is let in again, with another nonce. -/
example : (scramExchange toyDigest returning
    (exampleEnv [⟨.scramStoredPassword, ⟨9, [7], toyDigest.hash kept.clientKey, kept.serverKey⟩⟩])
    ⟨some (.initial .clientNoSupport), none, fun i => i + 3, []⟩ ⟨serverNew false, none, fun i => i + 5, []⟩ (fun _ => [])).isSome :=
  C118_again toyDigest keeper keeping .clientNoSupport rfl keeperCalls keeperLog keeper_log [7] 9 kept keeper_hands returning _ _ _
    .clientNoSupport false rfl rfl _ (by intro i r hr; simp at hr) ⟨b!"n,,", [], c!"u"⟩ _ _ rfl .notSupported none
    ⟨by decide, .notSupported, by decide⟩ (returning_gives.at _) rfl rfl

end Examples

end Rsasl

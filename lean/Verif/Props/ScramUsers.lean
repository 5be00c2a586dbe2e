/-
C80: what a SCRAM server tells about its users.
-/
import Verif.Spec.ScramUsers
import Verif.Props.ScramReplay

namespace Rsasl

open Scram Spec

/-- The first message to a client whose user is unknown. -/
theorem C80_unknown (d : Digest) (env : Env) (ses : Session SS) (canCb : Bool)
    (hst : ses.st = some (.waitingClientFirst canCb)) (flag : CbFlag) (authzid : Option Str)
    (user : Str) (nonce data : Bytes) (h : WellFormedFirst flag authzid user nonce)
    (hu : Unaware env canCb flag authzid user data) (w : List WResp) (hw : Cooperative w) :
    (ses.step (server d) env ⟨some (gs2Header flag authzid ++ clientFirstBare user nonce), w⟩).1 =
        ⟨.ok .running, serverFirst (nonce ++ drawnNonce ses.rng) (Base64.encode (drawnSalt ses.rng))
          (b!"16384")⟩ ∧
      (ses.step (server d) env ⟨some (gs2Header flag authzid ++ clientFirstBare user nonce), w⟩).2.st =
        some (.waitingClientFinal none) := by
  rcases hs : ses.step (server d) env ⟨some (gs2Header flag authzid ++ clientFirstBare user nonce), w⟩
    with ⟨r, s'⟩
  obtain ⟨rfl, h1, -⟩ := DoesR.step (m := server d) (c := ⟨_, w⟩) (by
    rw [hst]
    exact does_server_first_unknown (d := d) (n := nonceLen) (canCb := canCb)
      (parse_wellFormed h) hu.binding hu.lacks ses.rng) hw hs
  refine ⟨?_, h1⟩
  simp only [List.map_map]
  rfl

/-- The first message to a client whose user is known. -/
theorem C80_known (d : Digest) (env : Env) (ses : Session SS) (canCb : Bool)
    (hst : ses.st = some (.waitingClientFirst canCb)) (flag : CbFlag) (authzid : Option Str)
    (user : Str) (nonce data : Bytes) (h : WellFormedFirst flag authzid user nonce)
    (stored : StoredPassword) (hk : Spec.Knows d env canCb flag authzid user data stored)
    (w : List WResp) (hw : Cooperative w) :
    (ses.step (server d) env ⟨some (gs2Header flag authzid ++ clientFirstBare user nonce), w⟩).1 =
        ⟨.ok .running, serverFirst (nonce ++ drawnNonce ses.rng) (Base64.encode stored.salt)
          (storedCount stored)⟩ ∧
      ∃ f, (ses.step (server d) env ⟨some (gs2Header flag authzid ++ clientFirstBare user nonce),
        w⟩).2.st = some (.waitingClientFinal (some f)) := by
  rcases hs : ses.step (server d) env ⟨some (gs2Header flag authzid ++ clientFirstBare user nonce), w⟩
    with ⟨r, s'⟩
  obtain ⟨rfl, h1, -⟩ := DoesR.step (m := server d) (c := ⟨_, w⟩) (by
    rw [hst]
    exact does_server_first (d := d) (n := nonceLen) (canCb := canCb)
      (parse_wellFormed h) hk.binding hk.gives hk.storedKey hk.serverKey ses.rng) hw hs
  refine ⟨?_, _, h1⟩
  simp only [List.map_map]
  rfl

/-- The claim: an exchange with an unknown user can not be told from one with a known user. With the
same random draws, the server could have said the same about a user it knows. -/
def C80 : Prop :=
  ∀ (d : Digest) (env : Env) (ses : Session SS) (canCb : Bool),
    ses.st = some (.waitingClientFirst canCb) →
    ∀ (flag : CbFlag) (authzid : Option Str) (user : Str) (nonce data : Bytes),
    WellFormedFirst flag authzid user nonce → Unaware env canCb flag authzid user data →
    ∀ (w0 : List WResp) (c1 : Call), Cooperative w0 → Cooperative c1.sched →
    ∃ env' stored, Spec.Knows d env' canCb flag authzid user data stored ∧
      (ses.run (server d) env [⟨some (gs2Header flag authzid ++ clientFirstBare user nonce), w0⟩,
        c1]).1 =
      (ses.run (server d) env' [⟨some (gs2Header flag authzid ++ clientFirstBare user nonce), w0⟩,
        c1]).1

/-- The first message does not tell: it is the one about a user whose stored salt is what was drawn,
with 16384 iterations. Missing: the last message, which does tell (`C80_told`), and the messages of
several exchanges with the same user (`C80_repeat`). -/
theorem C80_partial (d : Digest) (env env' : Env) (ses : Session SS) (canCb : Bool)
    (hst : ses.st = some (.waitingClientFirst canCb)) (flag : CbFlag) (authzid : Option Str)
    (user : Str) (nonce data : Bytes) (h : WellFormedFirst flag authzid user nonce)
    (hu : Unaware env canCb flag authzid user data) (stored : StoredPassword)
    (hk : Spec.Knows d env' canCb flag authzid user data stored)
    (hsalt : stored.salt = drawnSalt ses.rng) (hit : stored.iterations = 16384)
    (w : List WResp) (hw : Cooperative w) :
    (ses.step (server d) env ⟨some (gs2Header flag authzid ++ clientFirstBare user nonce), w⟩).1 =
    (ses.step (server d) env' ⟨some (gs2Header flag authzid ++ clientFirstBare user nonce), w⟩).1 := by
  rw [(C80_unknown d env ses canCb hst flag authzid user nonce data h hu w hw).1,
    (C80_known d env' ses canCb hst flag authzid user nonce data h stored hk w hw).1, hsalt]
  unfold storedCount
  rw [hit, show Str.bytes (decimal 16384) = b!"16384" by decide +kernel]

theorem judge_known {d : Digest} {f : FinalInner} {msg : ClientFinal} {e : ServerErrorValue}
    (h : judge d (some f) msg = .ok (.error e)) : e ≠ .unknownUser := by
  rintro rfl
  unfold judge at h
  dsimp only at h
  repeat' split at h
  all_goals cases h

/-- The last message tells: whatever the client sends, the answer about a known user is never the
one about an unknown user. -/
theorem C80_told (d : Digest) (env env' : Env) (ses : Session SS) (canCb : Bool)
    (hst : ses.st = some (.waitingClientFirst canCb)) (flag : CbFlag) (authzid : Option Str)
    (user : Str) (nonce data : Bytes) (h : WellFormedFirst flag authzid user nonce)
    (hu : Unaware env canCb flag authzid user data) (stored : StoredPassword)
    (hk : Spec.Knows d env' canCb flag authzid user data stored)
    (final : Bytes) (hf : FinalShape final)
    (w0 w1 : List WResp) (hw0 : Cooperative w0) (hw1 : Cooperative w1) (ses' : Session SS)
    (hst' : ses'.st = some (.waitingClientFirst canCb)) :
    ∃ r0 r0' r1 r1', (ses.run (server d) env [⟨some (gs2Header flag authzid ++
        clientFirstBare user nonce), w0⟩, ⟨some final, w1⟩]).1 = [r0, r1] ∧
      (ses'.run (server d) env' [⟨some (gs2Header flag authzid ++
        clientFirstBare user nonce), w0⟩, ⟨some final, w1⟩]).1 = [r0', r1'] ∧
      r1 = ⟨.ok (.finished .yes), b!"e=unknown-user"⟩ ∧
      (∀ st, r1'.res = .ok st → r1'.out ≠ b!"e=unknown-user") := by
  obtain ⟨-, u1⟩ := C80_unknown d env ses canCb hst flag authzid user nonce data h hu w0 hw0
  obtain ⟨-, f, k1⟩ := C80_known d env' ses' canCb hst' flag authzid user nonce data h stored hk w0 hw0
  rcases h0 : ses.step (server d) env ⟨some (gs2Header flag authzid ++ clientFirstBare user nonce), w0⟩
    with ⟨r0, s0⟩
  rcases h0' : ses'.step (server d) env' ⟨some (gs2Header flag authzid ++ clientFirstBare user nonce),
    w0⟩ with ⟨r0', s0'⟩
  rw [h0] at u1
  rw [h0'] at k1
  rcases h1 : s0.step (server d) env ⟨some final, w1⟩ with ⟨r1, s1⟩
  rcases h1' : s0'.step (server d) env' ⟨some final, w1⟩ with ⟨r1', s1'⟩
  refine ⟨r0, r0', r1, r1', ?_, ?_, ?_, ?_⟩
  · rw [run_cons, h0, run_cons, h1]; rfl
  · rw [run_cons, h0', run_cons, h1']; rfl
  · exact (C46_runs d env ses s0 s1 canCb hst flag authzid user nonce data h hu.binding hu.lacks final
      hf w0 w1 ⟨hw0, hw1⟩ r0 r1 h0 h1).2.1
  · intro st hok
    obtain ⟨s0st, slot, rng, log⟩ := s0'
    dsimp only at k1
    subst k1
    rcases hs : serverStep d nonceLen env' (some final) (some (.waitingClientFinal (some f)))
      ⟨⟨[], w1⟩, rng, slot, log⟩ with ⟨o, s', w'⟩
    rw [step_of (m := server d) hs] at h1'
    cases h1'
    rcases serverStep_second hs with ⟨h1, -⟩ |
      ⟨b, msg, e, out, sched, -, h2, h3, rfl, rfl, h5, h6, rfl⟩ |
      ⟨b, msg, f', sig, out, sched, es, -, h2, h3, h4, h5, h6, h7, h8, h9, h10, h11⟩
    · exact absurd hok (h1 _)
    · have he := judge_known h3
      intro ho
      have : b!"e=" ++ e.bytes = b!"e=unknown-user" := by
        rw [← h6 hw1, ← ho]; simp
      cases e <;> first | exact he rfl | exact absurd this (by decide +kernel)
    · intro ho
      have ho' : out = b!"e=unknown-user" := by rw [← ho, h9]; simp
      rw [h8 hw1] at ho'
      cases ho'

/-- So the claim fails: any well-formed exchange with an unknown user refutes it. -/
theorem C80_false : ¬ C80 := by
  intro h
  have hb : ServerBinding (exampleEnv []) false (c!"user") none .notSupported [] := rfl
  have hl : (exampleEnv []).LacksAt (scramOffer (c!"user") none) .scramStoredPassword :=
    fun _ _ _ => .ok
  have hwf : WellFormedFirst .notSupported none (c!"user") (b!"abc") :=
    ⟨trivial, nofun, by decide, abc_printable⟩
  have hco : Cooperative [] := by unfold Cooperative; simp
  obtain ⟨env', stored, hk, e⟩ := h toyDigest (exampleEnv []) (serverAt (serverNew false)) false rfl
    .notSupported none (c!"user") (b!"abc") [] hwf ⟨hb, hl⟩ [] ⟨some rightFinal, []⟩ hco hco
  obtain ⟨r0, r0', r1, r1', h1, h2, h3, h4⟩ := C80_told toyDigest (exampleEnv []) env'
    (serverAt (serverNew false)) false rfl .notSupported none (c!"user") (b!"abc") [] hwf ⟨hb, hl⟩
    stored hk rightFinal ⟨b!"biws", b!"abc!!!!!!!!!!!!!!!!!!!!!!!!", b!"8Q==", by decide, by decide,
      by decide, by decide⟩ [] [] hco hco (serverAt (serverNew false)) rfl
  rw [h1, h2] at e
  simp only [List.cons.injEq, and_true] at e
  rw [← e.2, h3] at h4
  exact h4 _ rfl rfl

/-- Two attempts tell as well: the salt of an unknown user is drawn anew, that of a known one is
not. -/
theorem C80_repeat (d : Digest) (env env' : Env) (ses ses' : Session SS) (canCb : Bool)
    (hst : ses.st = some (.waitingClientFirst canCb))
    (hst' : ses'.st = some (.waitingClientFirst canCb)) (flag : CbFlag) (authzid : Option Str)
    (user : Str) (nonce data : Bytes) (h : WellFormedFirst flag authzid user nonce)
    (hu : Unaware env canCb flag authzid user data) (stored : StoredPassword)
    (hk : Spec.Knows d env' canCb flag authzid user data stored) (w : List WResp) (hw : Cooperative w)
    (hdraw : drawnSalt ses.rng ≠ drawnSalt ses'.rng) :
    let c : Call := ⟨some (gs2Header flag authzid ++ clientFirstBare user nonce), w⟩
    (∃ n n' s s' i, (ses.step (server d) env c).1.out = serverFirst n s i ∧
      (ses'.step (server d) env c).1.out = serverFirst n' s' i ∧ 44 ∉ s ∧ 44 ∉ s' ∧ s ≠ s') ∧
    (∃ n n' s i, (ses.step (server d) env' c).1.out = serverFirst n s i ∧
      (ses'.step (server d) env' c).1.out = serverFirst n' s i ∧ 44 ∉ s) := by
  intro c
  refine ⟨⟨_, _, _, _, _,
    by rw [(C80_unknown d env ses canCb hst flag authzid user nonce data h hu w hw).1],
    by rw [(C80_unknown d env ses' canCb hst' flag authzid user nonce data h hu w hw).1],
    Base64.comma_notMem_encode _, Base64.comma_notMem_encode _,
    fun e => hdraw (Base64.encode_injective e)⟩, _, _, _, _,
    by rw [(C80_known d env' ses canCb hst flag authzid user nonce data h stored hk w hw).1],
    by rw [(C80_known d env' ses' canCb hst' flag authzid user nonce data h stored hk w hw).1],
    Base64.comma_notMem_encode _⟩

/-- A server that knows a user with such a salt and count, and one that knows no one. -/
example : (serverAt (serverNew false)).step (server toyDigest) (exampleEnv [⟨.scramStoredPassword,
      (⟨16384, List.replicate 32 0, [30], [9]⟩ : StoredPassword)⟩]) ⟨some (b!"n,,n=user,r=abc"), []⟩
      |>.1.out = ((serverAt (serverNew false)).step (server toyDigest) (exampleEnv [])
        ⟨some (b!"n,,n=user,r=abc"), []⟩).1.out := by
  decide +kernel

example : Spec.Knows toyDigest (exampleEnv [⟨.scramStoredPassword,
      (⟨16384, List.replicate 32 0, [30], [9]⟩ : StoredPassword)⟩]) false .notSupported none
      (c!"user") [] ⟨16384, List.replicate 32 0, [30], [9]⟩ ∧
    Unaware (exampleEnv []) false .notSupported none (c!"user") [] ∧
    drawnSalt (serverAt (serverNew false)).rng = List.replicate 32 0 :=
  ⟨⟨rfl, fun _ _ _ => answers_answerAll _ [] [] rfl nofun, rfl, rfl⟩, ⟨rfl, fun _ _ _ => .ok⟩,
    by decide +kernel⟩

end Rsasl

/-
C117: which spellings of a name or a password count as the same.
-/
import Verif.Props.ScramMeets
import Verif.Props.ServerSteps
import Verif.Spec.Spelling

namespace Rsasl

open Spec

theorem nul_notMem {s : Str} (h : '\x00' ∉ s) : (0 : UInt8) ∉ Str.bytes s := by
  intro hm
  exact h ((mem_bytes_ascii (by decide) s).1 hm)

theorem bytes_ne_nil {s : Str} (h : s ≠ []) : 1 ≤ (Str.bytes s).length := by
  cases s with
  | nil => exact absurd rfl h
  | cons c s =>
    rw [Str.bytes_cons, List.length_append]
    have := List.length_pos_iff.2 (encodeChar_ne_nil c)
    omega

/-- What a PLAIN server does with a message of the right form: it looks at the prepared name and password only. -/
def plainPrepared (env : Env) (authzid : Str) (authcid passwd : Option Str) : M Unit State := do
  let authcid ← M.okOr (Plain.plainErr .saslprep) authcid
  if authcid.isEmpty then M.fail (Plain.plainErr .empty)
  else do
    let passwd ← M.okOr (Plain.plainErr .saslprep) passwd
    if passwd.isEmpty then M.fail (Plain.plainErr .empty)
    else do
      validate env (Plain.provider authcid authzid (Str.bytes passwd))
      pure (.finished .no)

theorem plain_prepared (prep : Str → Option Str) (env : Env) {authzid authcid passwd : Str} (h0 : '\x00' ∉ authzid)
    (h1 : '\x00' ∉ authcid) (h2 : '\x00' ∉ passwd) (h3 : authcid ≠ []) (h4 : passwd ≠ []) :
    Plain.serverStep prep env (some (plainWire authzid authcid passwd)) = plainPrepared env authzid (prep authcid) (prep passwd) := by
  have hsplit : splitOn 0 (plainWire authzid authcid passwd) = [Str.bytes authzid, Str.bytes authcid, Str.bytes passwd] :=
    splitOn_three.2 ⟨by simp [plainWire], nul_notMem h0, nul_notMem h1, nul_notMem h2⟩
  have hl : ¬ (plainWire authzid authcid passwd).length < 4 := by
    have := bytes_ne_nil h3
    have := bytes_ne_nil h4
    simp only [plainWire, List.length_append, List.length_cons, List.length_nil]
    omega
  funext s w
  unfold Plain.serverStep plainPrepared
  rw [M.bind_ok (M.okOr_some ..), if_neg hl]
  simp only [hsplit, fromUtf8_bytes]
  rw [M.bind_ok (M.okOr_some ..), M.bind_ok (M.okOr_some ..)]

/-- C117, PLAIN: a server does the same for all spellings of a name and of a password. Messages whose name or password is empty are
not meant. Missing: SCRAM, where it does not hold (`C117_false`). -/
theorem C117_plain_partial (prep : Str → Option Str) (env : Env) (ses : Session Unit) (authzid u u' p p' : Str)
    (hu : SameSpelling prep u u') (hp : SameSpelling prep p p')
    (hz : ∀ s ∈ [authzid, u, u', p, p'], '\x00' ∉ s) (hn : ∀ s ∈ [u, u', p, p'], s ≠ []) (sched : List WResp) :
    ses.step (Plain.server prep) env ⟨some (plainWire authzid u p), sched⟩ =
      ses.step (Plain.server prep) env ⟨some (plainWire authzid u' p'), sched⟩ := by
  have h1 := plain_prepared prep env (hz authzid (by simp)) (hz u (by simp)) (hz p (by simp)) (hn u (by simp)) (hn p (by simp))
  have h2 := plain_prepared prep env (hz authzid (by simp)) (hz u' (by simp)) (hz p' (by simp)) (hn u' (by simp)) (hn p' (by simp))
  rw [hu, hp] at h1
  show ses.exec (Plain.serverStep prep env (some (plainWire authzid u p))) sched =
    ses.exec (Plain.serverStep prep env (some (plainWire authzid u' p'))) sched
  rw [h1, h2]

/-- C117, PLAIN: whatever the server lets validate see is prepared; other spellings are told apart. -/
theorem C117_plain_shown (prep : Str → Option Str) (env : Env) (ses : Session Unit) (authzid u p name secret : Str)
    (hu : prep u = some name) (hp : prep p = some secret) (hz : ∀ s ∈ [authzid, u, p], '\x00' ∉ s)
    (hn : ∀ s ∈ [u, p, name, secret], s ≠ []) (sched : List WResp) :
    ses.step (Plain.server prep) env ⟨some (plainWire authzid u p), sched⟩ =
      ruling env ses (.chain [⟨.authId, name⟩, ⟨.password, Str.bytes secret⟩, ⟨.authzId, authzid⟩]) [] (.finished .no) () := by
  have h := plain_prepared prep env (hz authzid (by simp)) (hz u (by simp)) (hz p (by simp)) (hn u (by simp)) (hn p (by simp))
  refine step_ruling (m := Plain.server prep) (sched := sched) ?_
  show Plain.serverStep prep env (some (plainWire authzid u p)) _ _ = _
  rw [h, hu, hp]
  unfold plainPrepared
  rw [M.bind_ok (M.okOr_some ..), if_neg (by simpa using hn name (by simp)), M.bind_ok (M.okOr_some ..),
    if_neg (by simpa using hn secret (by simp))]
  rfl

/-! ## SCRAM -/

/-- "IX" with a soft hyphen, the first example of RFC 4013. -/
def hyphened : Str := c!"I\u00adX"

theorem hyphened_same : SameSpelling withoutHyphens hyphened (c!"IX") ∧ hyphened ≠ c!"IX" := by
  unfold SameSpelling
  decide

/-- A client with a name and a password. -/
def spelled (name secret : Str) : Env := exampleEnv [⟨.authId, name⟩, ⟨.password, Str.bytes secret⟩]

/-- What is stored for the password "IX". -/
def storedIX : StoredPassword :=
  ⟨1, [0], toyDigest.hash (clientKey toyDigest (toyDigest.pbkdf2 (b!"IX") [0] 1)),
    serverKey toyDigest (toyDigest.pbkdf2 (b!"IX") [0] 1)⟩

/-- What a server answers that knows the user "IX" with this password and no other. -/
def answersIX (ctx : Provider) : CbProg :=
  if ctx.getRef .authId = some (c!"IX") then answerAll [⟨.scramStoredPassword, storedIX⟩] else .ret (.ok ())

/-- This server. -/
def knowsIX : Env := { exampleEnv [] with callback := fun _ _ ctx => answersIX ctx }

/-- An exchange with this server. -/
def exchangeIX (name secret : Str) : Option (Session Scram.CS × Session Scram.SS) :=
  scramExchange toyDigest (spelled name secret) knowsIX ⟨Scram.clientNew true, none, fun i => i, []⟩
    ⟨Scram.serverNew false, none, fun i => i + 5, []⟩ fun _ => []

/-- The full claim fails for SCRAM: neither the client nor the server prepares anything, so another spelling of the right
password is refused, and so is another spelling of the right name. RFC 5802 prepares both. -/
theorem C117_false : (exchangeIX (c!"IX") (c!"IX")).isSome ∧ exchangeIX (c!"IX") hyphened = none ∧
    exchangeIX hyphened (c!"IX") = none := by
  refine ⟨by decide +kernel, ?_, ?_⟩
  · have : (exchangeIX (c!"IX") hyphened).isSome = false := by decide +kernel
    simpa using this
  · have : (exchangeIX hyphened (c!"IX")).isSome = false := by decide +kernel
    simpa using this

/-! ## The assumptions -/

/-- PLAIN with the same two spellings. -/
example (env : Env) (ses : Session Unit) :
    ses.step (Plain.server withoutHyphens) env ⟨some (plainWire [] hyphened (c!"IX")), []⟩ =
      ses.step (Plain.server withoutHyphens) env ⟨some (plainWire [] (c!"IX") hyphened), []⟩ :=
  C117_plain_partial withoutHyphens env ses [] hyphened (c!"IX") (c!"IX") hyphened hyphened_same.1 hyphened_same.1.symm (by decide) (by decide) []

/-- Both prohibited: the same error. -/
example : SameSpelling (fun s => if '\x07' ∈ s then none else some s) (c!"a\x07") (c!"\x07b") := by
  unfold SameSpelling
  decide

/-- A message whose parts are all empty is refused for its length, one with a long name for the empty password: these are
no different spellings. -/
example : ((⟨(), none, fun _ => 0, []⟩ : Session Unit).step (Plain.server withoutHyphens) (exampleEnv [])
      ⟨some (plainWire [] (c!"I") []), []⟩).1.res = .err (.mechanismError (.plain .badFormat)) ∧
    ((⟨(), none, fun _ => 0, []⟩ : Session Unit).step (Plain.server withoutHyphens) (exampleEnv [])
      ⟨some (plainWire [] (c!"IX") []), []⟩).1.res = .err (.mechanismError (.plain .empty)) := ⟨rfl, rfl⟩

end Rsasl

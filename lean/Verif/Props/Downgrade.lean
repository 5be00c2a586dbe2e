/-
C123: channel binding can't be taken away from two sides that have it.
-/
import Verif.Props.ScramReplay
import Verif.Props.Negotiation

namespace Rsasl

open Scram Spec

/-- A server with channel binding that accepts a proof has not been told "y": it never takes an
exchange to be one in which the client thinks that the server does no channel binding. -/
theorem took_no_y {d : Digest} {env env' : Env} {ss : Session SS}
    (hst : ss.st = some (.waitingClientFirst true)) {x0 x1 : Call} {calls : List Call}
    (hv : validations (ss.run (server d) env (x0 :: x1 :: calls)).2.log ≠ validations ss.log)
    {before log : List Event} {y0 y1 : Reply State} {w : View} {stored : StoredPassword} {given : Bytes}
    (h : ServerTook d env' ss.rng before log x0 x1 y0 y1 w stored given) : ¬ b!"y," <+: w.bound := by
  obtain ⟨b0, flag, key, authzid, exts0, data, b1, exts1, proof, -, hb, hin, hread, -⟩ := h
  intro hy
  rw [hb] at hy
  cases flag with
  | supportedNotUsed =>
    have hb0 : b!"y," <+: b0 := by
      rw [hread.message]
      simp only [List.append_assoc]
      exact ⟨_, by simp only [← List.append_assoc]; rfl⟩
    obtain ⟨-, hlog, -⟩ := C29_server d env ss hst b0 hb0 x0.sched (x1 :: calls)
    apply hv
    have : x0 = ⟨some b0, x0.sched⟩ := by rw [← hin]
    rw [this, hlog]
  | notSupported =>
    simp only [gs2Header, List.append_assoc] at hy
    obtain ⟨t, ht⟩ := hy
    cases ht
  | used name =>
    simp only [gs2Header, List.append_assoc] at hy
    obtain ⟨t, ht⟩ := hy
    cases ht

/-- What a server runs for the SCRAM mechanisms on one hash, if it has the `-PLUS` variant. -/
theorem server_binds {sc : Config} (hss : ∀ m ∈ sc.mechs, m ∈ shipped) {x : Hash}
    (hplus : SCRAMPLUS x ∈ sc.mechs) {m : Mechanism} (hm : m = SCRAM x ∨ m = SCRAMPLUS x) {sa : Auth}
    {n : Bytes} (hs : sc.serverStart n = .ok (sa, m)) {deps : Deps} {ss : Started}
    (hsst : sa.startServer deps = some ss) :
    ss = ⟨server (deps.digest x), (some (.waitingClientFirst true) : SS)⟩ := by
  obtain ⟨-, -, start, -, -, hst, hsa, -⟩ := (C05_start ..).1 hs
  rcases hm with rfl | rfl
  · cases hst
    cases hsa
    cases hsst
    rw [(canCb_iff hss x).2 hplus]
    rfl
  · cases hst
    cases hsa
    cases hsst
    rfl

/-- What a client runs for the SCRAM mechanisms on one hash, with the default preference, if it has
channel binding and both variants: it binds, or says that the server can't. -/
theorem client_binds {cc : Config} (hcs : ∀ m ∈ cc.mechs, m ∈ shipped)
    (hp : cc.prefer = defaultPrefer) (hcb : cc.enableCb = true) {x : Hash}
    (hplus : SCRAMPLUS x ∈ cc.mechs) {m : Mechanism} (hm : m = SCRAM x ∨ m = SCRAMPLUS x)
    {offered : List Bytes} {ca : Auth} (hc : cc.clientStart offered = .ok (ca, m)) {deps : Deps}
    {cs : Started} (hcst : ca.startClient deps = some cs) :
    (m = SCRAMPLUS x ∧ cs = ⟨client (deps.digest x), (some (.initial .supported) : CS)⟩) ∨
    cs = ⟨client (deps.digest x), (some (.initial .serverNoSupport) : CS)⟩ := by
  have hk := shipped_known hcs
  obtain ⟨-, -, -, ha⟩ := clientStart_ok hk hc
  rcases hm with rfl | rfl
  · right
    have hno : x.plusName ∉ offered := by
      intro hin
      obtain ⟨before, after, he, -, hb, hl⟩ := C03_priority cc hk hp _ ca _ hc
      have hu : Usable cc.enableCb offered (SCRAMPLUS x) := ⟨hcb, hin⟩
      have hlt : (SCRAM x).priority < (SCRAMPLUS x).priority := by cases x <;> decide
      rw [he] at hplus
      rcases List.mem_append.1 hplus with h | h
      · exact absurd (hb _ h hu) (by omega)
      · rcases List.mem_cons.1 h with h | h
        · have := congrArg Mechanism.select h
          cases this
        · exact absurd (hl _ h hu) (by omega)
    cases ha
    cases hcst
    simp [hcb, hno, clientNew]
  · left
    cases ha
    cases hcst
    exact ⟨rfl, rfl⟩

/-! ## C123 -/

/-- C123, servers: client and server have channel binding for SCRAM on some hash. Whatever happened
to the list of mechanisms, to the name of the one the client picked and to the messages, if the
server accepts the proof the client has sent, and knows the client by the same key, then the client
runs the `-PLUS` mechanism, and both have bound the exchange to the same channel; else there is a
collision. -/
theorem C123_server (cc sc : Config) (hcs : ∀ m ∈ cc.mechs, m ∈ shipped)
    (hss : ∀ m ∈ sc.mechs, m ∈ shipped) (hp : cc.prefer = defaultPrefer) (hcb : cc.enableCb = true)
    (x : Hash) (hcplus : SCRAMPLUS x ∈ cc.mechs) (hsplus : SCRAMPLUS x ∈ sc.mechs)
    (offered : List Bytes) (m m' : Mechanism) (hm : m = SCRAM x ∨ m = SCRAMPLUS x)
    (hm' : m' = SCRAM x ∨ m' = SCRAMPLUS x) (ca sa : Auth)
    (hc : cc.clientStart offered = .ok (ca, m)) (hs : sc.serverStart m'.name = .ok (sa, m'))
    (deps : Deps) (cs ss : Started) (hcst : ca.startClient deps = some cs)
    (hsst : sa.startServer deps = some ss) (crng srng : Nat → Nat) (cenv senv : Env)
    (c0 c1 x0 x1 : Call) (r0 r1 : Reply State) (calls : List Call)
    (hr : ((cs.session crng).run cs.mech cenv [c0, c1]).1 = [r0, r1])
    (h : r0.res = .ok .running ∧ r1.res = .ok .running) (hw : Cooperative c1.sched)
    (hv : validations ((ss.session srng).run ss.mech senv (x0 :: x1 :: calls)).2.log ≠ [])
    (b : Bytes) (hin : x1.input = some b) (hproof : lastAttribute b = lastAttribute r1.out) :
    ∃ plus v it ck sk w y0 y1 post stored given,
      ((ss.session srng).run ss.mech senv (x0 :: x1 :: calls)).1 = y0 :: y1 :: post ∧
      ClientTook (deps.digest x) cenv crng plus [] ((cs.session crng).run cs.mech cenv [c0, c1]).2.log c0 c1
        r0 r1 v it ck sk ∧
      ServerTook (deps.digest x) senv srng [] ((ss.session srng).run ss.mech senv (x0 :: x1 :: calls)).2.log
        x0 x1 y0 y1 w stored given ∧
      (stored.storedKey = (deps.digest x).hash ck →
        (m = SCRAMPLUS x ∧ v = w ∧ b!"p=" <+: w.bound) ∨
        Collision ((deps.digest x).hmac stored.storedKey) v.auth w.auth ∨
        ∃ z, Collision (deps.digest x).hash ck z) := by
  have hs1 := server_binds hss hsplus hm' hs hsst
  subst hs1
  have hv' : validations ((Started.session ⟨server (deps.digest x),
      (some (.waitingClientFirst true) : SS)⟩ srng).run (server (deps.digest x)) senv
      (x0 :: x1 :: calls)).2.log ≠ validations (Started.session ⟨server (deps.digest x),
      (some (.waitingClientFirst true) : SS)⟩ srng).log := hv
  rcases client_binds hcs hp hcb hcplus hm hc hcst with ⟨hmp, rfl⟩ | rfl
  · obtain ⟨v, it, ck, sk, w, y0, y1, post, stored, given, ht, hys, hst, hcon⟩ :=
      C79_server (deps.digest x) cenv senv (Started.session ⟨client (deps.digest x), _⟩ crng)
        (Started.session ⟨server (deps.digest x), _⟩ srng) .supported true rfl rfl c0 c1 x0 x1 r0 r1
        calls hr h hw hv' b hin hproof
    refine ⟨_, v, it, ck, sk, w, y0, y1, post, stored, given, hys, ht, hst, fun hkey => ?_⟩
    rcases hcon hkey with ⟨rfl, -⟩ | hcol
    · left
      refine ⟨hmp, rfl, ?_⟩
      obtain ⟨_, _, gs2, cb, _, _, -, -, hb, hf, -⟩ := ht
      rw [hb]
      exact hf.flag.trans (List.prefix_append _ _)
    · exact .inr hcol
  · obtain ⟨v, it, ck, sk, w, y0, y1, post, stored, given, ht, hys, hst, hcon⟩ :=
      C79_server (deps.digest x) cenv senv (Started.session ⟨client (deps.digest x), _⟩ crng)
        (Started.session ⟨server (deps.digest x), _⟩ srng) .serverNoSupport true rfl rfl c0 c1 x0 x1
        r0 r1 calls hr h hw hv' b hin hproof
    refine ⟨_, v, it, ck, sk, w, y0, y1, post, stored, given, hys, ht, hst, fun hkey => ?_⟩
    rcases hcon hkey with ⟨rfl, -⟩ | hcol
    · exfalso
      refine took_no_y rfl hv' hst ?_
      obtain ⟨_, _, gs2, cb, _, _, -, -, hb, hf, -⟩ := ht
      rw [hb]
      exact hf.flag.trans (List.prefix_append _ _)
    · exact .inr hcol

/-- C123, clients: so it is if the client finishes on what such a server has sent. -/
theorem C123_client (cc sc : Config) (hcs : ∀ m ∈ cc.mechs, m ∈ shipped)
    (hss : ∀ m ∈ sc.mechs, m ∈ shipped) (hp : cc.prefer = defaultPrefer) (hcb : cc.enableCb = true)
    (x : Hash) (hcplus : SCRAMPLUS x ∈ cc.mechs) (hsplus : SCRAMPLUS x ∈ sc.mechs)
    (offered : List Bytes) (m m' : Mechanism) (hm : m = SCRAM x ∨ m = SCRAMPLUS x)
    (hm' : m' = SCRAM x ∨ m' = SCRAMPLUS x) (ca sa : Auth)
    (hc : cc.clientStart offered = .ok (ca, m)) (hs : sc.serverStart m'.name = .ok (sa, m'))
    (deps : Deps) (cs ss : Started) (hcst : ca.startClient deps = some cs)
    (hsst : sa.startServer deps = some ss) (crng srng : Nat → Nat) (cenv senv : Env)
    (c0 c1 c2 x0 x1 : Call) (r0 r1 r2 y0 y1 : Reply State) (post : List (Reply State))
    (calls : List Call)
    (hr : ((cs.session crng).run cs.mech cenv [c0, c1, c2]).1 = [r0, r1, r2])
    (h : r0.res = .ok .running ∧ r1.res = .ok .running ∧ r2.res = .ok (.finished .no))
    (hw : Cooperative x1.sched)
    (hv : validations ((ss.session srng).run ss.mech senv (x0 :: x1 :: calls)).2.log ≠ [])
    (hy : ((ss.session srng).run ss.mech senv (x0 :: x1 :: calls)).1 = y0 :: y1 :: post)
    (hin : c2.input = some y1.out) :
    ∃ plus v it ck sk w stored given,
      ClientTook (deps.digest x) cenv crng plus [] ((cs.session crng).run cs.mech cenv [c0, c1]).2.log c0 c1
        r0 r1 v it ck sk ∧
      ServerTook (deps.digest x) senv srng [] ((ss.session srng).run ss.mech senv (x0 :: x1 :: calls)).2.log
        x0 x1 y0 y1 w stored given ∧
      (stored.serverKey = sk →
        (m = SCRAMPLUS x ∧ v = w ∧ b!"p=" <+: w.bound) ∨
        Collision ((deps.digest x).hmac sk) v.auth w.auth) := by
  have hs1 := server_binds hss hsplus hm' hs hsst
  subst hs1
  have hv' : validations ((Started.session ⟨server (deps.digest x),
      (some (.waitingClientFirst true) : SS)⟩ srng).run (server (deps.digest x)) senv
      (x0 :: x1 :: calls)).2.log ≠ validations (Started.session ⟨server (deps.digest x),
      (some (.waitingClientFirst true) : SS)⟩ srng).log := hv
  rcases client_binds hcs hp hcb hcplus hm hc hcst with ⟨hmp, rfl⟩ | rfl
  · obtain ⟨v, it, ck, sk, w, stored, given, ht, hst, hcon⟩ :=
      C79_client (deps.digest x) cenv senv (Started.session ⟨client (deps.digest x), _⟩ crng)
        (Started.session ⟨server (deps.digest x), _⟩ srng) .supported true rfl rfl c0 c1 c2 x0 x1 r0 r1
        r2 y0 y1 post calls hr h hw hv' hy hin
    refine ⟨_, v, it, ck, sk, w, stored, given, ht, hst, fun hkey => ?_⟩
    rcases hcon hkey with ⟨rfl, -⟩ | hcol
    · left
      refine ⟨hmp, rfl, ?_⟩
      obtain ⟨_, _, gs2, cb, _, _, -, -, hb, hf, -⟩ := ht
      rw [hb]
      exact hf.flag.trans (List.prefix_append _ _)
    · exact .inr hcol
  · obtain ⟨v, it, ck, sk, w, stored, given, ht, hst, hcon⟩ :=
      C79_client (deps.digest x) cenv senv (Started.session ⟨client (deps.digest x), _⟩ crng)
        (Started.session ⟨server (deps.digest x), _⟩ srng) .serverNoSupport true rfl rfl c0 c1 c2 x0 x1
        r0 r1 r2 y0 y1 post calls hr h hw hv' hy hin
    refine ⟨_, v, it, ck, sk, w, stored, given, ht, hst, fun hkey => ?_⟩
    rcases hcon hkey with ⟨rfl, -⟩ | hcol
    · exfalso
      refine took_no_y rfl hv' hst ?_
      obtain ⟨_, _, gs2, cb, _, _, -, -, hb, hf, -⟩ := ht
      rw [hb]
      exact hf.flag.trans (List.prefix_append _ _)
    · exact .inr hcol

/-! ### Non-trivial cases -/

/-- Two sides of one channel, with the name and keys of the examples of C79. -/
def plusKeyEnv : Env := keyEnv.withCb (ThisCb.getCbData ⟨c!"tls-exporter", b!"exported"⟩)

def plusUserEnv : Env := oneUserEnv.withCb (ThisCb.getCbData ⟨c!"tls-exporter", b!"exported"⟩)

/-- What they are started as, from the list as it was. -/
example : bothServer.clientStart bothServer.list = .ok (.scramClientPlus .sha256, SCRAMPLUS .sha256) ∧
    bothServer.serverStart (SCRAMPLUS .sha256).name =
      .ok (.scramServerPlus .sha256, SCRAMPLUS .sha256) ∧
    Auth.startClient toyDeps (.scramClientPlus .sha256) = some ⟨client toyDigest, clientNewPlus⟩ ∧
    Auth.startServer toyDeps (.scramServerPlus .sha256) = some ⟨server toyDigest, serverNewPlus⟩ ∧
    SCRAMPLUS .sha256 ∈ bothServer.mechs :=
  ⟨rfl, rfl, rfl, rfl, by simp [bothServer]⟩

/-- The premises about the exchange hold. -/
example :
    let first : Bytes := b!"p=tls-exporter,,n=user,r=\"\"\"\"\"\"\"\"\"\"\"\"\"\"\"\"\"\"\"\"\"\"\"\""
    let final : Bytes := b!"c=cD10bHMtZXhwb3J0ZXIsLGV4cG9ydGVk,r=\"\"\"\"\"\"\"\"\"\"\"\"\"\"\"\"\"\"\"\"\"\"\"\"!!!!!!!!!!!!!!!!!!!!!!!!,p=4g=="
    let done := (serverAt serverNewPlus).run (server toyDigest) plusUserEnv
      [⟨some first, []⟩, ⟨some final, []⟩]
    (validations done.2.log).length = 1 ∧
    done.1.map (fun r => r.out) = [keyServerFirst, b!"v=Ng=="] ∧
    oneUser.storedKey = toyDigest.hash [9] ∧ oneUser.serverKey = [9] ∧
    ((⟨clientNewPlus, none, fun _ => 1, []⟩ : Session CS).run (client toyDigest) plusKeyEnv
        [⟨none, []⟩, ⟨some keyServerFirst, []⟩, ⟨some (b!"v=Ng=="), []⟩]).1.map
        (fun r => (r.res, r.out)) =
      [(.ok .running, first), (.ok .running, final), (.ok (.finished .no), [])] := by
  decide +kernel

/-- The list without the `-PLUS` name: the client says "y". If that is changed to "n" and the rest
accordingly, the proof of the client does not fit. -/
example : bothServer.clientStart [b!"SCRAM-SHA-256"] =
      .ok (.scramClient .sha256 false, SCRAM .sha256) ∧
    ((keyClient 1).run (client toyDigest) plusKeyEnv [⟨none, []⟩, ⟨some keyServerFirst, []⟩]).1.map
        (fun r => r.out) =
      [b!"y,,n=user,r=\"\"\"\"\"\"\"\"\"\"\"\"\"\"\"\"\"\"\"\"\"\"\"\"",
        b!"c=eSws,r=\"\"\"\"\"\"\"\"\"\"\"\"\"\"\"\"\"\"\"\"\"\"\"\"!!!!!!!!!!!!!!!!!!!!!!!!,p=/g=="] ∧
    (validations ((serverAt (serverNew true)).run (server toyDigest) plusUserEnv
      [⟨some (b!"n,,n=user,r=\"\"\"\"\"\"\"\"\"\"\"\"\"\"\"\"\"\"\"\"\"\"\"\""), []⟩,
        ⟨some (b!"c=biws,r=\"\"\"\"\"\"\"\"\"\"\"\"\"\"\"\"\"\"\"\"\"\"\"\"!!!!!!!!!!!!!!!!!!!!!!!!,p=/g=="), []⟩]).2.log).length
      = 0 :=
  ⟨rfl, by decide +kernel, by decide +kernel⟩

/-- A client that has not registered the `-PLUS` mechanism is no case of C123: offered the `-PLUS`
name it says "n" although channel binding is enabled, which the server accepts. -/
theorem C123_plus_needed :
    (⟨builtinMechs, true, defaultPrefer⟩ : Config).clientStart bothServer.list =
      .ok (.scramClient .sha256 true, SCRAM .sha256) ∧
    bothServer.serverStart (SCRAM .sha256).name = .ok (.scramServer .sha256 true, SCRAM .sha256) ∧
    (validations ((serverAt (serverNew true)).run (server toyDigest) plusUserEnv
      [⟨some (b!"n,,n=user,r=abc"), []⟩, ⟨some rightFinal, []⟩]).2.log).length = 1 :=
  ⟨rfl, rfl, by decide +kernel⟩

end Rsasl

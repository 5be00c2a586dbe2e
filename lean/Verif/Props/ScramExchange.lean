/-
C27, C33: a SCRAM client and a SCRAM server that fit together.
-/
import Verif.Proofs.ScramExchange
import Verif.Props.ScramClient
import Verif.Props.ScramServer

namespace Rsasl

open Scram

theorem DoesR.step {m : Mech} {env : Env} {ses : Session m.S} {c : Call} {a : State} {s' : m.S}
    {ρ' : Nat → Nat} {o : Bytes} (h : DoesR Cooperative (m.step env c.input) ses.st ses.rng a s' ρ' o)
    (hc : Cooperative c.sched) {r : Reply State} {ses' : Session m.S}
    (hs : ses.step m env c = (r, ses')) :
    r = ⟨.ok a, o⟩ ∧ ses'.st = s' ∧ ses'.rng = ρ' ∧ ses'.slot = ses.slot ∧
      validations ses'.log = validations ses.log := by
  obtain ⟨es, h1, h2⟩ := h.exec hc
  unfold Session.step at hs
  rw [h2] at hs
  cases hs
  exact ⟨rfl, rfl, rfl, rfl, by rw [validations_append, h1, List.append_nil]⟩

theorem nonce_printable (ρ : Nat → Nat) (n : Nat) :
    ∀ b ∈ ((List.range n).map ρ).map nonceChar, Spec.Printable b := by
  intro b hb
  obtain ⟨i, -, rfl⟩ := List.mem_map.1 hb
  exact printable_printable _ (nonceChar_mem i)

/-- The server reads what the client has sent. -/
theorem parse_clientFirst {flag : CbFlag} {authzid authzid' : Option Str} {name user : Str}
    {cn : Bytes} (hf : flag.Valid) (hu : escape name = .ok user) (hz : EscapedOpt authzid authzid')
    (hcn : ∀ b ∈ cn, Spec.Printable b) :
    ClientFirst.parse (Spec.gs2Header flag authzid' ++ Spec.clientFirstBare user cn) =
      .ok ⟨flag, authzid', user, cn⟩ := by
  have := C34_client_first ⟨flag, authzid', user, cn⟩ ⟨hf, by
    intro a ha
    dsimp only at ha
    cases authzid with
    | none => rw [ha] at hz; exact hz.elim
    | some z => rw [ha] at hz; exact ⟨z, hz⟩, ⟨name, hu⟩, hcn⟩
  rw [← this]
  congr 1
  simp only [ClientFirst.bytes, Spec.gs2Header, Spec.clientFirstBare, flagBytes_eq]
  unfold ClientFirst.gs2Parts
  cases authzid' <;> simp [Spec.authzidBytes]

/-! ## C27 -/

/-- The whole exchange: `r0`, `r2` and `r4` are the client's replies and `r1` and `r3` the
server's. The client is in any channel binding mode and the server has the same binding data; the
client has a password, a salted password or keys, and the server what belongs to them. The server's
callbacks are offered the names as written in the messages (see `C33`). -/
theorem C27 (d : Digest) (cenv senv : Env)
    -- what the two callbacks know
    (plus : CbSupport) (canCb : Bool) (flag : CbFlag) (data : Bytes)
    (name user : Str) (authzid authzid' : Option Str) (stored : StoredPassword) (ck sk : Bytes)
    (hname : cenv.Gives .authId name) (huser : Spec.WrittenAs name user)
    (hauthz : cenv.Offers .authzId authzid) (hauthz' : Spec.WrittenAsOpt authzid authzid')
    (hcb : Spec.ClientBinding cenv plus flag data)
    (hsb : Spec.ServerBinding senv canCb user authzid' flag data)
    (hkeys : Spec.ClientKeys d cenv stored.salt stored.iterations ck sk)
    (hit : stored.iterations ≠ 0)
    (hstored : stored.storedKey = d.hash ck ∧ stored.serverKey = sk)
    (hgiven : senv.GivesAt (Spec.scramOffer user authzid') .scramStoredPassword stored)
    -- the sessions and their steps
    (c0 c1 c2 c3 : Session CS) (s0 s1 s2 : Session SS)
    (hc0 : c0.st = some (.initial plus)) (hs0 : s0.st = some (.waitingClientFirst canCb))
    (in0 : Option Bytes) (w0 w1 w2 w3 w4 : List WResp)
    (hw : Cooperative w0 ∧ Cooperative w1 ∧ Cooperative w2 ∧ Cooperative w3 ∧ Cooperative w4)
    (r0 r1 r2 r3 r4 : Reply State)
    (h0 : c0.step (client d) cenv ⟨in0, w0⟩ = (r0, c1))
    (h1 : s0.step (server d) senv ⟨some r0.out, w1⟩ = (r1, s1))
    (h2 : c1.step (client d) cenv ⟨some r1.out, w2⟩ = (r2, c2))
    (h3 : s1.step (server d) senv ⟨some r2.out, w3⟩ = (r3, s2))
    (h4 : c2.step (client d) cenv ⟨some r3.out, w4⟩ = (r4, c3)) :
    r0.res = .ok .running ∧ r1.res = .ok .running ∧ r2.res = .ok .running ∧
    (∃ ctx out, ctx.Exactly (Spec.scramOffer user authzid') ∧
      EndsValidated senv s1 ctx (.finished .yes) out (r3, s2)) ∧
    s1.slot = s0.slot ∧ validations s1.log = validations s0.log ∧
    r4.res = .ok (.finished .no) ∧ r4.out = [] := by
  obtain ⟨hw0, hw1, hw2, hw3, hw4⟩ := hw
  have hu := escape_of_written huser
  have hz := escapedOpt_of_written hauthz'
  -- the client's first message
  obtain ⟨rfl, hc1, -, -, -⟩ := DoesR.step (m := client d) (c := ⟨in0, w0⟩) (by
    rw [hc0]; exact does_client_first hcb hauthz hz hname hu c0.rng in0) hw0 h0
  -- the server's first message
  have hcn := nonce_printable c0.rng nonceLen
  have hsn := nonce_printable s0.rng nonceLen
  generalize hcnd : ((List.range nonceLen).map c0.rng).map nonceChar = cn at *
  have hlen : (((List.range nonceLen).map s0.rng).map nonceChar).length = 24 := by simp [nonceLen]
  generalize hsnd : ((List.range nonceLen).map s0.rng).map nonceChar = sn at *
  have hp := parse_clientFirst (ServerBinding.valid hsb) hu hz hcn
  obtain ⟨hck, hsk⟩ := ClientKeys.lengths hkeys
  obtain ⟨rfl, hs1, -, hslot, hlog⟩ := DoesR.step (m := server d) (c := ⟨_, w1⟩) (by
    rw [hs0]; exact does_server_first hp hsb hgiven (by rw [hstored.1, d.hash_length])
      (by rw [hstored.2, hsk]) s0.rng) hw1 h1
  dsimp only at hs1 h2
  rw [hsnd, gs2Header_eq] at hs1
  rw [hsnd] at h2
  dsimp only at hs1 h2
  -- the client's final message
  have good : GoodServerFirst cn (Spec.serverFirst (cn ++ sn) (Base64.encode stored.salt)
      (Spec.storedCount stored)) sn (Base64.encode stored.salt) (Spec.storedCount stored) stored.salt
      stored.iterations := by
    refine ⟨rfl, ?_, ⟨?_, Base64.comma_notMem_encode _, comma_notMem_decimal _⟩,
      Base64.decode_encode _, ⟨_, rfl, parseU32_decimal _⟩, hit⟩
    · rintro rfl; cases hlen
    · intro hm
      rcases List.mem_append.1 hm with hm | hm
      · exact (hcn _ hm).2.2 rfl
      · exact (hsn _ hm).2.2 rfl
  obtain ⟨rfl, hc2, -, -, -⟩ := DoesR.step (m := client d) (c := ⟨_, w2⟩) (by
    rw [hc1]; exact (does_client_second good hkeys rfl).rng _) hw2 h2
  dsimp only at h3 hc2
  generalize hauth : Spec.authMessage (Spec.clientFirstBare user cn) (Spec.serverFirst (cn ++ sn)
    (Base64.encode stored.salt) (Spec.storedCount stored)) (Spec.clientFinalBare
      (Base64.encode (Spec.gs2Header flag authzid' ++ data)) (cn ++ sn)) = auth at *
  -- the server's verdict
  have hpf : ClientFinal.parse (Spec.clientFinalBare (Base64.encode (Spec.gs2Header flag authzid' ++
      data)) (cn ++ sn) ++ b!",p=" ++ Base64.encode (Spec.clientProof d ck auth)) =
      .ok ⟨Base64.encode (Spec.gs2Header flag authzid' ++ data), cn ++ sn,
        Base64.encode (Spec.clientProof d ck auth)⟩ := by
    rw [← (C34_client_final (Spec.gs2Header flag authzid' ++ data) (cn ++ sn)
      (Spec.clientProof d ck auth) (fun b hb => (List.mem_append.1 hb).elim (hcn b) (hsn b))).1]
    congr 1
    simp [ClientFinal.ioslices, Spec.clientFinalBare]
  have hj := judge_right (d := d) (ck := ck) (auth := auth) (f :=
    { clientNonce := cn, serverNonce := sn, gs2Header := Spec.gs2Header flag authzid' ++ data,
      username := user, authzid := authzid', salt := Base64.encode stored.salt,
      iterations := Spec.storedCount stored, storedKey := stored.storedKey,
      serverKey := stored.serverKey }) hck hstored.1 (by rw [← hauth, authMessage_eq])
  have h3' := (server_second_right (n := nonceLen) (env := senv) hs1 hpf hj hw3).1
  have e3 : s1.exec (serverStep d nonceLen senv (some (Spec.clientFinalBare (Base64.encode
      (Spec.gs2Header flag authzid' ++ data)) (cn ++ sn) ++ b!",p=" ++
      Base64.encode (Spec.clientProof d ck auth)))) w3 = (r3, s2) := h3
  rw [e3] at h3'
  -- the client's verdict
  have hout := h3'.out
  dsimp only at hout
  rw [hout] at h4
  rcases h5 : clientStep d nonceLen cenv (some (b!"v=" ++ Base64.encode (d.hmac stored.serverKey auth)))
    c2.st ⟨⟨[], w4⟩, c2.rng, c2.slot, c2.log⟩ with ⟨o, s', w'⟩
  rw [step_of (m := client d) h5] at h4
  cases h4
  rw [hc2] at h5
  obtain ⟨-, ⟨-, rfl, es, rfl, -⟩ | ⟨hne, -⟩⟩ := clientStep_third h5
  · exact ⟨rfl, rfl, rfl, ⟨_, _, serverProvider_exactly _ _, h3'⟩, hslot, hlog, rfl, rfl⟩
  · rw [hstored.2] at hne
    exact absurd rfl hne

/-! Environments that fit together, with channel binding, an authorization id and names that have
to be escaped. -/

def fitBinding (name : Str) : Option Bytes := if name = c!"tls-exporter" then some [1, 2, 3] else none

def fitClient : Env :=
  { exampleEnv [⟨.authId, c!"us,er"⟩, ⟨.authzId, c!"a=b"⟩, ⟨.password, b!"pencil"⟩] with
    chanbind := fitBinding }

def fitStored : StoredPassword :=
  ⟨4096, [0, 0, 0], toyDigest.hash (Spec.clientKey toyDigest (toyDigest.pbkdf2 (b!"pencil") [0, 0, 0] 4096)),
    Spec.serverKey toyDigest (toyDigest.pbkdf2 (b!"pencil") [0, 0, 0] 4096)⟩

def fitServer : Env :=
  { exampleEnv [⟨.scramStoredPassword, fitStored⟩] with chanbind := fitBinding }

theorem fitWritten : Spec.WrittenAs (c!"us,er") (c!"us=2Cer") :=
  ⟨by decide, .other _ (by decide) (by decide) (by decide) (.other _ (by decide) (by decide)
    (by decide) (.comma (.other _ (by decide) (by decide) (by decide) (.other _ (by decide)
    (by decide) (by decide) .nil))))⟩

theorem fitWritten' : Spec.WrittenAsOpt (some (c!"a=b")) (some (c!"a=3Db")) :=
  ⟨by decide, .other _ (by decide) (by decide) (by decide) (.equals (.other _ (by decide)
    (by decide) (by decide) .nil))⟩

theorem fit_gives {p : Property} {v : p.Value} {pvs : List PV} (pre post : List PV)
    (h : pvs = pre ++ ⟨p, v⟩ :: post) (hpre : ∀ pv ∈ pre, pv.prop ≠ p) :
    ({ exampleEnv pvs with chanbind := fitBinding } : Env).Gives p v :=
  fun _ _ => answers_answerAll pvs pre post h hpre

theorem fit_lacks {p : Property} {pvs : List PV} (h : ∀ pv ∈ pvs, pv.prop ≠ p) :
    ({ exampleEnv pvs with chanbind := fitBinding } : Env).Lacks p :=
  fun _ _ => declines_answerAll pvs h

/-- All hypotheses of `C27` about the callbacks together. -/
example : fitClient.Gives .authId (c!"us,er") ∧ Spec.WrittenAs (c!"us,er") (c!"us=2Cer") ∧
    fitClient.Offers .authzId (some (c!"a=b")) ∧
    Spec.WrittenAsOpt (some (c!"a=b")) (some (c!"a=3Db")) ∧
    Spec.ClientBinding fitClient .supported (.used (b!"tls-exporter")) [1, 2, 3] ∧
    Spec.ServerBinding fitServer true (c!"us=2Cer") (some (c!"a=3Db")) (.used (b!"tls-exporter"))
      [1, 2, 3] ∧
    Spec.ClientKeys toyDigest fitClient fitStored.salt fitStored.iterations
      (Spec.clientKey toyDigest (toyDigest.pbkdf2 (b!"pencil") [0, 0, 0] 4096)) fitStored.serverKey ∧
    fitServer.GivesAt (Spec.scramOffer (c!"us=2Cer") (some (c!"a=3Db"))) .scramStoredPassword
      fitStored := by
  refine ⟨fit_gives [] _ rfl nofun, fitWritten, fit_gives [_] _ rfl (by simp), fitWritten', ?_, ?_, ?_,
    (fit_gives [] _ rfl nofun).at _⟩
  · exact ⟨c!"tls-exporter", rfl, .inl rfl, .inr (.inl ⟨fit_lacks (by simp), rfl⟩)⟩
  · exact ⟨c!"tls-exporter", rfl, ⟨by decide, by decide⟩, .inl rfl⟩
  · exact .inr ⟨(fit_lacks (by simp)).at _, .inr ⟨(fit_lacks (by simp)).at _, _,
      (fit_gives [_, _] _ rfl (by simp)).at _, rfl, rfl⟩⟩

/-- And the exchange itself, with the results of the five steps. -/
example :
    let x0 := Session.step (client toyDigest) fitClient ⟨clientNewPlus, none, fun i => i, []⟩ ⟨none, []⟩
    let y0 := Session.step (server toyDigest) fitServer ⟨serverNewPlus, none, fun i => i + 5, []⟩
      ⟨some x0.1.out, []⟩
    let x1 := x0.2.step (client toyDigest) fitClient ⟨some y0.1.out, []⟩
    let y1 := y0.2.step (server toyDigest) fitServer ⟨some x1.1.out, []⟩
    let x2 := x1.2.step (client toyDigest) fitClient ⟨some y1.1.out, []⟩
    [x0.1.res, y0.1.res, x1.1.res, y1.1.res, x2.1.res] =
      [.ok .running, .ok .running, .ok .running, .ok (.finished .yes), .ok (.finished .no)] := by
  decide +kernel

/-! ## C33 -/

/-- Whatever the server's callbacks are called with, for anything, offers the names of the
client-first message as they are written there. -/
theorem server_names (d : Digest) (env : Env) (ses : Session SS) (canCb : Bool)
    (hst : ses.st = some (.waitingClientFirst canCb)) (b : Bytes) (msg : ClientFirst)
    (hp : ClientFirst.parse b = .ok msg) (w : List WResp) (calls : List Call) :
    ∃ es, (ses.run (server d) env (⟨some b, w⟩ :: calls)).2.log = ses.log ++ es ∧
      ∀ e ∈ es, ∀ ctx, Spec.Shown ctx e →
        ctx.getRef .authId = some msg.username ∧ ctx.getRef .authzId = msg.authzid := by
  have hprov : ∀ ctx, ctx = serverProvider msg.username msg.authzid →
      ctx.getRef .authId = some msg.username ∧ ctx.getRef .authzId = msg.authzid := by
    rintro _ rfl
    exact ⟨serverProvider_exactly _ _ .authId, serverProvider_exactly _ _ .authzId⟩
  have hl := serverStep_first_events
    (L := fun e => ∀ ctx, Spec.Shown ctx e →
        ctx.getRef .authId = some msg.username ∧ ctx.getRef .authzId = msg.authzid)
    d nonceLen env (some b) canCb ⟨⟨[], w⟩, ses.rng, ses.slot, ses.log⟩ (by
      intro b' msg' hb hp'
      cases hb
      rw [hp] at hp'
      cases hp'
      refine ⟨fun name => ⟨?_, fun _ _ h => h.elim, fun _ _ h => h.elim⟩,
        ⟨fun ctx h => hprov _ h.symm, fun _ _ h => h.elim, fun _ _ h => h.elim⟩⟩
      rintro _ rfl
      exact ⟨bindingCtx_server _ _ _ .authId, bindingCtx_server _ _ _ .authzId⟩)
  obtain ⟨⟨es0, l0, a0⟩, h3⟩ := hl
  rcases hs : serverStep d nonceLen env (some b) (some (.waitingClientFirst canCb))
    ⟨⟨[], w⟩, ses.rng, ses.slot, ses.log⟩ with ⟨o, s', w'⟩
  rw [hs] at l0 h3
  have h0 := step_of (m := server d) (env := env) (ses := ses) (c := ⟨some b, w⟩) (o := o)
    (s' := s') (w' := w') (by rw [hst]; exact hs)
  rw [run_cons, h0]
  dsimp only at l0 h3 ⊢
  have hstop : s' = none → (Session.run (server d) env ⟨s', w'.slot, w'.rng, w'.log⟩ calls).2.log =
      ses.log ++ es0 := fun h => ((server_over d env _ (.inl h) calls).2.1).trans l0
  cases o with
  | err e => exact ⟨es0, hstop (h3 nofun), a0⟩
  | panic => exact ⟨es0, hstop (h3 nofun), a0⟩
  | ok st =>
    obtain ⟨rfl, new, b', msg', data, snonce, salt64, it64, o, sched, es', rfl, k⟩ :=
      serverStep_first_ok hs
    have hb := k.hinput
    cases hb
    have hm := k.hparse
    rw [hp] at hm
    cases hm
    cases calls with
    | nil => exact ⟨es0, l0, a0⟩
    | cons c1 cs =>
      rcases h1 : Session.step (server d) env ⟨some new, w'.slot, w'.rng, w'.log⟩ c1 with ⟨r1, s1⟩
      rw [run_cons, h1]
      dsimp only
      rcases k.hknown with ⟨rfl, -⟩ | ⟨stored, -, -, -, -, -, -, -, rfl⟩
      · obtain ⟨ov, l1, -⟩ := server_unknown d env _ rfl c1 r1 s1 h1
        exact ⟨es0, (server_over d env s1 ov cs).2.1.trans (l1.trans l0), a0⟩
      · obtain ⟨ov, ⟨l1, -⟩ | ⟨b, auth, exts, given, proof, es1, i1, ha, hpr, o1, o2, hfin, hq, l1⟩⟩ :=
          server_second d env _ _ stored rfl rfl rfl c1 r1 s1 h1
        · exact ⟨es0, (server_over d env s1 ov cs).2.1.trans (l1.trans l0), a0⟩
        · refine ⟨es0 ++ .validated (serverProvider msg.username msg.authzid) :: es1, ?_, ?_⟩
          · rw [(server_over d env s1 ov cs).2.1, l1]
            dsimp only
            rw [l0, List.append_assoc]
          · intro e he ctx hc
            rcases List.mem_append.1 he with he | he
            · exact a0 e he ctx hc
            · rcases List.mem_cons.1 he with rfl | he
              · exact hprov _ hc.symm
              · obtain ⟨t, rfl⟩ := hq e he
                exact hc.elim

/-- The client's names arrive at every callback of the server as they are written in the message,
whatever happens after the client's first message. -/
theorem C33_written (d : Digest) (cenv senv : Env) (plus : CbSupport) (canCb : Bool)
    (flag : CbFlag) (data : Bytes) (name user : Str) (authzid authzid' : Option Str)
    (hname : cenv.Gives .authId name) (huser : Spec.WrittenAs name user)
    (hauthz : cenv.Offers .authzId authzid) (hauthz' : Spec.WrittenAsOpt authzid authzid')
    (hcb : Spec.ClientBinding cenv plus flag data) (hflag : Spec.GoodFlag flag)
    (cses cses' : Session CS) (hc : cses.st = some (.initial plus)) (input : Option Bytes)
    (w : List WResp) (hw : Cooperative w) (r : Reply State)
    (h : cses.step (client d) cenv ⟨input, w⟩ = (r, cses'))
    (ses : Session SS) (hst : ses.st = some (.waitingClientFirst canCb)) (w' : List WResp)
    (calls : List Call) :
    ∃ es, (ses.run (server d) senv (⟨some r.out, w'⟩ :: calls)).2.log = ses.log ++ es ∧
      ∀ e ∈ es, ∀ ctx, Spec.Shown ctx e →
        ctx.getRef .authId = some user ∧ ctx.getRef .authzId = authzid' := by
  have hz := escapedOpt_of_written hauthz'
  obtain ⟨rfl, -⟩ := DoesR.step (m := client d) (c := ⟨input, w⟩) (by
    rw [hc]; exact does_client_first hcb hauthz hz hname (escape_of_written huser) cses.rng input) hw h
  refine server_names d senv ses canCb hst _ ⟨flag, authzid', user, _⟩
    (parse_clientFirst ?_ (escape_of_written huser) hz (nonce_printable _ _)) w' calls
  cases flag with
  | used n => obtain ⟨s, rfl, hs⟩ := hflag; exact (BindingName.ascii hs).2
  | _ => trivial

/-- Names without ',' and '=' arrive as the client's callback supplied them.

Missing to the full statement: names with ',' or '=', which arrive escaped (`C33_written`,
`C33_false`). -/
theorem C33_partial (d : Digest) (cenv senv : Env) (plus : CbSupport) (canCb : Bool)
    (flag : CbFlag) (data : Bytes) (name user : Str) (authzid authzid' : Option Str)
    (hname : cenv.Gives .authId name) (huser : Spec.WrittenAs name user)
    (hauthz : cenv.Offers .authzId authzid) (hauthz' : Spec.WrittenAsOpt authzid authzid')
    (hplain : Spec.PlainName name) (hplain' : ∀ z, authzid = some z → Spec.PlainName z)
    (hcb : Spec.ClientBinding cenv plus flag data) (hflag : Spec.GoodFlag flag)
    (cses cses' : Session CS) (hc : cses.st = some (.initial plus)) (input : Option Bytes)
    (w : List WResp) (hw : Cooperative w) (r : Reply State)
    (h : cses.step (client d) cenv ⟨input, w⟩ = (r, cses'))
    (ses : Session SS) (hst : ses.st = some (.waitingClientFirst canCb)) (w' : List WResp)
    (calls : List Call) :
    ∃ es, (ses.run (server d) senv (⟨some r.out, w'⟩ :: calls)).2.log = ses.log ++ es ∧
      ∀ e ∈ es, ∀ ctx, Spec.Shown ctx e →
        ctx.getRef .authId = some name ∧ ctx.getRef .authzId = authzid := by
  have hpl : ∀ {x y : Str}, Spec.WrittenAs x y → Spec.PlainName x → x = y := by
    intro x y h1 h2
    have h3 := escape_of_written h1
    rw [C32_plain x h1.1 (Spec.Escapes.nul h1.2) h2.1 h2.2] at h3
    cases h3
    rfl
  have h1 := hpl huser hplain
  subst h1
  have h2 : authzid = authzid' := by
    cases authzid <;> cases authzid' <;> first | rfl | exact hauthz'.elim | skip
    rw [hpl hauthz' (hplain' _ rfl)]
  subst h2
  exact C33_written d cenv senv plus canCb flag data name name authzid authzid hname huser hauthz
    hauthz' hcb hflag cses cses' hc input w hw r h ses hst w' calls

theorem Spec.Escapes.length_le {name text : Str} (h : Spec.Escapes name text) :
    name.length ≤ text.length := by
  induction h <;> simp only [List.length_nil, List.length_cons] <;> omega

theorem Spec.Escapes.eq_iff {name text : Str} (h : Spec.Escapes name text) :
    text = name ↔ Spec.PlainName name := by
  induction h with
  | nil => simp [Spec.PlainName]
  | comma h =>
    refine ⟨fun e => ?_, fun e => absurd (List.mem_cons_self ..) e.1⟩
    simp at e
  | equals h =>
    refine ⟨fun e => ?_, fun e => absurd (List.mem_cons_self ..) e.2⟩
    have := congrArg List.length e
    have := h.length_le
    simp only [List.length_cons] at *
    omega
  | other c h1 h2 h3 h ih =>
    simp only [List.cons.injEq, true_and, ih, Spec.PlainName, List.mem_cons, Ne.symm h1, Ne.symm h2,
      false_or]

/-- C33 exactly: what the server's callbacks are shown is the name the client was given if and only if the
name has neither ',' nor '='; the same for the authorization identity. -/
theorem C33_exact (d : Digest) (cenv senv : Env) (plus : CbSupport) (canCb : Bool)
    (flag : CbFlag) (data : Bytes) (name user : Str) (authzid authzid' : Option Str)
    (hname : cenv.Gives .authId name) (huser : Spec.WrittenAs name user)
    (hauthz : cenv.Offers .authzId authzid) (hauthz' : Spec.WrittenAsOpt authzid authzid')
    (hcb : Spec.ClientBinding cenv plus flag data) (hflag : Spec.GoodFlag flag)
    (cses cses' : Session CS) (hc : cses.st = some (.initial plus)) (input : Option Bytes)
    (w : List WResp) (hw : Cooperative w) (r : Reply State)
    (h : cses.step (client d) cenv ⟨input, w⟩ = (r, cses'))
    (ses : Session SS) (hst : ses.st = some (.waitingClientFirst canCb)) (w' : List WResp)
    (calls : List Call) :
    ∃ es, (ses.run (server d) senv (⟨some r.out, w'⟩ :: calls)).2.log = ses.log ++ es ∧
      ∀ e ∈ es, ∀ ctx, Spec.Shown ctx e →
        (ctx.getRef .authId = some name ↔ Spec.PlainName name) ∧
        (ctx.getRef .authzId = authzid ↔ ∀ z, authzid = some z → Spec.PlainName z) := by
  obtain ⟨es, h1, h2⟩ := C33_written d cenv senv plus canCb flag data name user authzid authzid'
    hname huser hauthz hauthz' hcb hflag cses cses' hc input w hw r h ses hst w' calls
  refine ⟨es, h1, fun e he ctx hs => ?_⟩
  obtain ⟨h3, h4⟩ := h2 e he ctx hs
  rw [h3, h4]
  refine ⟨by rw [Option.some.injEq]; exact huser.2.eq_iff, ?_⟩
  cases authzid <;> cases authzid' <;> first | exact hauthz'.elim | skip
  · simp
  · have := Spec.Escapes.eq_iff (And.right hauthz')
    simp only [Option.some.injEq, this, forall_eq']

def showsAuthid (name : Str) : Event → Bool
  | .asked _ ctx => decide (ctx.getRef .authId = some name)
  | _ => false

/-- A name with a comma does not arrive as it was supplied: the server's
callback is asked for the stored password of another name. -/
theorem C33_false : ¬ ∀ (d : Digest) (cenv senv : Env) (plus : CbSupport) (canCb : Bool)
    (flag : CbFlag) (data : Bytes) (name user : Str) (authzid authzid' : Option Str),
    cenv.Gives .authId name → Spec.WrittenAs name user →
    cenv.Offers .authzId authzid → Spec.WrittenAsOpt authzid authzid' →
    Spec.ClientBinding cenv plus flag data → Spec.GoodFlag flag →
    ∀ cses cses' : Session CS, cses.st = some (.initial plus) → ∀ (input : Option Bytes)
    (w : List WResp), Cooperative w → ∀ r : Reply State,
    cses.step (client d) cenv ⟨input, w⟩ = (r, cses') →
    ∀ ses : Session SS, ses.st = some (.waitingClientFirst canCb) → ∀ (w' : List WResp)
    (calls : List Call),
    ∃ es, (ses.run (server d) senv (⟨some r.out, w'⟩ :: calls)).2.log = ses.log ++ es ∧
      ∀ e ∈ es, ∀ ctx, Spec.Shown ctx e →
        ctx.getRef .authId = some name ∧ ctx.getRef .authzId = authzid := by
  intro h
  rcases hs : Session.step (client toyDigest) fitClient ⟨clientNewPlus, none, fun i => i, []⟩ ⟨none, []⟩
    with ⟨r, cses'⟩
  have hp : ∃ e ∈ (Session.run (server toyDigest) fitServer ⟨serverNewPlus, none, fun i => i, []⟩
      [⟨some r.out, []⟩]).2.log, showsAuthid (c!"us=2Cer") e = true := by
    rw [← List.any_eq_true, show r = (Session.step (client toyDigest) fitClient
      ⟨clientNewPlus, none, fun i => i, []⟩ ⟨none, []⟩).1 by rw [hs]]
    decide +kernel
  obtain ⟨es, h1, h2⟩ := h toyDigest fitClient fitServer .supported true (.used (b!"tls-exporter"))
    [1, 2, 3] _ _ (some (c!"a=b")) _ (fit_gives [] _ rfl nofun) fitWritten
    (fit_gives (p := .authzId) (v := c!"a=b") [⟨.authId, c!"us,er"⟩] _ rfl (by simp))
    fitWritten' ⟨c!"tls-exporter", rfl, .inl rfl, .inr (.inl ⟨fit_lacks (by simp), rfl⟩)⟩
    ⟨c!"tls-exporter", rfl, by decide, by decide⟩ _ _ rfl none [] (by simp [Cooperative]) r hs
    ⟨serverNewPlus, none, fun i => i, []⟩ rfl [] []
  rw [h1] at hp
  obtain ⟨e, he, hp⟩ := hp
  cases e with
  | asked p ctx =>
    have hp : ctx.getRef .authId = some (c!"us=2Cer") := of_decide_eq_true hp
    have := (h2 _ he _ rfl).1
    rw [hp] at this
    exact absurd this (by decide)
  | _ => cases hp

end Rsasl

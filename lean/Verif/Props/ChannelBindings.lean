/-
C71: channel bindings, from the callback that has the data to the end of the exchange.
-/
import Verif.Model.ChannelBindings
import Verif.Props.EndToEnd
import Verif.Props.Preference

namespace Rsasl

open Spec

/-! ## The callbacks -/

variable {S G : Type}

/-- C71, the test `test_this_cb` (src/channel_bindings.rs:51-88) for all names and data: the data is
given to whoever asks for the name it is for, and to no one else; the application's callback is asked
only in the second case. -/
theorem C71_this_cb (env : Env) (cb : ThisCb) (cbname : Str) (prov : Provider) (f : Bytes → M S G)
    (s : S) (w : World) :
    (cbname = cb.name →
      needCbData (env.withCb cb.getCbData) cbname prov f s w = f cb.value s w) ∧
    (cbname ≠ cb.name →
      needCbData (env.withCb cb.getCbData) cbname prov f s w =
        needCbData (env.withCb noChannelBindings) cbname prov f s w) := by
  constructor
  · rintro rfl
    have hc : (env.withCb cb.getCbData).chanbind cb.name = some cb.value := if_pos rfl
    unfold needCbData maybeNeedCbData
    simp only [hc]
    rcases hf : f cb.value s w with ⟨o, s', w'⟩
    cases o with
    | ok g => rw [M.bind_ok (M.bind_ok hf)]; rfl
    | err e => rw [M.bind_err (M.bind_err hf)]
    | panic => rw [M.bind_panic (M.bind_panic hf)]
  · intro h
    have hc : (env.withCb cb.getCbData).chanbind cbname = none := if_neg fun he => h he.symm
    have hn : (env.withCb noChannelBindings).chanbind cbname = none := rfl
    unfold needCbData maybeNeedCbData
    simp only [hc, hn]
    rfl

/-- C71: with no data from either side, the error names the binding asked for, and `f` is not run. -/
theorem C71_no_data (env : Env) (cb : ThisCb) (cbname : Str) (h : cbname ≠ cb.name)
    (hl : env.LacksAt (bindingOffer cbname none none) .channelBindings) (f : Bytes → M S G) (s : S)
    (w : World) :
    ∃ w', needCbData (env.withCb cb.getCbData) cbname .empty f s w =
        (.err (.missingChannelBindingData cbname), s, w') ∧
      w'.wr.out = w.wr.out ∧ w'.rng = w.rng ∧ w'.slot = w.slot ∧
      validations w'.log = validations w.log := by
  obtain ⟨es, sched, hs, hv, hd⟩ := Scram.does_noCbData (S := S) (G := G) (C := fun _ => True)
    (env := env.withCb cb.getCbData) (name := cbname) (a := none) (z := none)
    ⟨if_neg fun he => h he.symm, hl⟩ (Scram.bindingCtx_empty _) f s w trivial
  refine ⟨⟨⟨w.wr.out ++ [], sched⟩, w.rng, w.slot, w.log ++ es⟩, ?_, by simp, rfl, rfl, ?_⟩
  · unfold needCbData
    rw [M.bind_ok hd]
    exact M.okOr_none ..
  · dsimp only
    rw [validations_append, hv, List.append_nil]

/-- An application that has nothing to say. -/
def silentEnv : Env where
  callback _ _ _ := answerAll []
  validate _ _ _ := .ret (.ok ())
  chanbind _ := none
  vtag := 0
  sd := ⟨⟨b!"X", 0, .client⟩, .server⟩

/-- The test's two names. -/
example : ∃ w', needCbData (silentEnv.withCb
      (ThisCb.getCbData ⟨c!"this-cb", b!"foobar"⟩)) (c!"blahblubb") .empty
      (fun _ => (M.panic : M Unit Unit)) () ⟨⟨[], []⟩, id, none, []⟩ =
    (.err (.missingChannelBindingData (c!"blahblubb")), (), w') := by
  obtain ⟨w', h, -⟩ := C71_no_data silentEnv
    ⟨c!"this-cb", b!"foobar"⟩ (c!"blahblubb") (by decide) (fun _ _ _ => .ok)
    (fun _ => (M.panic : M Unit Unit)) () ⟨⟨[], []⟩, id, none, []⟩
  exact ⟨w', h⟩

/-! ## Negotiation -/

/-- C71: a client with channel binding enabled and a `-PLUS` mechanism on a SHA-2 hash, talking to a
server that has the same mechanism, starts a `-PLUS` mechanism on a SHA-2 hash; the server starts its
side of the same one. Whatever else the two have does not matter. -/
theorem C71_start (cc sc : Config) (hcs : ∀ m ∈ cc.mechs, m ∈ shipped)
    (hss : ∀ m ∈ sc.mechs, m ∈ shipped) (hp : cc.prefer = defaultPrefer) (he : cc.enableCb = true)
    (hash : Hash) (hsha : hash ≠ .sha1) (hc : SCRAMPLUS hash ∈ cc.mechs)
    (hs : SCRAMPLUS hash ∈ sc.mechs) :
    ∃ h : Hash, h ≠ .sha1 ∧ SCRAMPLUS h ∈ cc.mechs ∧ SCRAMPLUS h ∈ sc.mechs ∧
      cc.clientStart (sc.getAvailable.map (·.name)) = .ok (.scramClientPlus h, SCRAMPLUS h) ∧
      sc.serverStart h.plusName = .ok (.scramServerPlus h, SCRAMPLUS h) := by
  have hoff : ∀ n, n ∈ sc.getAvailable.map (·.name) ↔ ∃ m ∈ sc.mechs, m.name = n := by
    intro n
    simp only [List.mem_map, (C05_available sc).1]
    constructor
    · rintro ⟨m, ⟨h1, _⟩, h2⟩
      exact ⟨m, h1, h2⟩
    · rintro ⟨m, h1, h2⟩
      obtain ⟨f, hf, _⟩ := shipped_server (hss m h1)
      exact ⟨m, ⟨h1, by rw [hf]; nofun⟩, h2⟩
  have hu : Usable cc.enableCb (sc.getAvailable.map (·.name)) (SCRAMPLUS hash) :=
    show cc.enableCb = true ∧ hash.plusName ∈ _ from ⟨he, (hoff _).2 ⟨_, hs, rfl⟩⟩
  rcases C66_starts cc hcs (sc.getAvailable.map (·.name)) with ⟨a, m, hst⟩ | hno
  · obtain ⟨hm, hbest⟩ := clientStart_best (shipped_known hcs) hp hst
    have hpr := hbest _ hc hu
    have hpr' : 700 ≤ m.priority := by
      refine Nat.le_trans ?_ hpr
      cases hash with
      | sha1 => exact absurd rfl hsha
      | sha256 => exact Nat.le_refl _
      | sha512 => exact Nat.le_refl _
    have hplus : m = SCRAMPLUS .sha256 ∨ m = SCRAMPLUS .sha512 := by
      have := hcs m hm
      simp only [shipped, List.mem_cons, List.not_mem_nil, or_false] at this
      rcases this with rfl | rfl | rfl | rfl | rfl | rfl | rfl | rfl | rfl | rfl | rfl | rfl | rfl
      all_goals first
        | exact .inl rfl
        | exact .inr rfl
        | exact absurd hpr' (by decide)
    have key : ∀ h : Hash, h ≠ .sha1 → m = SCRAMPLUS h →
        ∃ h : Hash, h ≠ .sha1 ∧ SCRAMPLUS h ∈ cc.mechs ∧ SCRAMPLUS h ∈ sc.mechs ∧
          cc.clientStart (sc.getAvailable.map (·.name)) = .ok (.scramClientPlus h, SCRAMPLUS h) ∧
          sc.serverStart h.plusName = .ok (.scramServerPlus h, SCRAMPLUS h) := by
      rintro h hne rfl
      obtain ⟨pre, post, heq, hum, -⟩ := C03_priority cc (shipped_known hcs) hp _ a _ hst
      obtain ⟨m', hm', hn⟩ := (hoff h.plusName).1 hum.2
      have hsh : SCRAMPLUS h ∈ shipped := hcs _ hm
      have : m' = SCRAMPLUS h := shipped_name (hss m' hm') hsh hn
      subst this
      refine ⟨h, hne, hm, hm', ?_, serverStart_shipped hss hm' rfl rfl⟩
      rw [hst]
      have ha := (clientStart_ok (shipped_known hcs) hst).2.2.2
      have ha' : a = .scramClientPlus h := by
        have : Spec.authFor cc.enableCb (sc.getAvailable.map (·.name)) (SCRAMPLUS h) =
          .ok (.scramClientPlus h) := rfl
        rw [this] at ha
        cases ha
        rfl
      rw [ha']
    rcases hplus with h | h
    · exact key .sha256 nofun h
    · exact key .sha512 nofun h
  · exfalso
    have hall : cc.AllStart := fun m hm => by
      have := hcs m hm
      simp only [shipped, List.mem_cons, List.not_mem_nil, or_false] at this
      rcases this with rfl | rfl | rfl | rfl | rfl | rfl | rfl | rfl | rfl | rfl | rfl | rfl | rfl
      all_goals exact ⟨_, rfl⟩
    exact (C04_no_shared cc (shipped_known hcs) hall hp _).1.1 hno _ hc hu

/-- Everything the crate has, on both sides. -/
example : ∃ h : Hash, Config.clientStart { mechs := shipped, enableCb := true, prefer := defaultPrefer }
    ((Config.getAvailable { mechs := shipped, enableCb := true, prefer := defaultPrefer }).map (·.name)) =
      .ok (.scramClientPlus h, SCRAMPLUS h) := by
  obtain ⟨h, -, -, -, h1, -⟩ := C71_start
    { mechs := shipped, enableCb := true, prefer := defaultPrefer }
    { mechs := shipped, enableCb := true, prefer := defaultPrefer } (fun _ h => h) (fun _ h => h) rfl rfl
    .sha256 nofun (by simp [shipped]) (by simp [shipped])
  exact ⟨h, h1⟩

/-- For SHA-1 it is different: its `-PLUS` mechanism is not chosen if the client also has SCRAM without
binding on another hash. -/
theorem C71_sha1 : ∃ cc sc : Config, (∀ m ∈ cc.mechs, m ∈ shipped) ∧ (∀ m ∈ sc.mechs, m ∈ shipped) ∧
    cc.prefer = defaultPrefer ∧ cc.enableCb = true ∧ SCRAMPLUS .sha1 ∈ cc.mechs ∧
    SCRAMPLUS .sha1 ∈ sc.mechs ∧
    cc.clientStart (sc.getAvailable.map (·.name)) =
      .ok (.scramClient .sha256 false, SCRAM .sha256) := by
  refine ⟨{ mechs := [SCRAMPLUS .sha1, SCRAM .sha256], enableCb := true, prefer := defaultPrefer },
    { mechs := [SCRAMPLUS .sha1, SCRAM .sha256], enableCb := true, prefer := defaultPrefer }, ?_, ?_,
    rfl, rfl, by simp, by simp, rfl⟩
  · intro m hm
    simp only [List.mem_cons, List.not_mem_nil, or_false] at hm
    rcases hm with rfl | rfl <;> simp [shipped]
  · intro m hm
    simp only [List.mem_cons, List.not_mem_nil, or_false] at hm
    rcases hm with rfl | rfl <;> simp [shipped]

/-! ## The exchange -/

/-- The client uses the binding named `name`: the application says so, or it says nothing and the name
is one of the two that are tried. -/
def Uses (env : Env) (name : Str) : Prop :=
  env.Gives .overrideCBType name ∨
  (env.Lacks .overrideCBType ∧
    (name = c!"tls-exporter" ∨ (name = c!"tls-unique" ∧ env.Lacks .channelBindings)))

theorem Uses.binding {env : Env} {name : Str} (h : Uses env name) (value : Bytes) :
    ClientBinding (env.withCb (ThisCb.getCbData ⟨name, value⟩)) .supported (.used (Str.bytes name))
      value := by
  refine ⟨name, rfl, .inl (if_pos rfl), ?_⟩
  rcases h with h | ⟨h, rfl | ⟨rfl, h'⟩⟩
  · exact .inl h
  · exact .inr (.inl ⟨h, rfl⟩)
  · exact .inr (.inr ⟨h, ⟨show (if (c!"tls-unique") = (c!"tls-exporter") then some value else none) = none from
      if_neg (by decide), fun l c _ => h' l c⟩, rfl⟩)

/-- C71, the exchange: both sides have the same data for the binding the client uses, from callbacks
that have nothing else; they finish, and the server has the application's value. -/
theorem C71_exchange (deps : Deps) (h : Hash) (cenv senv : Env) (name : Str) (value : Bytes)
    (hname : BindingName name) (huse : Uses cenv name)
    (authzid authzid' : Option Str) (authid authid' : Str) (stored : StoredPassword) (ck sk : Bytes)
    (hg : cenv.Gives .authId authid) (hn : WrittenAs authid authid')
    (hz : cenv.Offers .authzId authzid) (hz' : WrittenAsOpt authzid authzid')
    (hkeys : ClientKeys (deps.digest h) cenv stored.salt stored.iterations ck sk)
    (hit : stored.iterations ≠ 0)
    (hstored : stored.storedKey = (deps.digest h).hash ck ∧ stored.serverKey = sk)
    (hst : senv.GivesAt (scramOffer authid' authzid') .scramStoredPassword stored)
    (v : VVal) (hv : Accepts senv (scramOffer authid' authzid') v)
    (client server : Started) (hcs : Auth.startClient deps (.scramClientPlus h) = some client)
    (hss : Auth.startServer deps (.scramServerPlus h) = some server) :
    Completes 3 .client client server (cenv.withCb (ThisCb.getCbData ⟨name, value⟩))
      (senv.withCb (ThisCb.getCbData ⟨name, value⟩)) v := by
  intro crng srng ws hl hw
  obtain ⟨w0, w1, w2, w3, w4, rfl⟩ := list_five hl
  cases hcs
  cases hss
  generalize hce : cenv.withCb (ThisCb.getCbData ⟨name, value⟩) = ce
  generalize hse : senv.withCb (ThisCb.getCbData ⟨name, value⟩) = se
  rcases h0 : Session.step (Scram.client (deps.digest h)) ce
    { st := Scram.clientNewPlus, rng := crng } ⟨none, w0⟩ with ⟨r0, c1⟩
  rcases h1 : Session.step (Scram.server (deps.digest h)) se
    { st := Scram.serverNew true, rng := srng } ⟨some r0.out, w1⟩ with ⟨r1, s1⟩
  rcases h2 : Session.step (Scram.client (deps.digest h)) ce c1 ⟨some r1.out, w2⟩ with ⟨r2, c2⟩
  rcases h3 : Session.step (Scram.server (deps.digest h)) se s1 ⟨some r2.out, w3⟩ with ⟨r3, s2⟩
  rcases h4 : Session.step (Scram.client (deps.digest h)) ce c2 ⟨some r3.out, w4⟩ with ⟨r4, c3⟩
  obtain ⟨e0, e1, e2, ⟨ctx, out, hx, he⟩, hslot, -, e4, -⟩ :=
    C27 (deps.digest h) ce se .supported true (.used (Str.bytes name)) value authid authid'
      authzid authzid' stored ck sk (by rw [← hce]; exact hg) hn (by rw [← hce]; exact hz) hz'
      (by rw [← hce]; exact huse.binding value)
      (by rw [← hse]; exact ⟨name, rfl, hname, .inl (if_pos rfl)⟩)
      (by rw [← hce]; exact hkeys) hit hstored (by rw [← hse]; exact hst) _ _ _ _ _ _ _
      rfl rfl none w0 w1 w2 w3 w4 ⟨hw _ (by simp), hw _ (by simp), hw _ (by simp), hw _ (by simp),
        hw _ (by simp)⟩ r0 r1 r2 r3 r4 h0 h1 h2 h3 h4
  obtain ⟨e3, hv'⟩ := he.accepted hx (v := v) (by rw [← hse]; exact hv) hslot
  have ht := talk_five (A := Scram.client (deps.digest h)) (B := Scram.server (deps.digest h))
    h0 h1 h2 h3 h4
  show (talk _ _ ⟨_, _, _⟩ ⟨_, _, _⟩).1.map (·.res) = _ ∧ (talk _ _ ⟨_, _, _⟩ ⟨_, _, _⟩).2.2.ses.slot = _
  erw [ht]
  exact ⟨five e0 e1 e2 e3 e4, hv'⟩

/-- The server finds other data in the client's message than it has itself. -/
theorem does_server_mismatch {d : Scram.Digest} {n : Nat} {env : Env} {f : Scram.FinalInner} {b cb nonce : Bytes}
    {proof : Bytes} (hp : Scram.ClientFinal.parse b = .ok ⟨Base64.encode cb, nonce, proof⟩)
    (hne : f.gs2Header ≠ cb) :
    Does Cooperative (Scram.serverStep d n env (some b)) (some (.waitingClientFinal (some f)))
      (.finished .yes) (some .finished) (b!"e=channel-bindings-dont-match") := by
  have hC := cooperative_closed
  have hj : Scram.judge d (some f) ⟨Base64.encode cb, nonce, proof⟩ =
      .ok (.error .channelBindingsDontMatch) := by
    unfold Scram.judge
    dsimp only
    rw [Base64.decode_encode]
    exact if_pos hne
  unfold Scram.serverStep
  refine Does.bind' hC (Does.get _ _) ?_ (List.nil_append _).symm
  refine Does.bind' hC (Does.set _ _ _) ?_ (List.nil_append _).symm
  refine Does.bind' hC (Does.okOr _ _ _ _) ?_ (List.nil_append _).symm
  refine Does.bind' hC (s' := none) (a := ()) (o₂ := []) ?_
    (Does.bind' hC (Does.set _ _ _) (Does.pure _ _ _) rfl) (List.append_nil _).symm
  unfold Scram.handleClientFinal
  rw [hp]
  refine Does.bind' hC (Does.liftOutcome _ _ _) ?_ (List.nil_append _).symm
  rw [hj]
  refine Does.bind' hC (Does.lift _ _ _) ?_ (List.nil_append _).symm
  exact Does.writeVectored _ _

/-- What a client makes of the server's error. -/
theorem client_mismatch {d : Scram.Digest} {n : Nat} {env : Env} {v ck sk salt : Bytes} {it : UInt32}
    (w : World) :
    Scram.clientStep d n env (some (b!"e=channel-bindings-dont-match"))
      (some (.serverFirst v ck sk salt it)) w =
    (.err (.mechanismError (.scramServer .channelBindingsDontMatch)), none, w) := by
  unfold Scram.clientStep
  rw [M.bind_ok (M.get_apply ..), M.bind_ok (M.set_apply ..)]
  dsimp only
  rw [M.bind_ok (M.okOr_some ..)]
  unfold Scram.handleServerFinal
  have : Scram.ServerFinal.parse (b!"e=channel-bindings-dont-match") =
      .ok (.error .channelBindingsDontMatch) := rfl
  rw [this, M.bind_assoc, M.bind_ok (M.liftOutcome_apply ..)]
  rfl

/-- C71: if the two ends of the channel have different data, as they do with someone in between, the
exchange runs to its end, but the server tells the client that the bindings do not match, nothing is
validated and the client ends with that error; that the server knows the password does not matter. -/
theorem C71_mismatch (d : Scram.Digest) (cenv senv : Env) (name : Str) (value value' : Bytes)
    (hvals : value ≠ value') (hname : BindingName name) (huse : Uses cenv name)
    (authzid authzid' : Option Str) (authid authid' : Str) (stored : StoredPassword) (ck sk : Bytes)
    (hg : cenv.Gives .authId authid) (hn : WrittenAs authid authid')
    (hz : cenv.Offers .authzId authzid) (hz' : WrittenAsOpt authzid authzid')
    (hkeys : ClientKeys d cenv stored.salt stored.iterations ck sk) (hit : stored.iterations ≠ 0)
    (hlen : stored.storedKey.length = d.outLen ∧ stored.serverKey.length = d.outLen)
    (hst : senv.GivesAt (scramOffer authid' authzid') .scramStoredPassword stored)
    (canCb : Bool) (c0 c1 c2 c3 : Session Scram.CS) (s0 s1 s2 : Session Scram.SS)
    (hc0 : c0.st = some (.initial .supported)) (hs0 : s0.st = some (.waitingClientFirst canCb))
    (in0 : Option Bytes) (w0 w1 w2 w3 w4 : List WResp)
    (hw : Cooperative w0 ∧ Cooperative w1 ∧ Cooperative w2 ∧ Cooperative w3 ∧ Cooperative w4)
    (r0 r1 r2 r3 r4 : Reply State)
    (h0 : c0.step (Scram.client d) (cenv.withCb (ThisCb.getCbData ⟨name, value⟩)) ⟨in0, w0⟩ = (r0, c1))
    (h1 : s0.step (Scram.server d) (senv.withCb (ThisCb.getCbData ⟨name, value'⟩)) ⟨some r0.out, w1⟩ =
      (r1, s1))
    (h2 : c1.step (Scram.client d) (cenv.withCb (ThisCb.getCbData ⟨name, value⟩)) ⟨some r1.out, w2⟩ =
      (r2, c2))
    (h3 : s1.step (Scram.server d) (senv.withCb (ThisCb.getCbData ⟨name, value'⟩)) ⟨some r2.out, w3⟩ =
      (r3, s2))
    (h4 : c2.step (Scram.client d) (cenv.withCb (ThisCb.getCbData ⟨name, value⟩)) ⟨some r3.out, w4⟩ =
      (r4, c3)) :
    r0.res = .ok .running ∧ r1.res = .ok .running ∧ r2.res = .ok .running ∧
    r3 = ⟨.ok (.finished .yes), b!"e=channel-bindings-dont-match"⟩ ∧
    s2.slot = s0.slot ∧ validations s2.log = validations s0.log ∧
    r4 = ⟨.err (.mechanismError (.scramServer .channelBindingsDontMatch)), []⟩ := by
  obtain ⟨hw0, hw1, hw2, hw3, hw4⟩ := hw
  have hu := Scram.escape_of_written hn
  have hzz := Scram.escapedOpt_of_written hz'
  have hcb := huse.binding value
  have hkeys' : ClientKeys d (cenv.withCb (ThisCb.getCbData ⟨name, value⟩)) stored.salt
    stored.iterations ck sk := hkeys
  have hsb : ServerBinding (senv.withCb (ThisCb.getCbData ⟨name, value'⟩)) canCb authid' authzid'
      (.used (Str.bytes name)) value' := ⟨name, rfl, hname, .inl (if_pos rfl)⟩
  obtain ⟨rfl, hc1, -, -, -⟩ := DoesR.step (m := Scram.client d) (c := ⟨in0, w0⟩) (by
    rw [hc0]; exact Scram.does_client_first hcb hz hzz hg hu c0.rng in0) hw0 h0
  have hcn := nonce_printable c0.rng Scram.nonceLen
  have hsn := nonce_printable s0.rng Scram.nonceLen
  generalize hcnd : ((List.range Scram.nonceLen).map c0.rng).map Scram.nonceChar = cn at *
  have hlen' : (((List.range Scram.nonceLen).map s0.rng).map Scram.nonceChar).length = 24 := by
    simp [Scram.nonceLen]
  generalize hsnd : ((List.range Scram.nonceLen).map s0.rng).map Scram.nonceChar = sn at *
  have hp := parse_clientFirst (Scram.ServerBinding.valid hsb) hu hzz hcn
  obtain ⟨rfl, hs1, -, hslot, hlog⟩ := DoesR.step (m := Scram.server d) (c := ⟨_, w1⟩) (by
    rw [hs0]; exact Scram.does_server_first hp hsb hst hlen.1 hlen.2 s0.rng) hw1 h1
  dsimp only at hs1 h2
  rw [hsnd, gs2Header_eq] at hs1
  rw [hsnd] at h2
  dsimp only at hs1 h2
  have good : Scram.GoodServerFirst cn (serverFirst (cn ++ sn) (Base64.encode stored.salt)
      (storedCount stored)) sn (Base64.encode stored.salt) (storedCount stored) stored.salt
      stored.iterations := by
    refine ⟨rfl, ?_, ⟨?_, Base64.comma_notMem_encode _, Scram.comma_notMem_decimal _⟩,
      Base64.decode_encode _, ⟨_, rfl, Scram.parseU32_decimal _⟩, hit⟩
    · rintro rfl; cases hlen'
    · intro hm
      rcases List.mem_append.1 hm with hm | hm
      · exact (hcn _ hm).2.2 rfl
      · exact (hsn _ hm).2.2 rfl
  obtain ⟨rfl, hc2, -, -, -⟩ := DoesR.step (m := Scram.client d) (c := ⟨_, w2⟩) (by
    rw [hc1]; exact (Scram.does_client_second good hkeys' rfl).rng _) hw2 h2
  dsimp only at h3 hc2
  generalize hauth : authMessage (clientFirstBare authid' cn) (serverFirst (cn ++ sn)
    (Base64.encode stored.salt) (storedCount stored)) (clientFinalBare
      (Base64.encode (gs2Header (.used (Str.bytes name)) authzid' ++ value)) (cn ++ sn)) = auth at *
  have hpf : Scram.ClientFinal.parse (clientFinalBare (Base64.encode
      (gs2Header (.used (Str.bytes name)) authzid' ++ value)) (cn ++ sn) ++ b!",p=" ++
      Base64.encode (clientProof d ck auth)) =
      .ok ⟨Base64.encode (gs2Header (.used (Str.bytes name)) authzid' ++ value), cn ++ sn,
        Base64.encode (clientProof d ck auth)⟩ := by
    rw [← (C34_client_final (gs2Header (.used (Str.bytes name)) authzid' ++ value) (cn ++ sn)
      (clientProof d ck auth) (fun b hb => (List.mem_append.1 hb).elim (hcn b) (hsn b))).1]
    congr 1
    simp [Scram.ClientFinal.ioslices, Spec.clientFinalBare]
  obtain ⟨rfl, -, -, hslot', hlog'⟩ := DoesR.step (m := Scram.server d) (c := ⟨_, w3⟩) (by
    rw [hs1]
    exact (does_server_mismatch hpf (fun he => hvals (List.append_cancel_left he).symm)).rng _) hw3 h3
  have h5 := client_mismatch (d := d) (n := Scram.nonceLen)
    (env := cenv.withCb (ThisCb.getCbData ⟨name, value⟩))
    (v := d.hmac sk auth) (ck := ck) (sk := sk) (salt := stored.salt) (it := stored.iterations)
    ⟨⟨[], w4⟩, c2.rng, c2.slot, c2.log⟩
  rw [← hc2] at h5
  rw [step_of (m := Scram.client d) (ses := c2) h5] at h4
  cases h4
  exact ⟨rfl, rfl, rfl, rfl, hslot'.trans hslot, hlog'.trans hlog, rfl⟩

/-- Running `m` from `s` ends with the error `e` and the state `s'`, nothing written or validated. -/
def Ends {S α : Type} (m : M S α) (s : S) (e : SessionError) (s' : S) : Prop :=
  ∀ w, ∃ w', m s w = (.err e, s', w') ∧ w'.wr.out = w.wr.out ∧ validations w'.log = validations w.log

theorem Ends.after {S α β : Type} {m : M S α} {f : α → M S β} {s s' s'' : S} {a : α} {e : SessionError}
    (h : Does (fun _ => True) m s a s' []) (h' : Ends (f a) s' e s'') : Ends (m >>= f) s e s'' := by
  intro w
  obtain ⟨es, sched, -, hv, hm⟩ := h w trivial
  obtain ⟨w', hf, ho, hl⟩ := h' { w with wr := ⟨w.wr.out ++ [], sched⟩, log := w.log ++ es }
  refine ⟨w', by rw [M.bind_ok hm]; exact hf, by simpa using ho, ?_⟩
  rw [hl, validations_append, hv, List.append_nil]

theorem Ends.first {S α β : Type} {m : M S α} {f : α → M S β} {s s' : S} {e : SessionError}
    (h : Ends m s e s') : Ends (m >>= f) s e s' := by
  intro w
  obtain ⟨w', hm, h⟩ := h w
  exact ⟨w', M.bind_err hm, h⟩

theorem Ends.withLocal {S L α : Type} {m : M (S × L) α} {s s' : S} {l l' : L} {e : SessionError}
    (h : Ends m (s, l) e (s', l')) : Ends (M.withLocal l m) s e s' := by
  intro w
  obtain ⟨w', hm, h⟩ := h w
  refine ⟨w', ?_, h⟩
  unfold M.withLocal
  rw [hm]

theorem ends_noCbData {env : Env} {name : Str} (h : NoBinding env name none none) {S G : Type}
    (f : Bytes → M S G) (s : S) :
    Ends (needCbData env name .empty f) s (.missingChannelBindingData name) s :=
  Ends.after (Scram.does_noCbData h (Scram.bindingCtx_empty _) f s)
    fun w => ⟨w, M.okOr_none .., rfl, rfl⟩

/-- C71: a callback that has data for some other binding only is no help: the client asks for
"tls-exporter" and then for "tls-unique", and its first step ends with an error that names the
latter. -/
theorem C71_missing (d : Scram.Digest) (cenv : Env) (cb : ThisCb) (h1 : cb.name ≠ c!"tls-exporter")
    (h2 : cb.name ≠ c!"tls-unique") (hno : cenv.Lacks .overrideCBType)
    (hnc : cenv.Lacks .channelBindings) (ses : Session Scram.CS)
    (hst : ses.st = some (.initial .supported)) (c : Call) :
    ∃ ses', ses.step (Scram.client d) (cenv.withCb cb.getCbData) c =
        (⟨.err (.missingChannelBindingData (c!"tls-unique")), []⟩, ses') ∧ ses'.st = none ∧
      validations ses'.log = validations ses.log := by
  have hne : NoBinding (cenv.withCb cb.getCbData) (c!"tls-exporter") none none :=
    ⟨if_neg h1, fun l c _ => hnc l c⟩
  have hnu : NoBinding (cenv.withCb cb.getCbData) (c!"tls-unique") none none :=
    ⟨if_neg h2, fun l c _ => hnc l c⟩
  have hcb : Ends (Scram.clientCb (cenv.withCb cb.getCbData) .supported) (none, {})
      (.missingChannelBindingData (c!"tls-unique")) (none, ⟨b!"p=", none⟩) := by
    refine Ends.after (Scram.does_pushHeader _ _ _ _) ?_
    refine Ends.after (Does.maybeNeed_none hno _ _ _) ?_
    refine Ends.after (Scram.does_noCbData hne (Scram.bindingCtx_empty _) _ _) ?_
    exact ends_noCbData hnu _ _
  have hstep : Ends (Scram.clientStep d Scram.nonceLen (cenv.withCb cb.getCbData) c.input)
      (some (.initial .supported)) (.missingChannelBindingData (c!"tls-unique")) none := by
    unfold Scram.clientStep
    refine Ends.after (Does.get _ _) ?_
    refine Ends.after (Does.set _ _ _) ?_
    exact Ends.first (Ends.withLocal (Ends.first hcb))
  rw [← hst] at hstep
  obtain ⟨w', hm, ho, hl⟩ := hstep ⟨⟨[], c.sched⟩, ses.rng, ses.slot, ses.log⟩
  have hs := step_of (m := Scram.client d) (ses := ses) (c := c) hm
  dsimp only at ho
  rw [ho] at hs
  exact ⟨_, hs, rfl, hl⟩

/-- The client of the examples: a name, a password, and nothing about channel bindings. -/
def bindingClient : Env where
  callback _ _ _ := answerAll [⟨.authId, c!"username"⟩, ⟨.password, b!"secret"⟩]
  validate _ _ _ := .ret (.ok ())
  chanbind _ := none
  vtag := 0
  sd := ⟨⟨b!"X", 0, .client⟩, .client⟩

theorem bindingClient_uses : Uses bindingClient (c!"tls-exporter") :=
  .inr ⟨fun _ _ => .skip _ _ _ (by decide) (.skip _ _ _ (by decide) .ok), .inl rfl⟩

theorem bindingName_exporter : BindingName (c!"tls-exporter") :=
  ⟨by decide, by decide⟩

example : Completes 3 .client
    ⟨Scram.client toyDigest, Scram.clientNewPlus⟩ ⟨Scram.server toyDigest, Scram.serverNewPlus⟩
    (bindingClient.withCb (ThisCb.getCbData ⟨c!"tls-exporter", b!"exported"⟩))
    (knowingEnv.withCb (ThisCb.getCbData ⟨c!"tls-exporter", b!"exported"⟩)) (b!"user id 1") :=
  C71_exchange toyDeps .sha256 bindingClient knowingEnv (c!"tls-exporter") (b!"exported")
    bindingName_exporter bindingClient_uses none none (c!"username") (c!"username") _ _ _
    (fun _ _ => .satisfy _ (fun _ => rfl)) ⟨by decide, escapes_username⟩
    (fun _ _ => .skip _ _ _ (by decide) (.skip _ _ _ (by decide) .ok)) trivial
    (.inr ⟨fun _ _ _ => .skip _ _ _ (by decide) (.skip _ _ _ (by decide) .ok), .inr
      ⟨fun _ _ _ => .skip _ _ _ (by decide) (.skip _ _ _ (by decide) .ok), b!"secret",
        fun _ _ _ => .skip _ _ _ (by decide) (.satisfy _ (fun _ => rfl)), rfl, rfl⟩⟩)
    (by decide) ⟨rfl, rfl⟩ (fun _ _ _ => .satisfy _ (fun _ => rfl)) _ (fun _ _ _ => ⟨rfl, rfl⟩) _ _
    rfl rfl

/-- The same two with different data: the hypotheses of `C71_mismatch`. -/
example (c0 : Session Scram.CS) (s0 : Session Scram.SS)
    (hc0 : c0.st = some (.initial .supported)) (hs0 : s0.st = some (.waitingClientFirst true))
    (in0 : Option Bytes) : ∃ c1 c2 c3 s1 s2 r0 r1 r2 r3 r4,
    c0.step (Scram.client toyDigest) (bindingClient.withCb
      (ThisCb.getCbData ⟨c!"tls-exporter", b!"one"⟩)) ⟨in0, []⟩ = (r0, c1) ∧
    s0.step (Scram.server toyDigest) (knowingEnv.withCb
      (ThisCb.getCbData ⟨c!"tls-exporter", b!"other"⟩)) ⟨some r0.out, []⟩ = (r1, s1) ∧
    c1.step (Scram.client toyDigest) (bindingClient.withCb
      (ThisCb.getCbData ⟨c!"tls-exporter", b!"one"⟩)) ⟨some r1.out, []⟩ = (r2, c2) ∧
    s1.step (Scram.server toyDigest) (knowingEnv.withCb
      (ThisCb.getCbData ⟨c!"tls-exporter", b!"other"⟩)) ⟨some r2.out, []⟩ = (r3, s2) ∧
    c2.step (Scram.client toyDigest) (bindingClient.withCb
      (ThisCb.getCbData ⟨c!"tls-exporter", b!"one"⟩)) ⟨some r3.out, []⟩ = (r4, c3) ∧
    r3.out = b!"e=channel-bindings-dont-match" ∧
    r4.res = .err (.mechanismError (.scramServer .channelBindingsDontMatch)) := by
  have hw : Cooperative [] := by unfold Cooperative; simp
  refine ⟨_, _, _, _, _, _, _, _, _, _, rfl, rfl, rfl, rfl, rfl, ?_⟩
  have := C71_mismatch toyDigest bindingClient knowingEnv (c!"tls-exporter") (b!"one") (b!"other")
    (by decide) bindingName_exporter bindingClient_uses none none (c!"username") (c!"username") _ _ _
    (fun _ _ => .satisfy _ (fun _ => rfl)) ⟨by decide, escapes_username⟩
    (fun _ _ => .skip _ _ _ (by decide) (.skip _ _ _ (by decide) .ok)) trivial
    (.inr ⟨fun _ _ _ => .skip _ _ _ (by decide) (.skip _ _ _ (by decide) .ok), .inr
      ⟨fun _ _ _ => .skip _ _ _ (by decide) (.skip _ _ _ (by decide) .ok), b!"secret",
        fun _ _ _ => .skip _ _ _ (by decide) (.satisfy _ (fun _ => rfl)), rfl, rfl⟩⟩)
    (by decide) ⟨toyDigest.hash_length _, toyDigest.hmac_length _ _⟩
    (fun _ _ _ => .satisfy _ (fun _ => rfl)) true c0 _ _ _ s0 _ _ hc0 hs0
    in0 [] [] [] [] [] ⟨hw, hw, hw, hw, hw⟩ _ _ _ _ _ rfl rfl rfl rfl rfl
  obtain ⟨-, -, -, h3, -, -, h4⟩ := this
  exact ⟨congrArg (·.out) h3, congrArg (·.res) h4⟩

/-- And a client whose protocol crate only has an end point binding. -/
example (d : Scram.Digest) (c : Call) : ∃ ses',
    Session.step (Scram.client d) (bindingClient.withCb
      (ThisCb.getCbData ⟨c!"tls-server-end-point", b!"hash"⟩)) { st := Scram.clientNewPlus, rng := id } c =
      (⟨.err (.missingChannelBindingData (c!"tls-unique")), []⟩, ses') := by
  obtain ⟨ses', h, -⟩ := C71_missing d bindingClient ⟨c!"tls-server-end-point", b!"hash"⟩ (by decide)
    (by decide) (fun _ _ => .skip _ _ _ (by decide) (.skip _ _ _ (by decide) .ok))
    (fun _ _ => .skip _ _ _ (by decide) (.skip _ _ _ (by decide) .ok))
    { st := Scram.clientNewPlus, rng := id } rfl c
  exact ⟨ses', h⟩

/-! ## All together -/

/-- C71: a client and a server that have a `-PLUS` mechanism on a SHA-2 hash in common, channel binding
enabled, the same data for the binding the client uses, and the user's keys for every hash: they start
the two sides of such a mechanism and finish, and the server has the application's value. -/
theorem C71 (deps : Deps) (cc sc : Config) (hcs : ∀ m ∈ cc.mechs, m ∈ shipped)
    (hss : ∀ m ∈ sc.mechs, m ∈ shipped) (hp : cc.prefer = defaultPrefer) (he : cc.enableCb = true)
    (hash : Hash) (hsha : hash ≠ .sha1) (hc : SCRAMPLUS hash ∈ cc.mechs)
    (hs : SCRAMPLUS hash ∈ sc.mechs)
    (cenv senv : Env) (name : Str) (value : Bytes) (hname : BindingName name) (huse : Uses cenv name)
    (authzid authzid' : Option Str) (authid authid' : Str)
    (hg : cenv.Gives .authId authid) (hn : WrittenAs authid authid')
    (hz : cenv.Offers .authzId authzid) (hz' : WrittenAsOpt authzid authzid')
    (v : VVal) (hv : Accepts senv (scramOffer authid' authzid') v)
    (hkeys : ∀ h : Hash, ∃ (stored : StoredPassword) (ck sk : Bytes),
      ClientKeys (deps.digest h) cenv stored.salt stored.iterations ck sk ∧ stored.iterations ≠ 0 ∧
      stored.storedKey = (deps.digest h).hash ck ∧ stored.serverKey = sk ∧
      senv.GivesAt (scramOffer authid' authzid') .scramStoredPassword stored) :
    ∃ h : Hash, h ≠ .sha1 ∧ ∃ a b m client server,
      cc.clientStart (sc.getAvailable.map (·.name)) = .ok (a, m) ∧ m.name = h.plusName ∧
      sc.serverStart m.name = .ok (b, m) ∧
      Auth.startClient deps a = some client ∧ Auth.startServer deps b = some server ∧
      Completes 3 .client client server (cenv.withCb (ThisCb.getCbData ⟨name, value⟩))
        (senv.withCb (ThisCb.getCbData ⟨name, value⟩)) v := by
  obtain ⟨h, hne, -, -, h1, h2⟩ := C71_start cc sc hcs hss hp he hash hsha hc hs
  obtain ⟨stored, ck, sk, hk, hit, hst, hsk, hgv⟩ := hkeys h
  exact ⟨h, hne, _, _, _, _, _, h1, rfl, h2, rfl, rfl,
    C71_exchange deps h cenv senv name value hname huse authzid authzid' authid authid' stored ck sk hg
      hn hz hz' hk hit ⟨hst, hsk⟩ hgv v hv _ _ rfl rfl⟩

end Rsasl

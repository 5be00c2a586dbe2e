/-
What the steps of the SCRAM server do, for every callback and writer.
-/
import Verif.Spec.ScramSession
import Verif.Proofs.ScramClientRun
import Verif.Proofs.Validate

namespace Rsasl.Scram

/-- What the server asks for. -/
def serverAsks : List Property := [.channelBindings, .scramStoredPassword]

/-! ## The first step -/

theorem serverProvider_exactly (authid : Str) (authzid : Option Str) :
    (serverProvider authid authzid).Exactly (Spec.scramOffer authid authzid) := by
  intro p
  cases authzid <;> cases p <;> rfl

theorem useStored_keeps {S : Type} {L : Event → Prop} {P : S → Prop} (d : Digest)
    (p : StoredPassword) : Keeps L P (useStored d p : M S Params) := by
  unfold useStored
  split
  · exact Keeps.fail _
  · exact Keeps.pure _

theorem serverCb_keeps {L : Event → Prop} (env : Env) (canCb : Bool) (prov : Provider)
    (flag : CbFlag) (hL : ∀ name, Requests L .channelBindings
      (Provider.and (.this ⟨.channelBindingName, name⟩) prov)) :
    Keeps L (fun s : Hdr => s.1 = none) (serverCb env canCb prov flag) := by
  cases flag with
  | supportedNotUsed =>
    cases canCb with
    | true => exact Keeps.fail _
    | false => exact Keeps.pure _
  | notSupported => exact Keeps.pure _
  | used name =>
    exact Keeps.needCbData (hL _) (fun v => Keeps.modify (fun _ h => h))

/-- The server's first step in every case: it asks, it does not validate, and a failure is for
good. -/
theorem serverStep_first_events {L : Event → Prop} (d : Digest) (n : Nat) (env : Env)
    (input : Option Bytes) (canCb : Bool) (w : World)
    (hL : ∀ b msg, input = some b → ClientFirst.parse b = .ok msg →
      (∀ name, Requests L .channelBindings (Provider.and (.this ⟨.channelBindingName, name⟩)
        (serverProvider msg.username msg.authzid))) ∧
      Requests L .scramStoredPassword (serverProvider msg.username msg.authzid)) :
    (∃ es, (serverStep d n env input (some (.waitingClientFirst canCb)) w).2.2.log = w.log ++ es ∧
      ∀ e ∈ es, L e) ∧
    ((∀ st, (serverStep d n env input (some (.waitingClientFirst canCb)) w).1 ≠ .ok st) →
      (serverStep d n env input (some (.waitingClientFirst canCb)) w).2.1 = none) := by
  unfold serverStep
  rw [M.bind_ok (M.get_apply ..), M.bind_ok (M.set_apply ..)]
  dsimp only
  cases input with
  | none =>
    rw [M.bind_err (M.okOr_none ..)]
    exact ⟨⟨[], by simp, nofun⟩, fun _ => rfl⟩
  | some b =>
    rw [M.bind_ok (M.okOr_some ..)]
    cases hp : ClientFirst.parse b with
    | err e =>
      rw [M.bind_err (M.liftOutcome_apply ..)]
      exact ⟨⟨[], by simp, nofun⟩, fun _ => rfl⟩
    | panic =>
      rw [M.bind_panic (M.liftOutcome_apply ..)]
      exact ⟨⟨[], by simp, nofun⟩, fun _ => rfl⟩
    | ok msg =>
      obtain ⟨hL1, hL2⟩ := hL b msg rfl hp
      rw [M.bind_ok (M.liftOutcome_apply ..)]
      have h : Logs L (fun s : SS => s = none)
          (M.withLocal msg.gs2Header (handleClientFirst d n env canCb msg)) := by
        refine Logs.withLocal ?_
        unfold handleClientFirst
        have hst : Keeps L (fun x : Hdr => x.1 = none)
            (maybeNeedWith env .scramStoredPassword (serverProvider msg.username msg.authzid)
              (useStored d)) :=
          Keeps.maybeNeedWith hL2 (fun v => useStored_keeps _ _)
        refine (serverCb_keeps _ _ _ _ hL1).logs.bind (fun _ => hst.logs.bind (fun p =>
          (Logs.bind (Logs.draw _) (fun _ => (Keeps.pure _).logs)).bind (fun sn => ?_)))
        cases p with
        | some p =>
          exact Logs.bind (Logs.writeVectored _) (fun _ => Logs.bind Keeps.get.logs
            (fun _ => (Keeps.pure _).logs))
        | none =>
          exact Logs.bind (Logs.draw _) (fun _ => Logs.bind (Logs.writeVectored _)
            (fun _ => (Keeps.pure _).logs))
      obtain ⟨h1, es, h2, h3⟩ := h none w rfl
      rcases hs : M.withLocal msg.gs2Header (handleClientFirst d n env canCb msg) (none : SS) w
        with ⟨o, s1, w1⟩
      rw [hs] at h1 h2
      cases o with
      | ok new =>
        rw [M.bind_ok hs, M.bind_ok (M.set_apply ..)]
        exact ⟨⟨es, h2, h3⟩, fun h => absurd rfl (h .running)⟩
      | err e => rw [M.bind_err hs]; exact ⟨⟨es, h2, h3⟩, fun _ => h1⟩
      | panic => rw [M.bind_panic hs]; exact ⟨⟨es, h2, h3⟩, fun _ => h1⟩

theorem serverStep_first_log (d : Digest) (n : Nat) (env : Env) (input : Option Bytes)
    (canCb : Bool) (w : World) :
    (∃ es, (serverStep d n env input (some (.waitingClientFirst canCb)) w).2.2.log = w.log ++ es ∧
      ∀ e ∈ es, Concerns serverAsks e) ∧
    ((∀ st, (serverStep d n env input (some (.waitingClientFirst canCb)) w).1 ≠ .ok st) →
      (serverStep d n env input (some (.waitingClientFirst canCb)) w).2.1 = none) :=
  serverStep_first_events d n env input canCb w fun _ _ _ _ =>
    ⟨fun _ => requests_concerns (by decide) _, requests_concerns (by decide) _⟩

theorem serverCb_ok {env : Env} {canCb : Bool} {prov : Provider} {flag : CbFlag} {s s' : Hdr}
    {w w' : World} {u : Unit} (h : serverCb env canCb prov flag s w = (.ok u, s', w')) :
    (flag = .supportedNotUsed → canCb = false) ∧ ∃ data es, s' = (s.1, s.2 ++ data) ∧
      w' = w.addLog es ∧ Spec.OwnBinding env es flag data := by
  cases flag with
  | supportedNotUsed =>
    cases canCb with
    | true => cases h
    | false =>
      cases h
      exact ⟨fun _ => rfl, [], [], by simp, by simp, rfl⟩
  | notSupported =>
    cases h
    exact ⟨nofun, [], [], by simp, by simp, rfl⟩
  | used name =>
    refine ⟨nofun, ?_⟩
    unfold serverCb needCbData at h
    obtain ⟨r, s1, w1, h1, h2⟩ := M.bind_eq_ok h
    cases r with
    | none => cases h2
    | some r =>
      cases h2
      unfold maybeNeedCbData at h1
      cases hc : env.chanbind (asciiStr name) with
      | some data =>
        simp only [hc] at h1
        obtain ⟨s, h⟩ := s
        cases h1
        exact ⟨data, [], rfl, by simp, .inl hc⟩
      | none =>
        simp only [hc] at h1
        obtain ⟨v, es, es', w1, -, -, hf, e⟩ := maybeNeedWith_some h1
        rw [M.modify_apply] at hf
        obtain ⟨s, hd⟩ := s
        cases hf
        refine ⟨v, .asked .channelBindings
          (Provider.and (.this ⟨.channelBindingName, asciiStr name⟩) prov) :: es ++ [.answered .channelBindings v] ++ es', rfl, ?_,
          .inr ⟨hc, by simp⟩⟩
        rw [e]
        simp

/-- What a good first step of the server comes down to. -/
structure GotFirst (d : Digest) (n : Nat) (env : Env) (canCb : Bool) (input : Option Bytes)
    (w w' : World) (new : SState) (b : Bytes) (msg : ClientFirst) (data snonce salt64 it64 o : Bytes)
    (sched : List WResp) (es : List Event) : Prop where
  hinput : input = some b
  hparse : ClientFirst.parse b = .ok msg
  hcan : msg.cbflag = .supportedNotUsed → canCb = false
  hbinding : Spec.OwnBinding env es msg.cbflag data
  hnonce : snonce = ((List.range n).map w.rng).map nonceChar
  hknown : (new = .waitingClientFinal none ∧ it64 = b!"16384" ∧ ∃ salt : Bytes, salt.length = 32 ∧
      salt64 = Base64.encode salt) ∨
    ∃ stored : StoredPassword,
      ¬ env.LacksAt (Spec.scramOffer msg.username msg.authzid) .scramStoredPassword ∧
      (∀ V, env.SuppliesAt (Spec.scramOffer msg.username msg.authzid) .scramStoredPassword V →
        V stored) ∧
      .answered .scramStoredPassword stored ∈ es ∧
      stored.storedKey.length = d.outLen ∧ stored.serverKey.length = d.outLen ∧
      salt64 = Base64.encode stored.salt ∧ it64 = Spec.storedCount stored ∧
      new = .waitingClientFinal (some
        { clientNonce := msg.nonce, serverNonce := snonce, gs2Header := msg.gs2Header ++ data,
          username := msg.username, authzid := msg.authzid, salt := salt64, iterations := it64,
          storedKey := stored.storedKey, serverKey := stored.serverKey })
  hout : o <+: Spec.serverFirst (msg.nonce ++ snonce) salt64 it64
  hall : Cooperative w.wr.sched → o = Spec.serverFirst (msg.nonce ++ snonce) salt64 it64
  hwr : w'.wr = ⟨w.wr.out ++ o, sched⟩
  hslot : w'.slot = w.slot
  hlog : w'.log = w.log ++ es

theorem handleClientFirst_ok {d : Digest} {n : Nat} {env : Env} {canCb : Bool} {msg : ClientFirst}
    {s' : Hdr} {w w' : World} {new : SState} {b : Bytes} (hb : ClientFirst.parse b = .ok msg)
    (h : handleClientFirst d n env canCb msg (none, msg.gs2Header) w = (.ok new, s', w')) :
    ∃ data snonce salt64 it64 o sched es,
      GotFirst d n env canCb (some b) w w' new b msg data snonce salt64 it64 o sched es := by
  unfold handleClientFirst at h
  obtain ⟨_, s1, w1, h1, k1⟩ := M.bind_eq_ok h
  obtain ⟨p, s2, w2, h2, k2⟩ := M.bind_eq_ok k1
  clear h k1
  obtain ⟨hcan, data, es1, rfl, e1, hbind⟩ := serverCb_ok h1
  have k : Keeps (Concerns serverAsks) (fun x : Hdr => x = (none, msg.gs2Header ++ data))
      (maybeNeedWith env .scramStoredPassword (serverProvider msg.username msg.authzid)
        (useStored d)) :=
    Keeps.maybeNeedWith (requests_concerns (by decide) _) (fun v => useStored_keeps _ _)
  obtain ⟨hs2, es2, e2, -⟩ := k.ok rfl h2
  have hbind' : Spec.OwnBinding env (es1 ++ es2) msg.cbflag data := by
    cases hf : msg.cbflag with
    | used name =>
      rw [hf] at hbind
      rcases hbind with hb | ⟨hb, hb'⟩
      · exact .inl hb
      · exact .inr ⟨hb, List.mem_append_left _ hb'⟩
    | _ => rw [hf] at hbind; exact hbind
  rw [M.bind_ok (generateNonce_apply ..)] at k2
  have hw2 : w2 = w.addLog (es1 ++ es2) := by rw [e2, e1]; simp
  have hflat : ∀ sn salt it, (ServerFirst.ioslices ⟨msg.nonce, some sn, salt, it⟩).flatten =
      Spec.serverFirst (msg.nonce ++ sn) salt it := by
    intro sn salt it
    simp [ServerFirst.ioslices, Spec.serverFirst]
  cases p with
  | none =>
    dsimp only at k2
    obtain ⟨draws, s3, w3, h3, k3⟩ := M.bind_eq_ok k2
    cases h3
    obtain ⟨_, s4, w4, h4, k4⟩ := M.bind_eq_ok k3
    cases k4
    obtain ⟨rfl, o, sched, ho1, -, ho3, e4⟩ := M.writeVectored_eq_ok h4
    rw [hflat] at ho1 ho3
    refine ⟨data, _, _, _, o, sched, es1 ++ es2, rfl, hb, hcan, hbind', ?_, .inl ⟨rfl, rfl, _, ?_, rfl⟩,
      ho1, fun hc => ho3 ?_, ?_, ?_, ?_⟩
    · rw [hw2]; rfl
    · simp [defaultSaltLen]
    · rw [hw2]; exact hc
    · rw [e4, hw2]; rfl
    · rw [e4, hw2]; rfl
    · rw [e4, hw2]; rfl
  | some p =>
    dsimp only at k2
    obtain ⟨_, s4, w4, h4, k4⟩ := M.bind_eq_ok k2
    obtain ⟨rfl, o, sched, ho1, -, ho3, e4⟩ := M.writeVectored_eq_ok h4
    rw [hflat] at ho1 ho3
    rw [M.bind_ok (M.get_apply ..)] at k4
    cases k4
    obtain ⟨hla, stored, es, es', w5, -, -, hf, e5, hsu⟩ := maybeNeedWith_some' (serverProvider_exactly _ _) h2
    unfold useStored at hf
    split at hf
    · cases hf
    · next hlen =>
      have hp : p = ⟨Str.bytes (decimal stored.iterations), Base64.encode stored.salt,
          stored.storedKey, stored.serverKey⟩ := by cases hf; rfl
      have hw5 : w5.log = _ := congrArg World.log (by cases hf; rfl)
      simp only [ne_eq, not_or, Decidable.not_not] at hlen
      subst hp
      refine ⟨data, _, _, _, o, sched, es1 ++ es2, rfl, hb, hcan, hbind', ?_, .inr ⟨stored, hla, hsu, ?_, hlen.1,
        hlen.2, rfl, rfl, ?_⟩, ho1, fun hc => ho3 ?_, ?_, ?_, ?_⟩
      · rw [hw2]; rfl
      · have hm : Event.answered .scramStoredPassword stored ∈ es2 := by
          have : w2.log = w1.log ++ es2 := by rw [e2]; rfl
          rw [e5, World.addLog_log, hw5, World.addLog_log] at this
          rw [List.append_assoc] at this
          have := List.append_cancel_left this
          rw [← this]
          simp
        exact List.mem_append_right _ hm
      · rw [hs2]; rfl
      · rw [hw2]; exact hc
      · rw [e4, hw2]; rfl
      · rw [e4, hw2]; rfl
      · rw [e4, hw2]; rfl

/-- The server's first step, when it succeeds. -/
theorem serverStep_first_ok {d : Digest} {n : Nat} {env : Env} {input : Option Bytes}
    {canCb : Bool} {w w' : World} {st : State} {s' : SS}
    (h : serverStep d n env input (some (.waitingClientFirst canCb)) w = (.ok st, s', w')) :
    st = .running ∧ ∃ new b msg data snonce salt64 it64 o sched es, s' = some new ∧
      GotFirst d n env canCb input w w' new b msg data snonce salt64 it64 o sched es := by
  unfold serverStep at h
  rw [M.bind_ok (M.get_apply ..), M.bind_ok (M.set_apply ..)] at h
  dsimp only at h
  cases input with
  | none => rw [M.bind_err (M.okOr_none ..)] at h; cases h
  | some b =>
    rw [M.bind_ok (M.okOr_some ..)] at h
    cases hp : ClientFirst.parse b with
    | err e => rw [hp, M.bind_err (M.liftOutcome_apply ..)] at h; cases h
    | panic => rw [hp, M.bind_panic (M.liftOutcome_apply ..)] at h; cases h
    | ok msg =>
      rw [hp, M.bind_ok (M.liftOutcome_apply ..)] at h
      obtain ⟨new, s1, w1, h1, h2⟩ := M.bind_eq_ok h
      rw [M.bind_ok (M.set_apply ..)] at h2
      cases h2
      unfold M.withLocal at h1
      rcases hs : handleClientFirst d n env canCb msg (none, msg.gs2Header) w with ⟨o, ⟨s2, l⟩, w2⟩
      rw [hs] at h1
      cases h1
      obtain ⟨data, snonce, salt64, it64, o, sched, es, k⟩ := handleClientFirst_ok hp hs
      exact ⟨rfl, new, b, msg, data, snonce, salt64, it64, o, sched, es, rfl, k⟩

/-! ## The second step -/

/-- When the server is convinced. -/
theorem judge_ok {d : Digest} {data : Option FinalInner} {msg : ClientFinal} {f : FinalInner}
    {sig : Bytes} (h : judge d data msg = .ok (.ok (f, sig))) :
    data = some f ∧ msg.channelBinding = Base64.encode f.gs2Header ∧
      msg.nonce = f.clientNonce ++ f.serverNonce ∧
      (∃ given : Bytes, msg.proof = Base64.encode given ∧ given.length ≤ d.outLen ∧
        d.hash (xor (given ++ List.replicate (d.outLen - given.length) 0) (d.hmac f.storedKey
          (authMessage f.username f.clientNonce f.serverNonce f.salt f.iterations
            msg.channelBinding))) = f.storedKey) ∧
      sig = d.hmac f.serverKey (authMessage f.username f.clientNonce f.serverNonce f.salt
        f.iterations msg.channelBinding) := by
  unfold judge at h
  cases data with
  | none => cases h
  | some f' =>
    dsimp only at h
    cases hcb : Base64.decode msg.channelBinding with
    | none => rw [hcb] at h; cases h
    | some cb =>
      rw [hcb] at h
      dsimp only at h
      split at h
      · cases h
      · next hgs =>
        cases hn : stripPrefix f'.clientNonce msg.nonce with
        | none => rw [hn] at h; cases h
        | some rem =>
          rw [hn] at h
          dsimp only at h
          split at h
          · next hr =>
            cases hd : Base64.decodeSlice d.outLen msg.proof with
            | none => rw [hd] at h; cases h
            | some proof =>
              rw [hd] at h
              unfold computeSignatures at h
              dsimp only at h
              split at h
              · next hk =>
                cases h
                simp only [ne_eq, Decidable.not_not] at hgs
                subst hgs
                unfold Base64.decodeSlice at hd
                cases hde : Base64.decode msg.proof with
                | none => rw [hde] at hd; cases hd
                | some given =>
                  rw [hde] at hd
                  dsimp only at hd
                  split at hd
                  · next hle =>
                    cases hd
                    exact ⟨rfl, Base64.decode_eq_some_iff.1 hcb,
                      by rw [stripPrefix_eq_some.1 hn, hr.1],
                      ⟨given, Base64.decode_eq_some_iff.1 hde, hle, hk.symm⟩, rfl⟩
                  · cases hd
              · cases h
          · cases h

/-- The server's second step in every case. -/
theorem serverStep_second {d : Digest} {n : Nat} {env : Env} {input : Option Bytes}
    {data : Option FinalInner} {w w' : World} {o : Outcome State} {s' : SS}
    (h : serverStep d n env input (some (.waitingClientFinal data)) w = (o, s', w')) :
    ((∀ st, o ≠ .ok st) ∧ s' = none ∧ w'.log = w.log ∧ w'.slot = w.slot) ∨
    (∃ b msg e out sched, input = some b ∧ ClientFinal.parse b = .ok msg ∧
      judge d data msg = .ok (.error e) ∧ o = .ok (.finished .yes) ∧ s' = some .finished ∧
      out <+: b!"e=" ++ e.bytes ∧ (Cooperative w.wr.sched → out = b!"e=" ++ e.bytes) ∧
      w' = { w with wr := ⟨w.wr.out ++ out, sched⟩ }) ∨
    (∃ b msg f sig out sched es, input = some b ∧ ClientFinal.parse b = .ok msg ∧
      judge d data msg = .ok (.ok (f, sig)) ∧
      (∀ st, o = .ok st → st = .finished .yes ∧ s' = some .finished) ∧
      ((∀ st, o ≠ .ok st) → s' = none) ∧ o ≠ .panic ∧
      out <+: b!"v=" ++ Base64.encode sig ∧
      (Cooperative w.wr.sched → out = b!"v=" ++ Base64.encode sig) ∧
      w'.wr = ⟨w.wr.out ++ out, sched⟩ ∧ VQuiet es ∧
      w'.log = w.log ++ .validated (serverProvider f.username f.authzid) :: es) := by
  unfold serverStep at h
  rw [M.bind_ok (M.get_apply ..), M.bind_ok (M.set_apply ..)] at h
  dsimp only at h
  cases input with
  | none =>
    rw [M.bind_err (M.okOr_none ..)] at h
    cases h
    exact .inl ⟨nofun, rfl, rfl, rfl⟩
  | some b =>
    rw [M.bind_ok (M.okOr_some ..)] at h
    unfold handleClientFinal at h
    cases hp : ClientFinal.parse b with
    | err e =>
      rw [hp, M.bind_err (M.bind_err (M.liftOutcome_apply ..))] at h
      cases h
      exact .inl ⟨nofun, rfl, rfl, rfl⟩
    | panic =>
      rw [hp, M.bind_panic (M.bind_panic (M.liftOutcome_apply ..))] at h
      cases h
      exact .inl ⟨nofun, rfl, rfl, rfl⟩
    | ok msg =>
      rw [hp, M.bind_apply, M.bind_ok (M.liftOutcome_apply ..)] at h
      cases hj : judge d data msg with
      | error e =>
        rw [hj, M.bind_err (show M.lift (.error e) (none : SS) w = _ from rfl)] at h
        cases h
        exact .inl ⟨nofun, rfl, rfl, rfl⟩
      | ok x =>
        rw [hj, M.bind_ok (show M.lift (.ok x) (none : SS) w = (.ok x, none, w) from rfl)] at h
        cases x with
        | error e =>
          dsimp only at h
          have hf : (ServerFinal.ioslices (.error e)).flatten = b!"e=" ++ e.bytes := by
            simp [ServerFinal.ioslices]
          rcases hwr : M.writeVectored (ServerFinal.ioslices (.error e)) (none : SS) w with ⟨r, s2, w2⟩
          rcases M.writeVectored_cases (ServerFinal.ioslices (.error e)) (none : SS) w with
            ⟨k, sched, -, -, hx | ⟨e', hx⟩⟩
          · rw [hx] at hwr
            cases hwr
            obtain ⟨-, out, sched', ho1, -, ho3, e2⟩ := M.writeVectored_eq_ok hx
            rw [hx] at h
            cases h
            rw [hf] at ho1 ho3
            exact .inr (.inl ⟨b, msg, e, out, sched', rfl, hp, hj, rfl, rfl, ho1, ho3, e2⟩)
          · rw [hx] at h
            cases h
            exact .inl ⟨nofun, rfl, rfl, rfl⟩
        | ok x =>
          obtain ⟨f, sig⟩ := x
          dsimp only at h
          have hf : (ServerFinal.ioslices (.verifier (Base64.encode sig))).flatten =
              b!"v=" ++ Base64.encode sig := by
            simp [ServerFinal.ioslices]
          rcases M.writeVectored_cases (ServerFinal.ioslices (.verifier (Base64.encode sig)))
            (none : SS) w with ⟨k, sched, -, -, hx | ⟨e', hx⟩⟩
          · obtain ⟨-, out, sched', ho1, -, ho3, e2⟩ := M.writeVectored_eq_ok hx
            rw [M.bind_ok hx] at h
            rw [hf] at ho1 ho3
            generalize hw1 : ({ w with wr := ⟨w.wr.out ++ (ServerFinal.ioslices (.verifier
              (Base64.encode sig))).flatten.take k, sched⟩ } : World) = w1 at h e2
            obtain ⟨es, hq, hv⟩ := validate_eq env (serverProvider f.username f.authzid)
              (none : SS) w1
            rw [hv] at h
            refine .inr (.inr ⟨b, msg, f, sig, out, sched', es, rfl, hp, hj, ?_, ?_, ?_, ho1, ho3, ?_,
              hq, ?_⟩)
            all_goals
              cases hr : Spec.returned env.vtag w1.slot.isNone (env.validate w1.log env.sd
                (serverProvider f.username f.authzid)) with
              | ok u => rw [hr] at h; cases h; simp [e2]
              | error e => rw [hr] at h; cases h; simp [e2]
          · rw [M.bind_err hx] at h
            cases h
            exact .inl ⟨nofun, rfl, rfl, rfl⟩

end Rsasl.Scram

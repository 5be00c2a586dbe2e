/-
C111: exactly how a SCRAM exchange ends.
-/
import Verif.Spec.ScramEnds
import Verif.Props.ScramMeets

namespace Rsasl

open Spec Scram

namespace Scram

theorem client_refused (d : Digest) (env : Env) (sig ck sk salt : Bytes) (it : UInt32) (slot : Option VVal) (rng : Nat → Nat)
    (log : List Event) (sched : List WResp) (text : Bytes) (e : ServerErrorValue)
    (h : ServerFinal.parse text = .ok (.error e)) :
    Session.step (client d) env ⟨some (.serverFirst sig ck sk salt it), slot, rng, log⟩ ⟨some text, sched⟩ =
      (⟨.err (.mechanismError (.scramServer e)), []⟩, ⟨none, slot, rng, log⟩) := by
  refine step_of (m := client d) (w' := ⟨⟨[], sched⟩, rng, slot, log⟩) ?_
  show M.bind (M.bind (M.liftOutcome (ServerFinal.parse _)) _) _ _ _ = _
  rw [h]
  rfl

theorem client_told (d : Digest) (env : Env) (sig mine ck sk salt : Bytes) (it : UInt32) (slot : Option VVal) (rng : Nat → Nat)
    (log : List Event) (sched : List WResp) :
    Session.step (client d) env ⟨some (.serverFirst mine ck sk salt it), slot, rng, log⟩
      ⟨some (b!"v=" ++ Base64.encode sig), sched⟩ = clientConvinced env ⟨none, slot, rng, log⟩ sig mine ck sk salt it := by
  unfold clientConvinced
  split
  · next h =>
    subst h
    exact C104_client_last d env _ sig ck sk salt it rfl sched
  · next h =>
    exact step_of (m := client d) (ses := ⟨some (.serverFirst mine ck sk salt it), slot, rng, log⟩)
      (c := ⟨some (b!"v=" ++ Base64.encode sig), sched⟩) (C76_client_final d env mine ck sk salt it ⟨⟨[], sched⟩, rng, slot, log⟩ _ _ (.wrong rfl h))

end Scram

/-- C111: exactly how a SCRAM exchange ends, for all pairs of callbacks, once the server has something to say to the client's
first message and the client has keys for it. -/
theorem C111_ends (d : Digest) (cenv senv : Env) (c : Session CS) (s : Session SS) (plus : CbSupport) (canBind : Bool)
    (hc : c.st = some (.initial plus)) (hs : s.st = some (.waitingClientFirst canBind)) (w : Fin 5 → List WResp)
    (hw : ∀ i, Cooperative (w i)) (o : OpeningParts) (l₁ : List Event)
    (ho : opening cenv.chanbind (fun l ctx => cenv.callback l cenv.sd ctx) c.log plus = (.ok o, l₁))
    (flag : CbFlag) (authzid : Option Str) (hh : Heading flag authzid o.header)
    (data : Bytes) (stored : Option StoredPassword) (l₂ : List Event)
    (hl : lookedUp d senv.chanbind (fun l ctx => senv.callback l senv.sd ctx) s.log canBind flag (writtenName o.name) authzid =
      (.ok (data, stored), l₂))
    (salt : Bytes) (it : UInt32) (n : Nat) (ht : saltTold s.rng stored = (salt, it, n)) (h0 : it ≠ 0)
    (ck sk : Bytes) (l₃ : List Event)
    (hg : gathered d (fun l ctx => cenv.callback l cenv.sd ctx) (c.log ++ l₁) salt it = (.are ck sk, l₃)) :
    let auth := exchangeAuth (writtenName o.name) (drawnNonce c.rng) (drawnNonce s.rng) (o.header ++ o.data) salt
      (Str.bytes (Nat.toDigits 10 it.toNat))
    scramEnding d cenv senv c s w = some (lastSteps d cenv senv
      ⟨none, c.slot, fun i => c.rng (i + 24), c.log ++ l₁ ++ l₃⟩ ⟨none, s.slot, fun i => s.rng (i + n), s.log ++ l₂⟩
      (namesOffered (writtenName o.name) authzid) (convinced d stored (decide (data = o.data)) ck auth) auth ck sk salt it) := by
  obtain ⟨hh1, hh2, hh3⟩ := hh
  have hpc : ∀ b ∈ drawnNonce c.rng, Printable b := by
    have := nonce_printable c.rng 24
    rw [List.map_map] at this
    exact this
  have hps : ∀ b ∈ drawnNonce s.rng, Printable b := by
    have := nonce_printable s.rng 24
    rw [List.map_map] at this
    exact this
  have hcn : 44 ∉ drawnNonce c.rng ++ drawnNonce s.rng := by
    rw [List.mem_append]
    exact fun h => h.elim (printable_comma hpc) (printable_comma hps)
  have hsn : drawnNonce s.rng ≠ [] := by
    intro h
    have := congrArg List.length h
    simp [drawnNonce] at this
  intro auth
  -- the client's first message
  unfold scramEnding
  rw [C104_client_first d cenv c plus hc ⟨none, w 0⟩ (hw 0), ho]
  simp only [passed_ok, Option.bind_some]
  -- the server's first message
  have e1 : o.header ++ clientFirstBare (writtenName o.name) (drawnNonce c.rng) =
      o.header ++ b!"n=" ++ Str.bytes (writtenName o.name) ++ b!",r=" ++ drawnNonce c.rng ++ Spec.tail [] := by
    simp [clientFirstBare, Spec.tail]
  have hstart : Gs2Start flag authzid o.header := by
    refine ⟨_, _, hh2, hh3, ?_, hh1⟩
    cases authzid with
    | none => rfl
    | some z => exact ⟨_, _, rfl⟩
  rw [e1, C104_server_first d senv s canBind hs flag authzid (writtenName o.name) (drawnNonce c.rng) o.header [] hstart
    (comma_writtenName _) hpc (by simp) (w 1) (hw 1), hl]
  have hi := params_decimal (drawnNonce c.rng) (drawnNonce s.rng) salt it h0 hsn hcn
  -- the client's proof
  have h2 := C104_client_second d cenv
    ⟨some (.clientFirst (Base64.encode (o.header ++ o.data)) (drawnNonce c.rng) (writtenName o.name)), c.slot,
      fun i => c.rng (i + 24), c.log ++ l₁⟩ _ _ _ rfl _ _ _ _ _ _ hi (w 2) (hw 2)
  simp only [hg] at h2
  have hauth : Spec.authMessage (clientFirstBare (writtenName o.name) (drawnNonce c.rng))
      (serverFirst (drawnNonce c.rng ++ drawnNonce s.rng) (Base64.encode salt) (Str.bytes (Nat.toDigits 10 it.toNat)))
      (clientFinalBare (Base64.encode (o.header ++ o.data)) (drawnNonce c.rng ++ drawnNonce s.rng)) = auth := rfl
  rw [hauth] at h2
  obtain ⟨hck, -⟩ := gathered_lengths hg
  -- refusals
  have refuse : ∀ (inner : Option FinalInner) (k : Nat) (text : Bytes) (e : ServerErrorValue),
      Judged d inner (Base64.encode (o.header ++ o.data)) (drawnNonce c.rng ++ drawnNonce s.rng)
        (Base64.encode (clientProof d ck auth)) (.refuse text) → ServerFinal.parse text = .ok (.error e) →
      (let r := Session.step (server d) senv ⟨some (.waitingClientFinal inner), s.slot, fun i => s.rng (i + k), s.log ++ l₂⟩
        ⟨some (clientFinalBare (Base64.encode (o.header ++ o.data)) (drawnNonce c.rng ++ drawnNonce s.rng) ++ b!",p=" ++
          Base64.encode (clientProof d ck auth)), w 3⟩
      (LastSteps.mk r (Session.step (client d) cenv
        ⟨some (.serverFirst (d.hmac sk auth) ck sk salt it), c.slot, fun i => c.rng (i + 24), c.log ++ l₁ ++ l₃⟩
        ⟨some r.1.out, w 4⟩))) =
      ⟨(⟨.ok (.finished .yes), text⟩, ⟨some .finished, s.slot, fun i => s.rng (i + k), s.log ++ l₂⟩),
        (⟨.err (.mechanismError (.scramServer e)), []⟩, ⟨none, c.slot, fun i => c.rng (i + 24), c.log ++ l₁ ++ l₃⟩)⟩ := by
    intro inner k text e hj hp
    have h := C76_server_final d senv ⟨some (.waitingClientFinal inner), s.slot, fun i => s.rng (i + k), s.log ++ l₂⟩ inner rfl
      (Base64.encode (o.header ++ o.data)) (drawnNonce c.rng ++ drawnNonce s.rng) (Base64.encode (clientProof d ck auth)) []
      ⟨Base64.comma_notMem_encode _, hcn, Base64.comma_notMem_encode _⟩ (by simp) (w 3) (hw 3) _ hj
    simp only [Spec.tail, List.append_nil] at h
    simp only [h]
    rw [client_refused d cenv _ _ _ _ _ _ _ _ _ _ e hp]
  cases stored with
  | none =>
    cases ht
    simp only [passed_ok, Option.bind_some]
    have hm : serverFirst (drawnNonce c.rng ++ drawnNonce s.rng) (Base64.encode (madeUpSalt s.rng)) (b!"16384") =
      serverFirst (drawnNonce c.rng ++ drawnNonce s.rng)
        (Base64.encode ((List.range 32).map fun i => UInt8.ofNat (s.rng (i + 24)))) (Str.bytes (Nat.toDigits 10 (16384 : UInt32).toNat)) := rfl
    rw [hm, h2]
    simp only [passed_ok, Option.map_some]
    exact congrArg some (refuse none 56 _ .unknownUser .unknown rfl)
  | some p =>
    cases ht
    simp only [passed_ok, Option.bind_some]
    rw [h2]
    simp only [passed_ok, Option.map_some]
    by_cases hd : data = o.data
    · subst hd
      generalize hf : (FinalInner.mk (drawnNonce c.rng) (drawnNonce s.rng) (gs2Header flag authzid ++ o.data) (writtenName o.name)
        authzid (Base64.encode p.salt) (Str.bytes (Nat.toDigits 10 p.iterations.toNat)) p.storedKey p.serverKey) = f
      have hfh : f.gs2Header = o.header ++ o.data := by rw [← hf, hh1]
      have hfn : f.clientNonce ++ f.serverNonce = drawnNonce c.rng ++ drawnNonce s.rng := by rw [← hf]
      have hfa : auth = authOf f := by
        rw [← hf]
        show exchangeAuth _ _ _ (o.header ++ o.data) _ _ = _
        rw [hh1]
        rfl
      have hkey : f.storedKey = p.storedKey ∧ f.serverKey = p.serverKey ∧ f.username = writtenName o.name ∧
          f.authzid = authzid := by rw [← hf]; exact ⟨rfl, rfl, rfl, rfl⟩
      obtain ⟨hk1, hk2, hk3, hk4⟩ := hkey
      obtain ⟨hright, hwrong⟩ := judged_proof (d := d) (f := f) (auth := auth) hck hfa
      rw [hfh, hfn, hk1] at hright hwrong
      unfold convinced
      simp only [decide_true, Bool.true_eq_false, if_false]
      by_cases hp : d.hash (List.zipWith (· ^^^ ·) (clientProof d ck auth) (d.hmac p.storedKey auth)) = p.storedKey
      · rw [if_neg (fun h => h hp)]
        have hr := C105_scram d senv ⟨some (.waitingClientFinal (some f)), s.slot, fun i => s.rng (i + 24), s.log ++ l₂⟩ f rfl
          (Base64.encode (o.header ++ o.data)) (drawnNonce c.rng ++ drawnNonce s.rng)
          (Base64.encode (clientProof d ck auth)) []
          ⟨Base64.comma_notMem_encode _, hcn, Base64.comma_notMem_encode _⟩ (by simp) (w 3) (hw 3) _ (hright hp)
        simp only [Spec.tail, List.append_nil] at hr
        rw [hr, hk2, hk3, hk4]
        unfold lastSteps
        simp only
        have hout : ∀ (x : Session SS) ctx text st after, (ruling senv x ctx text st after).1.out = text := by
          intro x ctx text st after
          unfold ruling
          simp only
          split <;> rfl
        rw [hout]
        unfold serverFinal
        rw [client_told]
      · rw [if_pos hp]
        exact congrArg some (refuse (some f) 24 _ .invalidProof (hwrong hp) rfl)
    · unfold convinced
      simp only [hd, decide_false, if_true]
      refine congrArg some (refuse _ 24 _ .channelBindingsDontMatch (.binding ?_) rfl)
      rw [hh1]
      simpa using fun h => hd h.symm

/-- C111: a client that finishes has talked to a server that was convinced and that signed with the client's own server key. -/
theorem C111_client (d : Digest) (cenv senv : Env) (c : Session CS) (s : Session SS) (names : Provider)
    (stored : Option StoredPassword) (same : Bool) (auth ck sk salt : Bytes) (it : UInt32) :
    (lastSteps d cenv senv c s names (convinced d stored same ck auth) auth ck sk salt it).client.1.res = .ok (.finished .no) ↔
      ∃ p, stored = some p ∧ same = true ∧
        d.hash (List.zipWith (· ^^^ ·) (clientProof d ck auth) (d.hmac p.storedKey auth)) = p.storedKey ∧
        d.hmac p.serverKey auth = d.hmac sk auth := by
  unfold convinced lastSteps
  cases stored with
  | none => simp
  | some p =>
    cases same with
    | false => simp
    | true =>
      by_cases hp : d.hash (List.zipWith (· ^^^ ·) (clientProof d ck auth) (d.hmac p.storedKey auth)) = p.storedKey
      · have h0 : ¬ (d.hash (List.zipWith (· ^^^ ·) (clientProof d ck auth) (d.hmac p.storedKey auth)) ≠ p.storedKey) :=
          fun h => h hp
        simp only [Bool.true_eq_false, if_false, if_neg h0]
        unfold clientConvinced
        by_cases h : d.hmac p.serverKey auth = d.hmac sk auth
        · rw [if_pos h]
          exact ⟨fun _ => ⟨p, rfl, trivial, hp, h⟩, fun _ => rfl⟩
        · rw [if_neg h]
          refine ⟨nofun, ?_⟩
          rintro ⟨q, hq, -, -, hs⟩
          cases hq
          exact absurd hs h
      · simp only [Bool.true_eq_false, if_false, if_pos (show _ ≠ _ from hp)]
        refine ⟨nofun, ?_⟩
        rintro ⟨q, hq, -, h, -⟩
        cases hq
        exact absurd h hp

/-! ### Examples -/

section Examples

abbrev endsOf (cenv senv : Env) : Option LastSteps :=
  scramEnding toyDigest cenv senv ⟨clientNewPlus, none, fun i => i, []⟩ ⟨serverNewPlus, none, fun i => i + 5, []⟩ (fun _ => [])

/-- A user the server does not know: the server is finished, the client has an error. -/
example : ∃ e, endsOf fitClient { exampleEnv [] with chanbind := fitBinding } = some e ∧
    e.server.1 = ⟨.ok (.finished .yes), b!"e=unknown-user"⟩ ∧
    e.client.1 = ⟨.err (.mechanismError (.scramServer .unknownUser)), []⟩ :=
  ⟨_, C111_ends toyDigest fitClient { exampleEnv [] with chanbind := fitBinding } _ _ .supported true rfl rfl _
    (by intro i r hr; simp at hr) ⟨b!"p=tls-exporter,a=a=3Db,", [1, 2, 3], c!"us,er"⟩ _ rfl (.used (b!"tls-exporter"))
    (some (c!"a=3Db")) ⟨by decide, .used _ cbName_exporter, by decide⟩ [1, 2, 3] none _ rfl _ _ _ rfl (by decide) _ _ _ rfl,
    rfl, rfl⟩

/-- Different channel binding data. -/
example : ∃ e, endsOf fitClient { fitServer with chanbind := fun _ => some [9] } = some e ∧
    e.server.1 = ⟨.ok (.finished .yes), b!"e=channel-bindings-dont-match"⟩ ∧
    e.client.1 = ⟨.err (.mechanismError (.scramServer .channelBindingsDontMatch)), []⟩ :=
  ⟨_, C111_ends toyDigest fitClient { fitServer with chanbind := fun _ => some [9] } _ _ .supported true rfl rfl _
    (by intro i r hr; simp at hr) ⟨b!"p=tls-exporter,a=a=3Db,", [1, 2, 3], c!"us,er"⟩ _ rfl (.used (b!"tls-exporter"))
    (some (c!"a=3Db")) ⟨by decide, .used _ cbName_exporter, by decide⟩ [9] (some fitStored) _ rfl _ _ _ rfl (by decide) _ _ _ rfl,
    rfl, rfl⟩

set_option maxRecDepth 20000 in
/-- The right keys, but `validate` objects: the server's step fails, and its signature is there for the client, who is
finished. -/
example : ∃ e, endsOf fitClient { fitServer with validate := fun _ _ _ => .ret (.error (.boxed 3)) } = some e ∧
    e.server.1.res = .err (.validationError (.boxed 3)) ∧ e.client.1 = ⟨.ok (.finished .no), []⟩ :=
  ⟨_, C111_ends toyDigest fitClient { fitServer with validate := fun _ _ _ => .ret (.error (.boxed 3)) } _ _
    .supported true rfl rfl _ (by intro i r hr; simp at hr) ⟨b!"p=tls-exporter,a=a=3Db,", [1, 2, 3], c!"us,er"⟩ _ rfl
    (.used (b!"tls-exporter")) (some (c!"a=3Db")) ⟨by decide, .used _ cbName_exporter, by decide⟩ [1, 2, 3] (some fitStored)
    _ rfl _ _ _ rfl (by decide) _ _ _ rfl, rfl, rfl⟩

end Examples

end Rsasl

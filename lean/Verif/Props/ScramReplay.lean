/-
C78, C79: recorded SCRAM messages are of no use in another exchange, and the two sides agree about
the exchange.
-/
import Verif.Spec.ScramReplay
import Verif.Props.ScramPolicy
import Verif.Props.ScramSteps

namespace Rsasl

open Scram Spec

/-! ## The auth message says everything -/

theorem comma_split {a b c d : Bytes} (ha : 44 ∉ a) (hb : 44 ∉ b)
    (h : a ++ 44 :: c = b ++ 44 :: d) : a = b ∧ c = d := by
  have e := comma_cancel ha hb h
  subst e
  exact ⟨rfl, (List.cons.inj (List.append_cancel_left h)).2⟩

/-- No field contains a comma. -/
structure Spec.View.Clean (v : View) : Prop where
  user : 44 ∉ Str.bytes v.user
  cnonce : 44 ∉ v.cnonce
  snonce : 44 ∉ v.snonce
  count : 44 ∉ v.count

theorem Spec.View.auth_injective {v w : View} (hv : v.Clean) (hw : w.Clean)
    (h : v.auth = w.auth) : v = w := by
  have e : ∀ v : View, v.auth = 110 :: 61 :: (Str.bytes v.user ++ 44 :: 114 :: 61 :: (v.cnonce ++ 44 ::
      114 :: 61 :: ((v.cnonce ++ v.snonce) ++ 44 :: 115 :: 61 :: (Base64.encode v.salt ++ 44 :: 105 ::
      61 :: (v.count ++ 44 :: 99 :: 61 :: (Base64.encode v.bound ++ 44 :: 114 :: 61 ::
      (v.cnonce ++ v.snonce))))))) := by
    intro v
    simp [View.auth, Spec.authMessage, clientFirstBare, serverFirst, clientFinalBare]
  rw [e v, e w] at h
  replace h := (List.cons.inj (List.cons.inj h).2).2
  obtain ⟨h1, h⟩ := comma_split hv.user hw.user h
  obtain ⟨h2, h⟩ := comma_split hv.cnonce hw.cnonce (List.cons.inj (List.cons.inj h).2).2
  obtain ⟨h3, h⟩ := comma_split (by simp [hv.cnonce, hv.snonce]) (by simp [hw.cnonce, hw.snonce])
    (List.cons.inj (List.cons.inj h).2).2
  obtain ⟨h4, h⟩ := comma_split (Base64.comma_notMem_encode _) (Base64.comma_notMem_encode _)
    (List.cons.inj (List.cons.inj h).2).2
  obtain ⟨h5, h⟩ := comma_split hv.count hw.count (List.cons.inj (List.cons.inj h).2).2
  obtain ⟨h6, -⟩ := comma_split (Base64.comma_notMem_encode _) (Base64.comma_notMem_encode _)
    (List.cons.inj (List.cons.inj h).2).2
  obtain ⟨u, cn, sn, sa, co, bo⟩ := v
  obtain ⟨u', cn', sn', sa', co', bo'⟩ := w
  dsimp only at *
  subst h2
  rw [Str.bytes_injective h1, List.append_cancel_left h3, Base64.encode_injective h4, h5,
    Base64.encode_injective h6]

theorem Spec.Escapes.noComma {name text : Str} (h : Escapes name text) : ',' ∉ text := by
  induction h with
  | nil => simp
  | comma _ ih => simp [ih]
  | equals _ ih => simp [ih]
  | other c h1 _ _ _ ih => simp [ih, Ne.symm h1]

theorem comma_notMem_drawnNonce (rng : Nat → Nat) : 44 ∉ drawnNonce rng := by
  unfold drawnNonce
  intro h
  obtain ⟨i, -, hi⟩ := List.mem_map.1 h
  exact (printable_printable _ (nonceChar_mem (rng i))).2.2 hi

theorem length_drawnNonce (rng : Nat → Nat) : (drawnNonce rng).length = 24 := by simp [drawnNonce]

theorem Spec.ClientTook.clean {d : Digest} {env : Env} {rng : Nat → Nat} {plus : CbSupport}
    {before log : List Event} {c0 c1 : Call}
    {r0 r1 : Reply State} {v : View} {it : UInt32} {ck sk : Bytes}
    (h : ClientTook d env rng plus before log c0 c1 r0 r1 v it ck sk) : v.Clean := by
  obtain ⟨es0, es1, gs2, cb, name, b, -, -, -, f, -, p, -⟩ := h
  have := p.commas
  simp only [List.mem_append, not_or] at this
  refine ⟨?_, this.1.1, this.1.2, this.2.2⟩
  rw [mem_bytes_ascii (by decide)]
  exact f.escaped.noComma

theorem Spec.ServerTook.clean {d : Digest} {env : Env} {rng : Nat → Nat} {before log : List Event} {c0 c1 : Call}
    {r0 r1 : Reply State} {v : View} {stored : StoredPassword} {given : Bytes}
    (h : ServerTook d env rng before log c0 c1 r0 r1 v stored given) : v.Clean := by
  obtain ⟨b0, flag, key, authzid, exts0, data, b1, exts1, proof, -, -, -, f, -, hc, s, -⟩ := h
  refine ⟨f.commas.2.2.1, f.commas.2.2.2.1, ?_, ?_⟩
  · rw [s.fresh]; exact comma_notMem_drawnNonce _
  · rw [hc]; exact comma_notMem_decimal _

/-! ## What the sides take from an exchange -/

theorem clientTook {d : Digest} {env : Env} {ses : Session CS} {plus : CbSupport}
    (hst : ses.st = some (.initial plus)) {c0 c1 : Call} {r0 r1 : Reply State}
    (hr : (ses.run (client d) env [c0, c1]).1 = [r0, r1])
    (h0 : r0.res = .ok .running) (h1 : r1.res = .ok .running) :
    ∃ v it ck sk, ClientTook d env ses.rng plus ses.log (ses.run (client d) env [c0, c1]).2.log c0 c1 r0
      r1 v it ck sk ∧
      ∀ c2 r2, (ses.run (client d) env [c0, c1, c2]).1 = [r0, r1, r2] →
        (∃ k, r2.res = .ok (.finished k)) → c2.input = some (serverFinal d sk v.auth) := by
  rcases k0 : ses.step (client d) env c0 with ⟨x0, s0⟩
  rcases k1 : s0.step (client d) env c1 with ⟨x1, s1⟩
  have hlog : (ses.run (client d) env [c0, c1]).2.log = s1.log := by rw [run_cons, k0, run_cons, k1]; rfl
  rw [hlog]
  rw [run_cons, k0, run_cons, k1] at hr
  cases hr
  obtain ⟨es0, l0, -, ⟨n0, d0⟩ | ⟨gs2, cb, name, user, nonce, f0, st0⟩⟩ :=
    client_first d env ses plus hst c0 _ s0 k0
  · exact absurd h0 (n0 _)
  rcases client_second d env s0 _ _ _ st0 c1 _ s1 k1 with ⟨n1, -, d1, -⟩ |
    ⟨b, sn, salt64, it64, salt, it, es1, i1, p1, l1, -, ⟨n1, d1⟩ | ⟨ck, sk, auth, f1, st1⟩⟩
  · exact absurd h1 (n1 _)
  · exact absurd h1 (n1 _)
  have hs := p1.salt
  subst hs
  have ha : auth = View.auth ⟨user, nonce, sn, salt, it64, gs2 ++ cb⟩ := by
    rw [f1.auth_eq, p1.message]
    rfl
  subst ha
  have opened : Cooperative c0.sched → ∃ o, opening env.chanbind (fun l ctx => env.callback l env.sd ctx)
      ses.log plus = (.ok o, es0) ∧ gs2 ++ cb = o.header ++ o.data := by
    intro hw
    have e := C104_client_first d env ses plus hst c0 hw
    rw [k0] at e
    split at e
    · next x l ho =>
      have := congrArg (fun y => y.1.res) e
      rw [h0] at this
      cases this
    · next o l ho =>
      have e2 := congrArg Prod.snd e
      dsimp only at e2
      subst e2
      have el : l = es0 := List.append_cancel_left l0
      subst el
      refine ⟨o, ho, ?_⟩
      injection st0 with st0
      injection st0 with st0
      exact (Base64.encode_injective st0).symm
  refine ⟨⟨user, nonce, sn, salt, it64, gs2 ++ cb⟩, it, ck, sk,
    ⟨es0, es1, gs2, cb, name, b, by rw [l1, l0], opened, rfl, f0, i1, p1, f1⟩, ?_⟩
  rintro c2 r2 hr ⟨k, hk⟩
  rcases k2 : s1.step (client d) env c2 with ⟨x2, s2⟩
  rw [run_cons, k0, run_cons, k1, run_cons, k2] at hr
  cases hr
  obtain ⟨o2, d2, h⟩ := client_third d env s1 _ _ _ _ _ st1 c2 _ s2 k2
  rcases h with ⟨i2, -⟩ | ⟨-, q2, -⟩
  · exact i2
  · exact absurd hk (q2 _)

theorem serverTook {d : Digest} {env : Env} {ses : Session SS} {canCb : Bool}
    (hst : ses.st = some (.waitingClientFirst canCb)) {calls : List Call}
    (hv : validations (ses.run (server d) env calls).2.log ≠ validations ses.log) :
    ∃ c0 c1 rest r0 r1 post v stored given, calls = c0 :: c1 :: rest ∧
      (ses.run (server d) env calls).1 = r0 :: r1 :: post ∧
      ServerTook d env ses.rng ses.log (ses.run (server d) env calls).2.log c0 c1 r0 r1 v stored given := by
  obtain ⟨es, hl, h | ⟨c0, c1, rest, r0, r1, post, b0, flag, key, authzid, user, cnonce, exts0, data,
    snonce, stored, b1, auth, exts1, given, proof, hcalls, hrs, -, hi0, hread, -, own, -, -, hans, -, -,
    hsent, ha, hi1, hpr, ho, ho', -⟩⟩ := C26_partial d env ses canCb hst calls
  · rw [hl, validations_append, h, List.append_nil] at hv
    exact absurd rfl hv
  · subst ha
    exact ⟨c0, c1, rest, r0, r1, post,
      ⟨user, cnonce, snonce, stored.salt, storedCount stored, gs2Header flag authzid ++ data⟩, stored,
      given, hcalls, hrs, b0, flag, key, authzid, exts0, data, b1, exts1, proof, ⟨es, hl, hans, own⟩, rfl, hi0,
      hread, rfl, rfl, hsent, hi1, hpr, ho, ho'⟩

/-! ## C78 -/

/-- The nonce of an accepted client-final message. -/
theorem proofGiven_nonce {d : Digest} {stored : StoredPassword} {bound nonce auth b : Bytes}
    {exts : List Bytes} {given proof nonce' : Bytes}
    (h : ProofGiven d stored bound nonce auth b exts given proof) (hn : 44 ∉ nonce)
    (hb : FinalNonce b nonce') : nonce' = nonce := by
  obtain ⟨hn44, cb, rest, hcb, e⟩ := hb
  rw [h.message] at e
  obtain ⟨t, ht⟩ : ∃ t, extensions exts ++ b!",p=" ++ Base64.encode given = 44 :: t := by
    cases exts with
    | nil => exact ⟨_, rfl⟩
    | cons x xs => exact ⟨x ++ (extensions xs ++ b!",p=" ++ Base64.encode given), by simp [extensions]⟩
  have e' : Base64.encode bound ++ 44 :: 114 :: 61 :: (nonce ++ 44 :: t) =
      cb ++ 44 :: 114 :: 61 :: (nonce' ++ 44 :: rest) := by
    have : ∀ {x y : Bytes}, 99 :: 61 :: x = 99 :: 61 :: y → x = y := fun h =>
      (List.cons.inj (List.cons.inj h).2).2
    apply this
    rw [← ht]
    simpa [clientFinalBare] using e
  obtain ⟨-, e2⟩ := comma_split (Base64.comma_notMem_encode _) hcb e'
  exact (comma_split hn hn44 (List.cons.inj (List.cons.inj e2).2).2).1.symm

/-- A client-final message whose nonce does not end with the nonce this session has drawn is not
accepted. -/
theorem C78_server (d : Digest) (env : Env) (ses : Session SS) (canCb : Bool)
    (hst : ses.st = some (.waitingClientFirst canCb)) (c0 c1 : Call) (calls : List Call)
    (b nonce : Bytes) (hin : c1.input = some b) (hb : FinalNonce b nonce)
    (hn : ¬ drawnNonce ses.rng <:+ nonce) :
    validations (ses.run (server d) env (c0 :: c1 :: calls)).2.log = validations ses.log := by
  apply Classical.byContradiction
  intro hv
  obtain ⟨c0', c1', rest, r0, r1, post, v, stored, given, hc, -, ht⟩ := serverTook hst hv
  have hcl := ht.clean
  obtain ⟨b0, flag, key, authzid, exts0, data, b1, exts1, proof, -, -, -, -, -, -, hs, hi, hp, -⟩ := ht
  cases hc
  rw [hin] at hi
  cases hi
  apply hn
  rw [proofGiven_nonce hp (by simp [hcl.cnonce, hcl.snonce]) hb, hs.fresh]
  exact List.suffix_append _ _

/-- A client-final message with which one session was convinced convinces no other, unless the
server has drawn the same nonce again: whatever the two servers, their users and the other messages
are. -/
theorem C78_once (d d' : Digest) (env env' : Env) (ses ses' : Session SS) (canCb canCb' : Bool)
    (hst : ses.st = some (.waitingClientFirst canCb))
    (hst' : ses'.st = some (.waitingClientFirst canCb')) (c0 c1 c0' c1' : Call)
    (calls calls' : List Call) (hsame : c1.input = c1'.input)
    (hv : validations (ses.run (server d) env (c0 :: c1 :: calls)).2.log ≠ validations ses.log)
    (hn : drawnNonce ses.rng ≠ drawnNonce ses'.rng) :
    validations (ses'.run (server d') env' (c0' :: c1' :: calls')).2.log = validations ses'.log := by
  apply Classical.byContradiction
  intro hv'
  obtain ⟨_, _, _, r0, r1, post, v, stored, given, hc, -, ht⟩ := serverTook hst hv
  obtain ⟨_, _, _, r0', r1', post', v', stored', given', hc', -, ht'⟩ := serverTook hst' hv'
  have hcl := ht.clean
  have hcl' := ht'.clean
  obtain ⟨-, -, -, -, -, -, b1, exts1, proof, -, -, -, -, -, -, hs, hi, hp, -⟩ := ht
  obtain ⟨-, -, -, -, -, -, b1', exts1', proof', -, -, -, -, -, -, hs', hi', hp', -⟩ := ht'
  cases hc
  cases hc'
  rw [hsame, hi'] at hi
  cases hi
  have hf : FinalNonce b1 (v.cnonce ++ v.snonce) := by
    refine ⟨by simp [hcl.cnonce, hcl.snonce], Base64.encode v.bound, ?_⟩
    rw [hp.message]
    cases exts1 with
    | nil => exact ⟨b!"p=" ++ Base64.encode given, Base64.comma_notMem_encode _,
        by simp [clientFinalBare, extensions]⟩
    | cons e es => exact ⟨e ++ extensions es ++ b!",p=" ++ Base64.encode given,
        Base64.comma_notMem_encode _, by simp [clientFinalBare, extensions]⟩
  have := proofGiven_nonce hp' (by simp [hcl'.cnonce, hcl'.snonce]) hf
  have hlen : v.snonce.length = v'.snonce.length := by rw [hs.length, hs'.length]
  have := (List.append_inj' this hlen).2
  rw [hs.fresh, hs'.fresh] at this
  exact hn this

/-- A server-first message whose nonce does not begin with the nonce this client has drawn is
refused; nothing is sent, and no secret asked for. -/
theorem C78_client (d : Digest) (env : Env) (ses : Session CS) (plus : CbSupport)
    (hst : ses.st = some (.initial plus)) (c0 c1 : Call) (r0 r1 : Reply State)
    (hr : (ses.run (client d) env [c0, c1]).1 = [r0, r1]) (h0 : r0.res = .ok .running)
    (b nonce : Bytes) (hin : c1.input = some b) (hb : FirstNonce b nonce)
    (hn : ¬ drawnNonce ses.rng <+: nonce) :
    (∀ st, r1.res ≠ .ok st) ∧ r1.out = [] ∧
      (ses.run (client d) env [c0, c1]).2.log = (ses.run (client d) env [c0]).2.log := by
  obtain ⟨es0, gs2, cb, name, user, cnonce, -, f0, h⟩ := C28_refused d env ses plus hst c0 c1 r0 r1 hr h0
  apply h
  rintro ⟨b', sn, salt64, it64, salt, it, hi, p⟩
  rw [hin] at hi
  cases hi
  apply hn
  obtain ⟨hn44, t, ht⟩ := hb
  have hm := p.message
  rw [← ht] at hm
  have e : nonce ++ 44 :: t = (cnonce ++ sn) ++ 44 :: (b!"s=" ++ salt64 ++ b!",i=" ++ it64) := by
    have : ∀ {x y : Bytes}, 114 :: 61 :: x = 114 :: 61 :: y → x = y := fun h =>
      (List.cons.inj (List.cons.inj h).2).2
    apply this
    simpa [serverFirst] using hm
  rw [comma_cancel hn44 p.commas.1 e, f0.fresh]
  exact List.prefix_append _ _

/-- Two exchanges in which clients with the same server key finish on the same server-final message
are the same exchange, or their auth messages are a collision of HMAC under that key. -/
theorem C78_verifier (d : Digest) (env env' : Env) (ses ses' : Session CS) (plus plus' : CbSupport)
    (hst : ses.st = some (.initial plus)) (hst' : ses'.st = some (.initial plus'))
    (c0 c1 c2 c0' c1' c2' : Call) (r0 r1 r2 r0' r1' r2' : Reply State)
    (hr : (ses.run (client d) env [c0, c1, c2]).1 = [r0, r1, r2])
    (hr' : (ses'.run (client d) env' [c0', c1', c2']).1 = [r0', r1', r2'])
    (h : r0.res = .ok .running ∧ r1.res = .ok .running ∧ r2.res = .ok (.finished .no))
    (h' : r0'.res = .ok .running ∧ r1'.res = .ok .running ∧ r2'.res = .ok (.finished .no))
    (hsame : c2.input = c2'.input) :
    ∃ v it ck sk v' it' ck' sk',
      ClientTook d env ses.rng plus ses.log (ses.run (client d) env [c0, c1]).2.log c0 c1 r0 r1 v it ck sk ∧
      ClientTook d env' ses'.rng plus' ses'.log (ses'.run (client d) env' [c0', c1']).2.log c0' c1' r0' r1'
        v' it' ck' sk' ∧
      (sk = sk' → v = v' ∨ Collision (d.hmac sk) v.auth v'.auth) := by
  have two : ∀ {env : Env} {ses : Session CS} {c0 c1 c2 : Call} {r0 r1 r2 : Reply State},
      (ses.run (client d) env [c0, c1, c2]).1 = [r0, r1, r2] →
      (ses.run (client d) env [c0, c1]).1 = [r0, r1] := by
    intro env ses c0 c1 c2 r0 r1 r2 h
    rw [run_cons, run_cons, run_cons] at h
    rw [run_cons, run_cons]
    simp only [List.cons.injEq] at h
    simp only [List.cons.injEq]
    exact ⟨h.1, h.2.1, rfl⟩
  obtain ⟨v, it, ck, sk, ht, hf⟩ := clientTook hst (two hr) h.1 h.2.1
  obtain ⟨v', it', ck', sk', ht', hf'⟩ := clientTook hst' (two hr') h'.1 h'.2.1
  refine ⟨v, it, ck, sk, v', it', ck', sk', ht, ht', ?_⟩
  rintro rfl
  have e1 := hf c2 r2 hr ⟨_, h.2.2⟩
  have e2 := hf' c2' r2' hr' ⟨_, h'.2.2⟩
  rw [hsame, e2] at e1
  have e : d.hmac sk v'.auth = d.hmac sk v.auth := by
    have := Option.some.inj e1
    unfold serverFinal at this
    exact Base64.encode_injective (List.append_cancel_left this)
  by_cases hv : v.auth = v'.auth
  · exact .inl (View.auth_injective ht.clean ht'.clean hv)
  · exact .inr ⟨hv, e.symm⟩

/-- The message that convinced one server, sent to another which has drawn another nonce; a client
that gets the server-first message of another exchange; and the premises of `C78_verifier`. -/
example :
    let calls : List Call := [⟨some (b!"n,,n=user,r=abc"), []⟩, ⟨some rightFinal, []⟩]
    let ses := serverAt (serverNew false)
    let ses' : Session SS := { ses with rng := fun _ => 1 }
    (validations (ses.run (server toyDigest) oneUserEnv calls).2.log).length = 1 ∧
    drawnNonce ses.rng ≠ drawnNonce ses'.rng ∧
    (validations (ses'.run (server toyDigest) oneUserEnv calls).2.log).length = 0 := by
  decide +kernel

def keyEnv : Env :=
  exampleEnv [⟨.authId, c!"user"⟩, ⟨.scramCachedPassword, (⟨[9], [9]⟩ : CachedPassword)⟩]

def keyClient (i : Nat) : Session CS := ⟨clientNew false, none, fun _ => i, []⟩

def keyServerFirst : Bytes :=
  b!"r=\"\"\"\"\"\"\"\"\"\"\"\"\"\"\"\"\"\"\"\"\"\"\"\"!!!!!!!!!!!!!!!!!!!!!!!!,s=AAAA,i=4096"

example :
    ((keyClient 1).run (client toyDigest) keyEnv [⟨none, []⟩, ⟨some keyServerFirst, []⟩,
        ⟨some (b!"v=/w=="), []⟩]).1.map (fun r => decide (r.res = .ok .running)) =
      [true, true, false] ∧
    FirstNonce keyServerFirst (b!"\"\"\"\"\"\"\"\"\"\"\"\"\"\"\"\"\"\"\"\"\"\"\"\"!!!!!!!!!!!!!!!!!!!!!!!!") ∧
    ¬ drawnNonce (keyClient 0).rng <+: b!"\"\"\"\"\"\"\"\"\"\"\"\"\"\"\"\"\"\"\"\"\"\"\"\"!!!!!!!!!!!!!!!!!!!!!!!!" ∧
    ((keyClient 0).run (client toyDigest) keyEnv [⟨none, []⟩, ⟨some keyServerFirst, []⟩]).1.map
      (fun r => decide (r.res = .ok .running)) = [true, false] := by
  refine ⟨by decide +kernel, ⟨by decide +kernel, b!"s=AAAA,i=4096", by decide +kernel⟩,
    by decide +kernel, by decide +kernel⟩

/-! ## C79 -/

theorem xor_cancel_left {a x y : Bytes} (hx : x.length = y.length) (ha : a.length = x.length)
    (h : Scram.xor (Scram.xor a x) y = a) : x = y := by
  have h1 := Scram.xor_cancel a y (by omega)
  have h2 := Scram.xor_cancel (Scram.xor a x) y (by rw [length_xor]; omega)
  rw [h] at h2
  have h3 : Scram.xor a x = Scram.xor a y := h2.symm
  clear h h1 h2
  induction a generalizing x y with
  | nil =>
    have : x = [] := List.length_eq_zero_iff.1 (by simpa using ha.symm)
    subst this
    exact (List.length_eq_zero_iff.1 (by simpa using hx.symm)).symm
  | cons b a ih =>
    cases x with
    | nil => simp at ha
    | cons p x =>
      cases y with
      | nil => simp at hx
      | cons q y =>
        unfold Scram.xor at h3
        simp only [List.zipWith_cons_cons, List.cons.injEq] at h3
        have hpq : p = q := by
          have := congrArg (b ^^^ ·) h3.1
          simpa [← UInt8.xor_assoc] using this
        rw [hpq, ih (by simpa using hx) (by simpa using ha) h3.2]

/-- Both sides agree, or else a collision is at hand. -/
theorem agree {d : Digest} {env env' : Env} {rng rng' : Nat → Nat} {plus : CbSupport}
    {before log before' log' : List Event} {c0 c1 x0 x1 : Call}
    {r0 r1 y0 y1 : Reply State} {v w : View} {it : UInt32} {ck sk given : Bytes}
    {stored : StoredPassword} (hc : ClientTook d env' rng plus before log c0 c1 r0 r1 v it ck sk)
    (hs : ServerTook d env rng' before' log' x0 x1 y0 y1 w stored given) (h : v.auth = w.auth) :
    v = w ∧ it = stored.iterations := by
  have e := View.auth_injective hc.clean hs.clean h
  refine ⟨e, ?_⟩
  obtain ⟨es0, es1, gs2, cb, name, b, -, -, -, -, -, p, -⟩ := hc
  obtain ⟨b0, flag, key, authzid, exts0, data, b1, exts1, proof, -, -, -, -, -, hcount, -⟩ := hs
  obtain ⟨text, ht, hd⟩ := p.count
  rw [e, hcount] at ht
  have := Str.bytes_injective ht
  rw [← this] at hd
  have h2 := parseU32_iff.2 hd
  rw [parseU32_decimal] at h2
  exact (Option.some.inj h2).symm

/-- A server that accepts the proof some client with the same key has sent takes the exchange to be
what that client takes it to be: the user, the nonces, the salt, the iteration count, the gs2 header
and the channel binding data; whatever happened to the messages on their way. If not, the two auth
messages are a collision of HMAC, or the client key and another input one of the hash function. -/
theorem C79_server (d : Digest) (env env' : Env) (cs : Session CS) (ss : Session SS)
    (plus : CbSupport) (canCb : Bool) (hst : cs.st = some (.initial plus))
    (hst' : ss.st = some (.waitingClientFirst canCb)) (c0 c1 x0 x1 : Call) (r0 r1 : Reply State)
    (calls : List Call) (hr : (cs.run (client d) env [c0, c1]).1 = [r0, r1])
    (h : r0.res = .ok .running ∧ r1.res = .ok .running) (hw : Cooperative c1.sched)
    (hv : validations (ss.run (server d) env' (x0 :: x1 :: calls)).2.log ≠ validations ss.log)
    (b : Bytes) (hin : x1.input = some b) (hproof : lastAttribute b = lastAttribute r1.out) :
    ∃ v it ck sk w y0 y1 post stored given,
      ClientTook d env cs.rng plus cs.log (cs.run (client d) env [c0, c1]).2.log c0 c1 r0 r1 v it ck sk ∧
      (ss.run (server d) env' (x0 :: x1 :: calls)).1 = y0 :: y1 :: post ∧
      ServerTook d env' ss.rng ss.log (ss.run (server d) env' (x0 :: x1 :: calls)).2.log x0 x1 y0 y1 w stored
        given ∧
      (stored.storedKey = d.hash ck →
        (v = w ∧ it = stored.iterations) ∨
        Collision (d.hmac stored.storedKey) v.auth w.auth ∨
        ∃ x, Collision d.hash ck x) := by
  obtain ⟨v, it, ck, sk, ht, -⟩ := clientTook hst hr h.1 h.2
  obtain ⟨_, _, _, y0, y1, post, w, stored, given, hcalls, hys, hs⟩ := serverTook hst' hv
  cases hcalls
  refine ⟨v, it, ck, sk, w, y0, y1, post, stored, given, ht, hys, hs, fun hk => ?_⟩
  have ag := agree ht hs
  obtain ⟨es0, es1, gs2, cb, name, b', -, -, -, -, -, -, f⟩ := ht
  obtain ⟨-, -, -, -, -, -, b1, exts1, proof, -, -, -, -, -, -, -, hi, hp, -⟩ := hs
  rw [hin] at hi
  cases hi
  have hg : given = clientProof d ck v.auth := by
    have e1 : lastAttribute b = b!"p=" ++ Base64.encode given := by
      rw [hp.message, show ∀ x y : Bytes, x ++ b!",p=" ++ y = x ++ b!"," ++ (b!"p=" ++ y) by simp]
      refine (beforeLastComma_append ?_).2
      have := Base64.comma_notMem_encode given
      simp [this]
    have e2 : lastAttribute r1.out = b!"p=" ++ Base64.encode (clientProof d ck v.auth) := by
      rw [f.whole hw, show ∀ x y : Bytes, x ++ b!",p=" ++ y = x ++ b!"," ++ (b!"p=" ++ y) by simp]
      refine (beforeLastComma_append ?_).2
      have := Base64.comma_notMem_encode (clientProof d ck v.auth)
      simp [this]
    rw [e1, e2] at hproof
    exact Base64.encode_injective (List.append_cancel_left hproof)
  have hl : (clientProof d ck v.auth).length = d.outLen := by
    show (Scram.xor _ _).length = _
    rw [length_xor, d.hmac_length, f.lengths.1, Nat.min_self]
  have hpr := hp.proven
  rw [hp.padded, hg, hl, Nat.sub_self, List.replicate_zero, List.append_nil] at hpr
  by_cases hx : Scram.xor (clientProof d ck v.auth) (d.hmac stored.storedKey w.auth) = ck
  · have := xor_cancel_left (by rw [d.hmac_length, d.hmac_length])
      (by rw [d.hmac_length, f.lengths.1]) hx
    by_cases ha : v.auth = w.auth
    · exact .inl (ag ha)
    · refine .inr (.inl ⟨ha, ?_⟩)
      rw [hk, this, hk]
  · refine .inr (.inr ⟨_, Ne.symm hx, ?_⟩)
    rw [← hk]
    exact hpr.symm

/-- The same for the client: if it finishes on what a server with the same key has sent. -/
theorem C79_client (d : Digest) (env env' : Env) (cs : Session CS) (ss : Session SS)
    (plus : CbSupport) (canCb : Bool) (hst : cs.st = some (.initial plus))
    (hst' : ss.st = some (.waitingClientFirst canCb)) (c0 c1 c2 x0 x1 : Call)
    (r0 r1 r2 y0 y1 : Reply State) (post : List (Reply State))
    (calls : List Call) (hr : (cs.run (client d) env [c0, c1, c2]).1 = [r0, r1, r2])
    (h : r0.res = .ok .running ∧ r1.res = .ok .running ∧ r2.res = .ok (.finished .no))
    (hw : Cooperative x1.sched)
    (hv : validations (ss.run (server d) env' (x0 :: x1 :: calls)).2.log ≠ validations ss.log)
    (hy : (ss.run (server d) env' (x0 :: x1 :: calls)).1 = y0 :: y1 :: post)
    (hin : c2.input = some y1.out) :
    ∃ v it ck sk w stored given,
      ClientTook d env cs.rng plus cs.log (cs.run (client d) env [c0, c1]).2.log c0 c1 r0 r1 v it ck sk ∧
      ServerTook d env' ss.rng ss.log (ss.run (server d) env' (x0 :: x1 :: calls)).2.log x0 x1 y0 y1 w stored
        given ∧
      (stored.serverKey = sk →
        (v = w ∧ it = stored.iterations) ∨ Collision (d.hmac sk) v.auth w.auth) := by
  have hr2 : (cs.run (client d) env [c0, c1]).1 = [r0, r1] := by
    rw [run_cons, run_cons, run_cons] at hr
    rw [run_cons, run_cons]
    simp only [List.cons.injEq] at hr
    simp only [List.cons.injEq]
    exact ⟨hr.1, hr.2.1, rfl⟩
  obtain ⟨v, it, ck, sk, ht, hf⟩ := clientTook hst hr2 h.1 h.2.1
  obtain ⟨_, _, _, y0', y1', post', w, stored, given, hcalls, hys, hs⟩ := serverTook hst' hv
  cases hcalls
  rw [hy] at hys
  cases hys
  refine ⟨v, it, ck, sk, w, stored, given, ht, hs, fun hk => ?_⟩
  have ag := agree ht hs
  obtain ⟨-, -, -, -, -, -, b1, exts1, proof, -, -, -, -, -, -, -, -, -, -, ho⟩ := hs
  have e := hf c2 r2 hr ⟨_, h.2.2⟩
  rw [hin, ho hw, hk] at e
  have e : d.hmac sk w.auth = d.hmac sk v.auth := by
    have := Option.some.inj e
    unfold serverFinal at this
    exact Base64.encode_injective (List.append_cancel_left this)
  by_cases ha : v.auth = w.auth
  · exact .inl (ag ha)
  · exact .inr ⟨ha, e.symm⟩

/-- A client and a server for which the premises hold, as do the conclusions. -/
example :
    let first : Bytes := b!"y,,n=user,r=\"\"\"\"\"\"\"\"\"\"\"\"\"\"\"\"\"\"\"\"\"\"\"\""
    let final : Bytes := b!"c=eSws,r=\"\"\"\"\"\"\"\"\"\"\"\"\"\"\"\"\"\"\"\"\"\"\"\"!!!!!!!!!!!!!!!!!!!!!!!!,p=/g=="
    let done := (serverAt (serverNew false)).run (server toyDigest) oneUserEnv
      [⟨some first, []⟩, ⟨some final, []⟩]
    (validations done.2.log).length = 1 ∧
    done.1.map (fun r => r.out) = [keyServerFirst, b!"v=kg=="] ∧
    oneUser.storedKey = toyDigest.hash [9] ∧ oneUser.serverKey = [9] ∧
    ((keyClient 1).run (client toyDigest) keyEnv [⟨none, []⟩, ⟨some keyServerFirst, []⟩,
        ⟨some (b!"v=kg=="), []⟩]).1.map (fun r => (r.res, r.out)) =
      [(.ok .running, first), (.ok .running, final), (.ok (.finished .no), [])] := by
  decide +kernel

end Rsasl

/-
C25, C28, C51: the SCRAM client against any server.
-/
import Verif.Spec.ScramSession
import Verif.Proofs.ScramClientRun
import Verif.Proofs.Run
import Verif.Props.ScramMsgs
import Verif.Spec.Examples

namespace Rsasl

open Scram

/-! ## The three steps of a session -/

theorem serverParams_iff {cn input sn salt64 it64 salt : Bytes} {it : UInt32} :
    Spec.ServerParams cn input sn salt64 it64 salt it ↔
      GoodServerFirst cn input sn salt64 it64 salt it := by
  constructor
  · rintro ⟨h1, h2, h3, h4, ⟨t, h5, h6⟩, h7⟩
    exact ⟨h1, h2, h3, by rw [h4, Base64.decode_encode], ⟨t, h5, parseU32_iff.2 h6⟩, h7⟩
  · rintro ⟨h1, h2, h3, h4, ⟨t, h5, h6⟩, h7⟩
    exact ⟨h1, h2, h3, Base64.decode_eq_some_iff.1 h4, ⟨t, h5, parseU32_iff.1 h6⟩, h7⟩

/-- A session of the SCRAM client whose state was taken only panics. -/
theorem client_dead (d : Digest) (env : Env) (ses : Session CS) (hst : ses.st = none)
    (calls : List Call) :
    ses.run (client d) env calls = (calls.map fun _ => ⟨.panic, []⟩, ses) := by
  induction calls with
  | nil => rfl
  | cons c cs ih =>
    have h : ses.step (client d) env c = (⟨.panic, []⟩, ses) := by
      obtain ⟨st, slot, rng, log⟩ := ses
      cases hst
      rfl
    rw [run_cons, h]
    simp only [List.map_cons, Prod.mk.injEq]
    exact ⟨by rw [ih], by rw [ih]⟩

theorem client_dead_ok {d : Digest} {env : Env} {ses : Session CS} (hst : ses.st = none)
    {calls : List Call} {r : Reply State} (hr : r ∈ (ses.run (client d) env calls).1) :
    r.res = .panic := by
  rw [client_dead d env ses hst] at hr
  obtain ⟨c, -, rfl⟩ := List.mem_map.1 hr
  rfl

/-- The first step. -/
theorem client_first (d : Digest) (env : Env) (ses : Session CS) (plus : CbSupport)
    (hst : ses.st = some (.initial plus)) (c : Call) (r : Reply State) (ses' : Session CS)
    (h : ses.step (client d) env c = (r, ses')) :
    ∃ es, ses'.log = ses.log ++ es ∧ (∀ e ∈ es, Concerns firstAsks e) ∧
      (((∀ st, r.res ≠ .ok st) ∧ ses'.st = none) ∨
       ∃ gs2 cb name user nonce, Spec.ClientFirstSent ses.rng plus c r es gs2 cb name user nonce ∧
        ses'.st = some (.clientFirst (Base64.encode (gs2 ++ cb)) nonce user)) := by
  obtain ⟨st, slot, rng, log⟩ := ses
  dsimp only at hst
  subst hst
  have hl := clientStep_initial_log d nonceLen env c.input plus ⟨⟨[], c.sched⟩, rng, slot, log⟩
  rcases hs : clientStep d nonceLen env c.input (some (.initial plus))
    ⟨⟨[], c.sched⟩, rng, slot, log⟩ with ⟨o, s', w'⟩
  have he : ses' = ⟨s', w'.slot, w'.rng, w'.log⟩ ∧ r = ⟨o, w'.wr.out⟩ := by
    rw [step_of (m := client d) hs] at h
    cases h
    exact ⟨rfl, rfl⟩
  obtain ⟨rfl, rfl⟩ := he
  rw [hs] at hl
  obtain ⟨⟨es, h1, h2⟩, h3⟩ := hl
  refine ⟨es, h1, h2, ?_⟩
  cases o with
  | err e => exact .inl ⟨nofun, h3 nofun⟩
  | panic => exact .inl ⟨nofun, h3 nofun⟩
  | ok st =>
    right
    obtain ⟨rfl, new, header, cbdata, name, user, nonce, o, sched, es', rfl, k⟩ :=
      clientStep_initial_ok hs
    have hw := k.hworld
    subst hw
    have hes : es' = es := List.append_cancel_left h1
    subst hes
    refine ⟨header, cbdata.getD [], name, user, nonce, ⟨rfl, ?_, ?_, k.hanswered,
      C32_rfc _ _ k.huser, ?_, ?_, ?_, ?_, ?_⟩, ?_⟩
    · cases plus <;> exact k.hflag
    · intro hp; rw [k.hcbdata hp]; rfl
    · rw [k.hnonce]; simp [nonceLen, Spec.drawnNonce]
    · rw [k.hnonce]; simp [nonceLen]
    · intro b hb
      rw [k.hnonce] at hb
      obtain ⟨i, -, rfl⟩ := List.mem_map.1 hb
      exact printable_printable _ (nonceChar_mem i)
    · simpa [World.after] using k.hout
    · intro hc
      simpa [World.after] using k.hall hc
    · show some new = _
      rw [k.hnew]

/-- The second step. -/
theorem client_second (d : Digest) (env : Env) (ses : Session CS) (bound cn : Bytes) (user : Str)
    (hst : ses.st = some (.clientFirst (Base64.encode bound) cn user)) (c : Call)
    (r : Reply State) (ses' : Session CS) (h : ses.step (client d) env c = (r, ses')) :
    ((∀ st, r.res ≠ .ok st) ∧ r.out = [] ∧ ses'.st = none ∧ ses'.log = ses.log ∧
      ¬ ∃ b sn salt64 it64 salt it, c.input = some b ∧
        Spec.ServerParams cn b sn salt64 it64 salt it) ∨
    ∃ b sn salt64 it64 salt it es, c.input = some b ∧
      Spec.ServerParams cn b sn salt64 it64 salt it ∧ ses'.log = ses.log ++ es ∧
      (∀ e ∈ es, SecretEvent salt it e) ∧
      (((∀ st, r.res ≠ .ok st) ∧ ses'.st = none) ∨
       ∃ ck sk auth, Spec.ClientFinalSent d c r es bound user cn sn b salt it ck sk auth ∧
        ses'.st = some (.serverFirst (d.hmac sk auth) ck sk salt it)) := by
  obtain ⟨st, slot, rng, log⟩ := ses
  dsimp only at hst
  subst hst
  rcases hs : clientStep d nonceLen env c.input (some (.clientFirst (Base64.encode bound) cn user))
    ⟨⟨[], c.sched⟩, rng, slot, log⟩ with ⟨o, s', w'⟩
  have he : ses' = ⟨s', w'.slot, w'.rng, w'.log⟩ ∧ r = ⟨o, w'.wr.out⟩ := by
    rw [step_of (m := client d) hs] at h
    cases h
    exact ⟨rfl, rfl⟩
  obtain ⟨rfl, rfl⟩ := he
  rcases clientStep_second hs with ⟨h1, rfl, rfl, h2⟩ | ⟨b, sn, salt64, it64, salt, it, es, h1, h2, h3, h4, h5⟩
  · refine .inl ⟨h1, rfl, rfl, rfl, ?_⟩
    rintro ⟨b, sn, salt64, it64, salt, it, h3, h4⟩
    exact h2 ⟨b, sn, salt64, it64, salt, it, h3, serverParams_iff.1 h4⟩
  · refine .inr ⟨b, sn, salt64, it64, salt, it, es, h1, serverParams_iff.2 h2, h3, h4, ?_⟩
    rcases h5 with h5 | ⟨rfl, new, ck, sk, auth, out, sched, rfl, k⟩
    · exact .inl h5
    · refine .inr ⟨ck, sk, auth, ⟨rfl, k.hauth, k.hkeys, ⟨k.hck, k.hsk⟩, ?_, ?_⟩, ?_⟩
      · rw [k.hworld]; simpa [World.after] using k.hout
      · intro hc
        rw [k.hworld]
        simpa [World.after] using k.hall hc
      · show some new = _
        rw [k.hnew]

/-- The third step. -/
theorem client_third (d : Digest) (env : Env) (ses : Session CS) (v ck sk salt : Bytes)
    (it : UInt32) (hst : ses.st = some (.serverFirst v ck sk salt it)) (c : Call)
    (r : Reply State) (ses' : Session CS) (h : ses.step (client d) env c = (r, ses')) :
    r.out = [] ∧ ses'.st = none ∧
    ((c.input = some (b!"v=" ++ Base64.encode v) ∧ r.res = .ok (.finished .no) ∧
        ∃ es, ses'.log = ses.log ++
            .notified .scramCachedPassword (clientProvider salt it) :: es ∧
          (es = [] ∨ es = [.delivered .scramCachedPassword (⟨ck, sk⟩ : CachedPassword)])) ∨
     (c.input ≠ some (b!"v=" ++ Base64.encode v) ∧ (∀ st, r.res ≠ .ok st) ∧
      ses'.log = ses.log)) := by
  obtain ⟨st, slot, rng, log⟩ := ses
  dsimp only at hst
  subst hst
  rcases hs : clientStep d nonceLen env c.input (some (.serverFirst v ck sk salt it))
    ⟨⟨[], c.sched⟩, rng, slot, log⟩ with ⟨o, s', w'⟩
  have he : ses' = ⟨s', w'.slot, w'.rng, w'.log⟩ ∧ r = ⟨o, w'.wr.out⟩ := by
    rw [step_of (m := client d) hs] at h
    cases h
    exact ⟨rfl, rfl⟩
  obtain ⟨rfl, rfl⟩ := he
  obtain ⟨rfl, ⟨h1, rfl, es, rfl, h2⟩ | ⟨h1, h2, rfl⟩⟩ := clientStep_third hs
  · exact ⟨rfl, rfl, .inl ⟨h1, rfl, es, rfl, h2⟩⟩
  · exact ⟨rfl, rfl, .inr ⟨h1, h2, rfl⟩⟩

/-! ## C25 -/

/-- A client session that reports `Finished` did so in its third call. The first two calls were an
exchange of client-first, server-first and client-final message, and the third input was exactly
the server's signature, under the client's server key, over the messages of this exchange. -/
theorem C25 (d : Digest) (env : Env) (ses : Session CS) (plus : CbSupport)
    (hst : ses.st = some (.initial plus)) (calls : List Call) (r : Reply State) (k : MessageSent)
    (hr : r ∈ (ses.run (client d) env calls).1) (hk : r.res = .ok (.finished k)) :
    ∃ c0 c1 c2 rest r0 r1 post, calls = c0 :: c1 :: c2 :: rest ∧
      (ses.run (client d) env calls).1 = r0 :: r1 :: r :: post ∧ k = .no ∧
      (∀ x ∈ post, x.res = .panic) ∧
      ∃ es0 es1 gs2 cb name user nonce b snonce salt64 it64 salt it ck sk auth,
        Spec.ClientFirstSent ses.rng plus c0 r0 es0 gs2 cb name user nonce ∧
        c1.input = some b ∧ Spec.ServerParams nonce b snonce salt64 it64 salt it ∧
        Spec.ClientFinalSent d c1 r1 es1 (gs2 ++ cb) user nonce snonce b salt it ck sk auth ∧
        (∃ es2, (ses.run (client d) env calls).2.log = ses.log ++ es0 ++ es1 ++ es2) ∧
        c2.input = some (Spec.serverFinal d sk auth) := by
  have notok : ∀ {x : Reply State}, (∀ st, x.res ≠ .ok st) → x ≠ r := by
    rintro x hx rfl; exact hx _ hk
  cases calls with
  | nil => cases hr
  | cons c0 cs =>
    rcases h0 : ses.step (client d) env c0 with ⟨r0, s0⟩
    obtain ⟨es0, l0, -, ⟨n0, d0⟩ | ⟨gs2, cb, name, user, nonce, f0, st0⟩⟩ :=
      client_first d env ses plus hst c0 r0 s0 h0
    · rw [run_cons, h0] at hr
      rcases List.mem_cons.1 hr with rfl | hr
      · exact absurd rfl (notok n0)
      · rw [client_dead_ok d0 hr] at hk; cases hk
    · cases cs with
      | nil =>
        rw [run_cons, h0] at hr
        rcases List.mem_cons.1 hr with rfl | hr
        · rw [f0.running] at hk; cases hk
        · cases hr
      | cons c1 cs =>
        rcases h1 : s0.step (client d) env c1 with ⟨r1, s1⟩
        rw [run_cons, h0] at hr ⊢
        rcases List.mem_cons.1 hr with rfl | hr
        · rw [f0.running] at hk; cases hk
        · rcases client_second d env s0 _ _ _ st0 c1 r1 s1 h1 with ⟨n1, -, d1, -⟩ |
            ⟨b, sn, salt64, it64, salt, it, es1, i1, p1, l1, -, ⟨n1, d1⟩ | ⟨ck, sk, auth, f1, st1⟩⟩
          · rw [run_cons, h1] at hr
            rcases List.mem_cons.1 hr with rfl | hr
            · exact absurd rfl (notok n1)
            · rw [client_dead_ok d1 hr] at hk; cases hk
          · rw [run_cons, h1] at hr
            rcases List.mem_cons.1 hr with rfl | hr
            · exact absurd rfl (notok n1)
            · rw [client_dead_ok d1 hr] at hk; cases hk
          · rw [run_cons, h1] at hr ⊢
            rcases List.mem_cons.1 hr with rfl | hr
            · rw [f1.running] at hk; cases hk
            · cases cs with
              | nil => cases hr
              | cons c2 cs =>
                rcases h2 : s1.step (client d) env c2 with ⟨r2, s2⟩
                rw [run_cons, h2] at hr ⊢
                obtain ⟨-, d2, ⟨i2, o2, es2, l2, -⟩ | ⟨-, n2, -⟩⟩ :=
                  client_third d env s1 _ _ _ _ _ st1 c2 r2 s2 h2
                · rcases List.mem_cons.1 hr with rfl | hr
                  · rw [o2] at hk
                    cases hk
                    refine ⟨c0, c1, c2, cs, r0, r1, _, rfl, rfl, rfl, ?_, es0, es1, gs2, cb, name,
                      user, nonce, b, sn, salt64, it64, salt, it, ck, sk, auth, f0, i1, p1, f1, ?_,
                      i2⟩
                    · exact fun x hx => client_dead_ok d2 hx
                    · rw [client_dead d env s2 d2]
                      exact ⟨_, by rw [l2, l1, l0]⟩
                  · rw [client_dead_ok d2 hr] at hk; cases hk
                · rcases List.mem_cons.1 hr with rfl | hr
                  · exact absurd rfl (notok n2)
                  · rw [client_dead_ok d2 hr] at hk; cases hk

/-- The other direction: once the client has sent its final message, the right signature finishes
the session and every other input is an error or panic. -/
theorem C25_decides (d : Digest) (env : Env) (ses : Session CS) (plus : CbSupport)
    (hst : ses.st = some (.initial plus)) (c0 c1 c2 : Call) (r0 r1 r2 : Reply State)
    (hr : (ses.run (client d) env [c0, c1, c2]).1 = [r0, r1, r2])
    (h0 : r0.res = .ok .running) (h1 : r1.res = .ok .running) :
    ∃ es0 es1 gs2 cb name user nonce b snonce salt64 it64 salt it ck sk auth,
      Spec.ClientFirstSent ses.rng plus c0 r0 es0 gs2 cb name user nonce ∧
      c1.input = some b ∧ Spec.ServerParams nonce b snonce salt64 it64 salt it ∧
      Spec.ClientFinalSent d c1 r1 es1 (gs2 ++ cb) user nonce snonce b salt it ck sk auth ∧
      (ses.run (client d) env [c0, c1]).2.log = ses.log ++ es0 ++ es1 ∧ r2.out = [] ∧
      (c2.input = some (Spec.serverFinal d sk auth) ∧ r2.res = .ok (.finished .no) ∨
       c2.input ≠ some (Spec.serverFinal d sk auth) ∧ ∀ st, r2.res ≠ .ok st) := by
  rcases k0 : ses.step (client d) env c0 with ⟨x0, s0⟩
  rcases k1 : s0.step (client d) env c1 with ⟨x1, s1⟩
  rcases k2 : s1.step (client d) env c2 with ⟨x2, s2⟩
  rw [run_cons, k0, run_cons, k1, run_cons, k2] at hr
  cases hr
  obtain ⟨es0, l0, -, ⟨n0, d0⟩ | ⟨gs2, cb, name, user, nonce, f0, st0⟩⟩ :=
    client_first d env ses plus hst c0 _ s0 k0
  · exact absurd h0 (n0 _)
  rcases client_second d env s0 _ _ _ st0 c1 _ s1 k1 with ⟨n1, -, d1, -⟩ |
    ⟨b, sn, salt64, it64, salt, it, es1, i1, p1, l1, -, ⟨n1, d1⟩ | ⟨ck, sk, auth, f1, st1⟩⟩
  · exact absurd h1 (n1 _)
  · exact absurd h1 (n1 _)
  obtain ⟨o2, d2, h⟩ := client_third d env s1 _ _ _ _ _ st1 c2 _ s2 k2
  refine ⟨es0, es1, gs2, cb, name, user, nonce, b, sn, salt64, it64, salt, it, ck, sk, auth, f0,
    i1, p1, f1, ?_, o2, ?_⟩
  · rw [run_cons, k0, run_cons, k1]
    show s1.log = _
    rw [l1, l0]
  rcases h with ⟨i2, q2, -⟩ | ⟨i2, q2, -⟩
  · exact .inl ⟨i2, q2⟩
  · exact .inr ⟨i2, q2⟩

/-- An exchange in which the client finishes, and one in which a wrong signature is refused. -/
example :
    let env := exampleEnv [⟨.authId, c!"user"⟩, ⟨.password, b!"pencil"⟩]
    let ses : Session CS := ⟨clientNew true, none, fun _ => 0, []⟩
    let c1 : Call := ⟨some (b!"r=!!!!!!!!!!!!!!!!!!!!!!!!xyz,s=AAAA,i=4096"), []⟩
    ((ses.run (client toyDigest) env [⟨none, []⟩, c1, ⟨some (b!"v=iA=="), []⟩]).1.map
      (fun r => decide (r.res = .ok (.finished .no))) = [false, false, true]) ∧
    ((ses.run (client toyDigest) env [⟨none, []⟩, c1, ⟨some (b!"v=ww=="), []⟩]).1.map
      (fun r => decide (r.res = .err .mutualAuthenticationFailed)) = [false, false, true]) := by
  decide +kernel

/-! ## C28 -/

/-- The callback is asked for a secret only in the second call, and only if that call's input was a
server-first message whose nonce strictly extends the nonce sent, with a base64 salt and a
positive 32-bit iteration count; these are then what the callback can see. -/
theorem C28 (d : Digest) (env : Env) (ses : Session CS) (plus : CbSupport)
    (hst : ses.st = some (.initial plus)) (calls : List Call) :
    ∃ es, (ses.run (client d) env calls).2.log = ses.log ++ es ∧
      ((∃ e ∈ es, Spec.Secret e) →
        ∃ c0 c1 rest r0 post es0 gs2 cb name user nonce b snonce salt64 it64 salt it,
          calls = c0 :: c1 :: rest ∧ (ses.run (client d) env calls).1 = r0 :: post ∧ es0 <+: es ∧
          Spec.ClientFirstSent ses.rng plus c0 r0 es0 gs2 cb name user nonce ∧
          c1.input = some b ∧ Spec.ServerParams nonce b snonce salt64 it64 salt it ∧
          ∀ p ctx, .asked p ctx ∈ es → Spec.Secret (.asked p ctx) →
            ctx = .chain [⟨.salt, salt⟩, ⟨.iterations, it⟩]) := by
  have hno : ∀ {e}, Concerns firstAsks e → ¬ Spec.Secret e := by
    intro e h1 h2
    cases e with
    | asked p ctx => revert h1; rcases h2 with rfl | rfl | rfl <;> (show ¬ _ ∈ firstAsks) <;> decide
    | answered p v => revert h1; rcases h2 with rfl | rfl | rfl <;> (show ¬ _ ∈ firstAsks) <;> decide
    | _ => exact h2
  cases calls with
  | nil => exact ⟨[], by simp [Session.run], fun ⟨e, he, _⟩ => nomatch he⟩
  | cons c0 cs =>
    rcases h0 : ses.step (client d) env c0 with ⟨r0, s0⟩
    obtain ⟨es0, l0, a0, ⟨n0, d0⟩ | ⟨gs2, cb, name, user, nonce, f0, st0⟩⟩ :=
      client_first d env ses plus hst c0 r0 s0 h0
    · rw [run_cons, h0]
      refine ⟨es0, ?_, fun ⟨e, he, hs⟩ => absurd hs (hno (a0 e he))⟩
      rw [client_dead d env s0 d0, ← l0]
    · cases cs with
      | nil =>
        rw [run_cons, h0]
        exact ⟨es0, l0, fun ⟨e, he, hs⟩ => absurd hs (hno (a0 e he))⟩
      | cons c1 cs =>
        rcases h1 : s0.step (client d) env c1 with ⟨r1, s1⟩
        rw [run_cons, h0]
        rw [run_cons, h1]
        rcases client_second d env s0 _ _ _ st0 c1 r1 s1 h1 with ⟨n1, -, d1, l1, -⟩ |
            ⟨b, sn, salt64, it64, salt, it, es1, i1, p1, l1, a1, h⟩
        · refine ⟨es0, ?_, fun ⟨e, he, hs⟩ => absurd hs (hno (a0 e he))⟩
          rw [client_dead d env s1 d1, ← l0, l1]
        · have hrest : ∃ es2, (s1.run (client d) env cs).2.log = s1.log ++ es2 ∧
              ∀ p ctx, .asked p ctx ∉ es2 := by
            rcases h with ⟨n1, d1⟩ | ⟨ck, sk, auth, f1, st1⟩
            · rw [client_dead d env s1 d1]; exact ⟨[], by simp, nofun⟩
            · cases cs with
              | nil => exact ⟨[], by simp [Session.run], nofun⟩
              | cons c2 cs =>
                rcases h2 : s1.step (client d) env c2 with ⟨r2, s2⟩
                obtain ⟨-, d2, ⟨-, -, es2, l2, q2⟩ | ⟨-, -, l2⟩⟩ :=
                  client_third d env s1 _ _ _ _ _ st1 c2 r2 s2 h2
                · rw [run_cons, h2]
                  dsimp only
                  rw [client_dead d env s2 d2]
                  refine ⟨_, l2, fun p ctx hm => ?_⟩
                  rcases q2 with rfl | rfl <;> simp at hm
                · rw [run_cons, h2]
                  dsimp only
                  rw [client_dead d env s2 d2]
                  exact ⟨[], by simp [l2], nofun⟩
          obtain ⟨es2, l2, a2⟩ := hrest
          refine ⟨es0 ++ es1 ++ es2, by dsimp only; rw [l2, l1, l0]; simp, fun _ => ?_⟩
          refine ⟨c0, c1, cs, r0, _, es0, gs2, cb, name, user, nonce, b, sn, salt64, it64, salt, it,
            rfl, rfl, ⟨es1 ++ es2, by simp⟩, f0, i1, p1, fun p ctx hm hs => ?_⟩
          rcases List.mem_append.1 hm with hm | hm
          · rcases List.mem_append.1 hm with hm | hm
            · exact absurd hs (hno (a0 _ hm))
            · exact (a1 _ hm).2
          · exact absurd hm (a2 p ctx)

/-- If the parameters are not good, the step fails, nothing is sent and nobody is asked. -/
theorem C28_refused (d : Digest) (env : Env) (ses : Session CS) (plus : CbSupport)
    (hst : ses.st = some (.initial plus)) (c0 c1 : Call) (r0 r1 : Reply State)
    (hr : (ses.run (client d) env [c0, c1]).1 = [r0, r1]) (h0 : r0.res = .ok .running) :
    ∃ es0 gs2 cb name user nonce, (ses.run (client d) env [c0]).2.log = ses.log ++ es0 ∧
      Spec.ClientFirstSent ses.rng plus c0 r0 es0 gs2 cb name user nonce ∧
      ((¬ ∃ b snonce salt64 it64 salt it, c1.input = some b ∧
          Spec.ServerParams nonce b snonce salt64 it64 salt it) →
        (∀ st, r1.res ≠ .ok st) ∧ r1.out = [] ∧
        (ses.run (client d) env [c0, c1]).2.log = (ses.run (client d) env [c0]).2.log) := by
  rcases k0 : ses.step (client d) env c0 with ⟨x0, s0⟩
  rcases k1 : s0.step (client d) env c1 with ⟨x1, s1⟩
  rw [run_cons, k0, run_cons, k1] at hr
  cases hr
  obtain ⟨es0, l0, -, ⟨n0, d0⟩ | ⟨gs2, cb, name, user, nonce, f0, st0⟩⟩ :=
    client_first d env ses plus hst c0 _ s0 k0
  · exact absurd h0 (n0 _)
  refine ⟨es0, gs2, cb, name, user, nonce, by rw [run_cons, k0]; exact l0, f0, fun hno => ?_⟩
  rcases client_second d env s0 _ _ _ st0 c1 _ s1 k1 with ⟨n1, o1, -, l1, -⟩ |
    ⟨b, sn, salt64, it64, salt, it, es1, i1, p1, -⟩
  · rw [run_cons, k0, run_cons, k1, run_cons, k0]
    exact ⟨n1, o1, l1⟩
  · exact absurd ⟨b, sn, salt64, it64, salt, it, i1, p1⟩ hno

/-- A server that repeats the client's nonce without adding to it, one with iteration count 0, and
one whose salt is no base64, are refused; a good one is not. -/
example :
    let env := exampleEnv [⟨.authId, c!"user"⟩, ⟨.password, b!"pencil"⟩]
    let ses : Session CS := ⟨clientNew true, none, fun _ => 0, []⟩
    let second (b : Bytes) : Bool :=
      match (ses.run (client toyDigest) env [⟨none, []⟩, ⟨some b, []⟩]).1 with
      | [_, r] => decide (r.res = .ok .running)
      | _ => false
    second (b!"r=!!!!!!!!!!!!!!!!!!!!!!!!xyz,s=AAAA,i=4096") = true ∧
    second (b!"r=!!!!!!!!!!!!!!!!!!!!!!!!,s=AAAA,i=4096") = false ∧
    second (b!"r=!!!!!!!!!!!!!!!!!!!!!!!!xyz,s=AAAA,i=0") = false ∧
    second (b!"r=!!!!!!!!!!!!!!!!!!!!!!!!xyz,s=A*A,i=1") = false := by
  decide +kernel

/-! ## C51 -/

/-- The derived keys go to the callback only in a third call that reported `Finished`, that is after
the server's signature was verified (`C25`), at most once, and with the salt and iteration count of
this session as context. -/
theorem C51 (d : Digest) (env : Env) (ses : Session CS) (plus : CbSupport)
    (hst : ses.st = some (.initial plus)) (calls : List Call) :
    ∃ es es', (ses.run (client d) env calls).2.log = ses.log ++ es ++ es' ∧
      (∀ e ∈ es, ¬ Spec.Handed e) ∧
      (es' = [] ∨
        ∃ c0 c1 c2 rest r0 r1 r2 post es0 es1 gs2 cb name user nonce b snonce salt64 it64 salt it
          ck sk auth, es = es0 ++ es1 ∧ calls = c0 :: c1 :: c2 :: rest ∧
          (ses.run (client d) env calls).1 = r0 :: r1 :: r2 :: post ∧
          r2.res = .ok (.finished .no) ∧
          Spec.ClientFirstSent ses.rng plus c0 r0 es0 gs2 cb name user nonce ∧
          c1.input = some b ∧ Spec.ServerParams nonce b snonce salt64 it64 salt it ∧
          Spec.ClientFinalSent d c1 r1 es1 (gs2 ++ cb) user nonce snonce b salt it ck sk auth ∧
          c2.input = some (Spec.serverFinal d sk auth) ∧
          (es' = [.notified .scramCachedPassword (.chain [⟨.salt, salt⟩, ⟨.iterations, it⟩])] ∨
           es' = [.notified .scramCachedPassword (.chain [⟨.salt, salt⟩, ⟨.iterations, it⟩]),
            .delivered .scramCachedPassword (⟨ck, sk⟩ : CachedPassword)])) := by
  have hno : ∀ {e}, Concerns firstAsks e → ¬ Spec.Handed e := by
    intro e h1 h2
    cases e <;> first | exact h2 | exact h1
  have hno1 : ∀ {e salt it}, SecretEvent salt it e → ¬ Spec.Handed e := by
    intro e salt it h1 h2
    cases e <;> first | exact h2 | exact h1
  cases calls with
  | nil => exact ⟨[], [], by simp [Session.run], nofun, .inl rfl⟩
  | cons c0 cs =>
    rcases h0 : ses.step (client d) env c0 with ⟨r0, s0⟩
    obtain ⟨es0, l0, a0, ⟨n0, d0⟩ | ⟨gs2, cb, name, user, nonce, f0, st0⟩⟩ :=
      client_first d env ses plus hst c0 r0 s0 h0
    · rw [run_cons, h0]
      refine ⟨es0, [], ?_, fun e he => hno (a0 e he), .inl rfl⟩
      rw [client_dead d env s0 d0, ← l0, List.append_nil]
    · cases cs with
      | nil =>
        rw [run_cons, h0]
        exact ⟨es0, [], by rw [List.append_nil]; exact l0, fun e he => hno (a0 e he), .inl rfl⟩
      | cons c1 cs =>
        rcases h1 : s0.step (client d) env c1 with ⟨r1, s1⟩
        rw [run_cons, h0]
        rw [run_cons, h1]
        rcases client_second d env s0 _ _ _ st0 c1 r1 s1 h1 with ⟨n1, -, d1, l1, -⟩ |
            ⟨b, sn, salt64, it64, salt, it, es1, i1, p1, l1, a1, h⟩
        · refine ⟨es0, [], ?_, fun e he => hno (a0 e he), .inl rfl⟩
          rw [client_dead d env s1 d1, ← l0, l1, List.append_nil]
        · have hq : ∀ e ∈ es0 ++ es1, ¬ Spec.Handed e := by
            intro e he
            rcases List.mem_append.1 he with he | he
            · exact hno (a0 e he)
            · exact hno1 (a1 e he)
          rcases h with ⟨n1, d1⟩ | ⟨ck, sk, auth, f1, st1⟩
          · refine ⟨es0 ++ es1, [], ?_, hq, .inl rfl⟩
            dsimp only
            rw [client_dead d env s1 d1, l1, l0]
            simp
          · cases cs with
            | nil =>
              refine ⟨es0 ++ es1, [], ?_, hq, .inl rfl⟩
              show s1.log = _
              rw [l1, l0]
              simp
            | cons c2 cs =>
              rcases h2 : s1.step (client d) env c2 with ⟨r2, s2⟩
              rw [run_cons, h2]
              obtain ⟨-, d2, ⟨i2, o2, es2, l2, q2⟩ | ⟨-, -, l2⟩⟩ :=
                  client_third d env s1 _ _ _ _ _ st1 c2 r2 s2 h2
              · refine ⟨es0 ++ es1, .notified .scramCachedPassword (clientProvider salt it) :: es2, ?_, hq, .inr
                  ⟨c0, c1, c2, cs, r0, r1, r2, _, es0, es1, gs2, cb, name, user, nonce, b, sn, salt64,
                  it64, salt, it, ck, sk, auth, rfl, rfl, rfl, o2, f0, i1, p1, f1, i2, ?_⟩⟩
                · dsimp only
                  rw [client_dead d env s2 d2, l2, l1, l0]
                  simp
                · rcases q2 with rfl | rfl
                  · exact .inl rfl
                  · exact .inr rfl
              · refine ⟨es0 ++ es1, [], ?_, hq, .inl rfl⟩
                dsimp only
                rw [client_dead d env s2 d2, l2, l1, l0]
                simp

end Rsasl

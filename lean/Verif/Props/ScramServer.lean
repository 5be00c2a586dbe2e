/-
C26, C31, C46, C50: the SCRAM server against any client.
-/
import Verif.Proofs.ScramServerRun
import Verif.Proofs.Run
import Verif.Props.ScramMsgs
import Verif.Spec.Examples

namespace Rsasl

open Scram

/-! ## The two steps of a session -/

theorem flagBytes_eq (f : CbFlag) : Spec.flagBytes f = f.bytes := by cases f <;> rfl

theorem extensions_eq (exts : List Bytes) : Spec.extensions exts = extBytes exts := rfl

theorem gs2Header_eq (m : ClientFirst) : m.gs2Header = Spec.gs2Header m.cbflag m.authzid := by
  unfold ClientFirst.gs2Header ClientFirst.gs2Parts Spec.gs2Header
  rw [flagBytes_eq]
  cases m.authzid <;> simp [Spec.authzidBytes]

/-- What the parser of the client-first message accepts. -/
theorem clientFirstRead {b : Bytes} {m : ClientFirst} (h : ClientFirst.parse b = .ok m) :
    ∃ key exts, Spec.ClientFirstRead b m.cbflag key m.authzid m.username m.nonce exts := by
  obtain ⟨hf, hn, hu, az, exts, ha, haz, hex, rfl⟩ := ClientFirst.parse_eq_ok.1 h
  have hnc : 44 ∉ m.nonce := fun hm => absurd (hn _ hm) (by decide)
  cases hz : m.authzid with
  | none =>
    rw [hz] at ha
    cases ha
    exact ⟨b!"a=", exts, by simp [flagBytes_eq, Spec.authzidBytes, Spec.clientFirstBare,
      extensions_eq], rfl, by rw [flagBytes_eq]; exact hf.comma, by simp [Spec.authzidBytes], hu, hnc,
      hex⟩
  | some a =>
    rw [hz] at ha
    obtain ⟨k, hk, rfl⟩ := ha
    exact ⟨k, exts, by simp [flagBytes_eq, Spec.authzidBytes, Spec.clientFirstBare,
      extensions_eq], hk, by rw [flagBytes_eq]; exact hf.comma, haz, hu, hnc, hex⟩

/-- A server session that is over does not do anything anymore. -/
theorem server_over (d : Digest) (env : Env) (ses : Session SS)
    (hst : ses.st = none ∨ ses.st = some .finished) (calls : List Call) :
    (∀ r ∈ (ses.run (server d) env calls).1, (∀ st, r.res ≠ .ok st) ∧ r.out = []) ∧
    (ses.run (server d) env calls).2.log = ses.log ∧
    (ses.run (server d) env calls).2.slot = ses.slot := by
  induction calls generalizing ses with
  | nil => exact ⟨nofun, rfl, rfl⟩
  | cons c cs ih =>
    have h : ∃ r, ses.step (server d) env c = (r, { ses with st := none }) ∧
        (∀ st, r.res ≠ .ok st) ∧ r.out = [] := by
      obtain ⟨st, slot, rng, log⟩ := ses
      rcases hst with rfl | rfl
      · exact ⟨⟨.panic, []⟩, rfl, nofun, rfl⟩
      · exact ⟨⟨.err .mechanismDone, []⟩, rfl, nofun, rfl⟩
    obtain ⟨r, hr, h1, h2⟩ := h
    rw [run_cons, hr]
    obtain ⟨h3, h4, h5⟩ := ih { ses with st := none } (.inl rfl)
    refine ⟨?_, h4, h5⟩
    intro x hx
    rcases List.mem_cons.1 hx with rfl | hx
    · exact ⟨h1, h2⟩
    · exact h3 x hx

/-- The first step. -/
theorem server_first (d : Digest) (env : Env) (ses : Session SS) (canCb : Bool)
    (hst : ses.st = some (.waitingClientFirst canCb)) (c : Call) (r : Reply State)
    (ses' : Session SS) (h : ses.step (server d) env c = (r, ses')) :
    ∃ es, ses'.log = ses.log ++ es ∧ (∀ e ∈ es, Concerns serverAsks e) ∧
      (((∀ st, r.res ≠ .ok st) ∧ ses'.st = none) ∨
       ∃ b flag key authzid user cnonce exts data snonce salt64 it64, c.input = some b ∧
        Spec.ClientFirstRead b flag key authzid user cnonce exts ∧
        (flag = .supportedNotUsed → canCb = false) ∧ Spec.OwnBinding env es flag data ∧
        Spec.ServerFirstSent ses.rng c r cnonce snonce salt64 it64 ∧
        ((ses'.st = some (.waitingClientFinal none) ∧ it64 = b!"16384" ∧
          ∃ salt : Bytes, salt.length = 32 ∧ salt64 = Base64.encode salt) ∨
         ∃ stored : StoredPassword,
          ¬ env.LacksAt (Spec.scramOffer user authzid) .scramStoredPassword ∧
          (∀ V, env.SuppliesAt (Spec.scramOffer user authzid) .scramStoredPassword V → V stored) ∧
          .answered .scramStoredPassword stored ∈ es ∧
          stored.storedKey.length = d.outLen ∧ stored.serverKey.length = d.outLen ∧
          salt64 = Base64.encode stored.salt ∧ it64 = Spec.storedCount stored ∧
          ses'.st = some (.waitingClientFinal (some
            { clientNonce := cnonce, serverNonce := snonce,
              gs2Header := Spec.gs2Header flag authzid ++ data, username := user,
              authzid := authzid, salt := salt64, iterations := it64,
              storedKey := stored.storedKey, serverKey := stored.serverKey })))) := by
  obtain ⟨st, slot, rng, log⟩ := ses
  dsimp only at hst
  subst hst
  have hl := serverStep_first_log d nonceLen env c.input canCb ⟨⟨[], c.sched⟩, rng, slot, log⟩
  rcases hs : serverStep d nonceLen env c.input (some (.waitingClientFirst canCb))
    ⟨⟨[], c.sched⟩, rng, slot, log⟩ with ⟨o, s', w'⟩
  rw [step_of (m := server d) hs] at h
  cases h
  rw [hs] at hl
  obtain ⟨⟨es, h1, h2⟩, h3⟩ := hl
  refine ⟨es, h1, h2, ?_⟩
  cases o with
  | err e => exact .inl ⟨nofun, h3 nofun⟩
  | panic => exact .inl ⟨nofun, h3 nofun⟩
  | ok st =>
    right
    obtain ⟨rfl, new, b, msg, data, snonce, salt64, it64, o, sched, es', rfl, k⟩ :=
      serverStep_first_ok hs
    have hes : es' = es := by
      have := k.hlog
      dsimp only at h1 this
      rw [h1] at this
      exact (List.append_cancel_left this).symm
    subst hes
    obtain ⟨key, exts, hread⟩ := clientFirstRead k.hparse
    refine ⟨b, msg.cbflag, key, msg.authzid, msg.username, msg.nonce, exts, data, snonce, salt64,
      it64, k.hinput, hread, k.hcan, k.hbinding, ⟨rfl, ?_, ?_, ?_, ?_, ?_⟩, ?_⟩
    · rw [k.hnonce]; simp [nonceLen, Spec.drawnNonce]
    · rw [k.hnonce]; simp [nonceLen]
    · intro b hb
      rw [k.hnonce] at hb
      obtain ⟨i, -, rfl⟩ := List.mem_map.1 hb
      exact printable_printable _ (nonceChar_mem i)
    · dsimp only; rw [k.hwr]; simpa using k.hout
    · intro hc
      dsimp only
      rw [k.hwr]
      simpa using k.hall hc
    · rcases k.hknown with ⟨rfl, h5, h6⟩ | ⟨stored, h4, h4', h5, h6, h7, h8, h9, rfl⟩
      · exact .inl ⟨rfl, h5, h6⟩
      · refine .inr ⟨stored, h4, h4', h5, h6, h7, h8, h9, ?_⟩
        rw [gs2Header_eq]

/-- The second step, for a known user: no validation, or the client is proven. -/
theorem server_second (d : Digest) (env : Env) (ses : Session SS) (f : FinalInner)
    (stored : StoredPassword) (hk : f.storedKey = stored.storedKey) (hsk : f.serverKey = stored.serverKey)
    (hst : ses.st = some (.waitingClientFinal (some f))) (c : Call) (r : Reply State)
    (ses' : Session SS) (h : ses.step (server d) env c = (r, ses')) :
    (ses'.st = none ∨ ses'.st = some .finished) ∧
    ((ses'.log = ses.log ∧
      ((∀ st, r.res ≠ .ok st) ∨ (r.res = .ok (.finished .yes) ∧
        ∃ e : ServerErrorValue, r.out <+: b!"e=" ++ e.bytes ∧
          (Cooperative c.sched → r.out = b!"e=" ++ e.bytes)))) ∨
     ∃ b auth exts given proof es, c.input = some b ∧
      auth = Spec.authMessage (Spec.clientFirstBare f.username f.clientNonce)
        (Spec.serverFirst (f.clientNonce ++ f.serverNonce) f.salt f.iterations)
        (Spec.clientFinalBare (Base64.encode f.gs2Header) (f.clientNonce ++ f.serverNonce)) ∧
      Spec.ProofGiven d stored f.gs2Header (f.clientNonce ++ f.serverNonce) auth b exts given proof ∧
      r.out <+: Spec.serverFinal d stored.serverKey auth ∧
      (Cooperative c.sched → r.out = Spec.serverFinal d stored.serverKey auth) ∧
      (∀ st, r.res = .ok st → st = .finished .yes) ∧
      VQuiet es ∧ ses'.log = ses.log ++ .validated (serverProvider f.username f.authzid) :: es) := by
  obtain ⟨st, slot, rng, log⟩ := ses
  dsimp only at hst
  subst hst
  rcases hs : serverStep d nonceLen env c.input (some (.waitingClientFinal (some f)))
    ⟨⟨[], c.sched⟩, rng, slot, log⟩ with ⟨o, s', w'⟩
  rw [step_of (m := server d) hs] at h
  cases h
  rcases serverStep_second hs with ⟨h1, rfl, h2, h3⟩ |
    ⟨b, msg, e, out, sched, h1, h2, h3, rfl, rfl, h5, h6, rfl⟩ |
    ⟨b, msg, f', sig, out, sched, es, h1, h2, h3, h4, h5, h6, h7, h8, h9, h10, h11⟩
  · exact ⟨.inl rfl, .inl ⟨h2, .inl h1⟩⟩
  · exact ⟨.inr rfl, .inl ⟨rfl, .inr ⟨rfl, e, by simpa using h5, fun hc => by simpa using h6 hc⟩⟩⟩
  · obtain ⟨hf, hcb, hn, ⟨given, hp, hle, hh⟩, rfl⟩ := judge_ok h3
    cases hf
    obtain ⟨-, -, -, exts, hex, hb⟩ := ClientFinal.parse_eq_ok.1 h2
    rw [hcb] at hh h7 h8
    rw [authMessage_eq] at hh h7 h8
    refine ⟨?_, .inr ⟨b, _, exts, given, _, es, h1, rfl, ⟨?_, fun e he => (hex e he).1, hle, rfl, ?_⟩,
      ?_, ?_, ?_, h10, h11⟩⟩
    · cases o with
      | ok st => exact .inr (h4 st rfl).2
      | err e => exact .inl (h5 nofun)
      | panic => exact absurd rfl h6
    · rw [hb, hcb, hn, hp]
      simp [Spec.clientFinalBare, extensions_eq]
    · rw [← hk]; exact hh
    · rw [← hsk]; dsimp only; rw [h9]; simpa [Spec.serverFinal] using h7
    · intro hc
      rw [← hsk]
      dsimp only
      rw [h9]
      simpa [Spec.serverFinal] using h8 hc
    · intro st hst
      exact (h4 st hst).1

/-- The second step, for an unknown user. -/
theorem server_unknown (d : Digest) (env : Env) (ses : Session SS)
    (hst : ses.st = some (.waitingClientFinal none)) (c : Call) (r : Reply State)
    (ses' : Session SS) (h : ses.step (server d) env c = (r, ses')) :
    (ses'.st = none ∨ ses'.st = some .finished) ∧ ses'.log = ses.log ∧
    ((∀ st, r.res ≠ .ok st) ∨ (r.res = .ok (.finished .yes) ∧
      r.out <+: b!"e=unknown-user" ∧ (Cooperative c.sched → r.out = b!"e=unknown-user"))) := by
  obtain ⟨st, slot, rng, log⟩ := ses
  dsimp only at hst
  subst hst
  rcases hs : serverStep d nonceLen env c.input (some (.waitingClientFinal none))
    ⟨⟨[], c.sched⟩, rng, slot, log⟩ with ⟨o, s', w'⟩
  rw [step_of (m := server d) hs] at h
  cases h
  rcases serverStep_second hs with ⟨h1, rfl, h2, h3⟩ |
    ⟨b, msg, e, out, sched, h1, h2, h3, rfl, rfl, h5, h6, rfl⟩ |
    ⟨b, msg, f', sig, out, sched, es, h1, h2, h3, h4, h5, h6, h7, h8, h9, h10, h11⟩
  · exact ⟨.inl rfl, h2, .inl h1⟩
  · cases h3
    exact ⟨.inr rfl, rfl, .inr ⟨rfl, by simpa [ServerErrorValue.bytes] using h5,
      fun hc => by simpa [ServerErrorValue.bytes] using h6 hc⟩⟩
  · cases h3

/-! ## C26 -/

/-- A server session calls validate only in its second call, at most once, offering the client's
names, and only if the client has proven itself in the exchange: it repeated the full nonce, its
binding data is the gs2 header with the server's own data, and its proof is right for the stored
key the callback supplied and the auth message built from the fields of the exchanged messages.

Missing to the full statement: the auth message leaves out extension attributes the client may
have sent, and takes an authzid attribute under any name for "a=" (`C26_false`); `C26_exact` says
that without these the auth message consists of the exact messages. -/
theorem C26_partial (d : Digest) (env : Env) (ses : Session SS) (canCb : Bool)
    (hst : ses.st = some (.waitingClientFirst canCb)) (calls : List Call) :
    ∃ es, (ses.run (server d) env calls).2.log = ses.log ++ es ∧
      (validations es = [] ∨
       ∃ c0 c1 rest r0 r1 post b0 flag key authzid user cnonce exts0 data snonce stored b1 auth exts1
          given proof, calls = c0 :: c1 :: rest ∧
        (ses.run (server d) env calls).1 = r0 :: r1 :: post ∧
        validations es = [serverProvider user authzid] ∧
        c0.input = some b0 ∧ Spec.ClientFirstRead b0 flag key authzid user cnonce exts0 ∧
        (flag = .supportedNotUsed → canCb = false) ∧
        Spec.OwnBinding env es flag data ∧
        ¬ env.LacksAt (Spec.scramOffer user authzid) .scramStoredPassword ∧
        (∀ V, env.SuppliesAt (Spec.scramOffer user authzid) .scramStoredPassword V → V stored) ∧
        .answered .scramStoredPassword stored ∈ es ∧
        stored.storedKey.length = d.outLen ∧ stored.serverKey.length = d.outLen ∧
        Spec.ServerFirstSent ses.rng c0 r0 cnonce snonce (Base64.encode stored.salt)
          (Spec.storedCount stored) ∧
        auth = Spec.authMessage (Spec.clientFirstBare user cnonce)
          (Spec.serverFirst (cnonce ++ snonce) (Base64.encode stored.salt) (Spec.storedCount stored))
          (Spec.clientFinalBare (Base64.encode (Spec.gs2Header flag authzid ++ data))
            (cnonce ++ snonce)) ∧
        c1.input = some b1 ∧
        Spec.ProofGiven d stored (Spec.gs2Header flag authzid ++ data) (cnonce ++ snonce) auth b1
          exts1 given proof ∧
        r1.out <+: Spec.serverFinal d stored.serverKey auth ∧
        (Cooperative c1.sched → r1.out = Spec.serverFinal d stored.serverKey auth) ∧
        (∀ st, r1.res = .ok st → st = .finished .yes) ∧
        ∀ x ∈ post, ∀ st, x.res ≠ .ok st) := by
  have hno : ∀ {es : List Event}, (∀ e ∈ es, Concerns serverAsks e) → validations es = [] := by
    intro es h
    unfold validations
    rw [List.filterMap_eq_nil_iff]
    intro e he
    have := h e he
    cases e <;> first | rfl | exact this.elim
  cases calls with
  | nil => exact ⟨[], by simp [Session.run], .inl rfl⟩
  | cons c0 cs =>
    rcases h0 : ses.step (server d) env c0 with ⟨r0, s0⟩
    obtain ⟨es0, l0, a0, ⟨n0, d0⟩ | ⟨b0, flag, key, authzid, user, cnonce, exts0, data, snonce, salt64,
      it64, i0, f0, y0, own, sent0, hcase⟩⟩ := server_first d env ses canCb hst c0 r0 s0 h0
    · rw [run_cons, h0]
      exact ⟨es0, (server_over d env s0 (.inl d0) cs).2.1.trans l0, .inl (hno a0)⟩
    · cases cs with
      | nil =>
        rw [run_cons, h0]
        exact ⟨es0, l0, .inl (hno a0)⟩
      | cons c1 cs =>
        rcases h1 : s0.step (server d) env c1 with ⟨r1, s1⟩
        rw [run_cons, h0]
        rw [run_cons, h1]
        rcases hcase with ⟨st0, -, -⟩ | ⟨stored, lacks, supp, ans, len1, len2, rfl, rfl, st0⟩
        · obtain ⟨ov, l1, -⟩ := server_unknown d env s0 st0 c1 r1 s1 h1
          exact ⟨es0, (server_over d env s1 ov cs).2.1.trans (l1.trans l0), .inl (hno a0)⟩
        · obtain ⟨ov, ⟨l1, -⟩ | ⟨b, auth, exts, given, proof, es1, i1, ha, hp, o1, o2, hfin, hq, l1⟩⟩ :=
            server_second d env s0 _ stored rfl rfl st0 c1 r1 s1 h1
          · exact ⟨es0, (server_over d env s1 ov cs).2.1.trans (l1.trans l0), .inl (hno a0)⟩
          · have hov := server_over d env s1 ov cs
            have hv : validations es1 = [] := by
              unfold validations
              rw [List.filterMap_eq_nil_iff]
              intro e he
              obtain ⟨t, rfl⟩ := hq e he
              rfl
            refine ⟨es0 ++ .validated (serverProvider user authzid) :: es1, ?_, .inr ⟨c0, c1, cs, r0, r1,
              _, b0, flag, key, authzid, user, cnonce, exts0, data, snonce, stored, b, auth, exts, given,
              proof, rfl, rfl, ?_, i0, f0, y0, ?_, lacks, supp, List.mem_append_left _ ans, len1, len2, sent0, ha, i1,
              hp, o1, o2, hfin, fun x hx => (hov.1 x hx).1⟩⟩
            · dsimp only
              rw [hov.2.1, l1, l0, List.append_assoc]
            · have h0 := hno a0
              unfold validations at h0 hv ⊢
              rw [List.filterMap_append, h0, List.filterMap_cons, hv]
              rfl
            · cases flag with
              | used name =>
                rcases own with own | ⟨own, own'⟩
                · exact .inl own
                · exact .inr ⟨own, List.mem_append_left _ own'⟩
              | _ => exact own

theorem afterComma_append {a b : Bytes} (h : 44 ∉ a) : Spec.afterComma (a ++ b!"," ++ b) = b := by
  unfold Spec.afterComma
  rw [List.append_assoc, List.dropWhile_append_of_pos (by
    intro x hx
    simp only [ne_eq, decide_not, Bool.not_eq_eq_eq_not, Bool.not_true, decide_eq_false_iff_not]
    rintro rfl
    exact h hx)]
  rfl

theorem beforeLastComma_append {a b : Bytes} (h : 44 ∉ b) :
    Spec.beforeLastComma (a ++ b!"," ++ b) = a ∧ Spec.lastAttribute (a ++ b!"," ++ b) = b := by
  have hr : ∀ x ∈ b.reverse, decide (x ≠ 44) = true := by
    intro x hx
    simp only [ne_eq, decide_not, Bool.not_eq_eq_eq_not, Bool.not_true, decide_eq_false_iff_not]
    rintro rfl
    exact h (List.mem_reverse.1 hx)
  unfold Spec.beforeLastComma Spec.lastAttribute
  rw [List.reverse_append, List.reverse_append, List.dropWhile_append_of_pos hr,
    List.takeWhile_append_of_pos hr]
  constructor
  · simp
  · simp

/-- Without extension attributes the auth message of `C26_partial` is made of the exact messages of
the exchange; if also the authzid (if any) is in an "a=" attribute, the gs2 header of the binding
data is the one the client has sent. -/
theorem C26_exact (d : Digest) (b0 b1 : Bytes) (flag : CbFlag) (key : Bytes) (authzid : Option Str)
    (user : Str) (cnonce data nonce salt64 it64 : Bytes) (stored : StoredPassword)
    (auth given proof : Bytes)
    (h0 : Spec.ClientFirstRead b0 flag key authzid user cnonce [])
    (h1 : Spec.ProofGiven d stored (Spec.gs2Header flag authzid ++ data) nonce auth b1 [] given
      proof)
    (ha : auth = Spec.authMessage (Spec.clientFirstBare user cnonce)
      (Spec.serverFirst nonce salt64 it64)
      (Spec.clientFinalBare (Base64.encode (Spec.gs2Header flag authzid ++ data)) nonce)) :
    auth = Spec.exactAuth b0 (Spec.serverFirst nonce salt64 it64) b1 ∧
    Spec.lastAttribute b1 = b!"p=" ++ Base64.encode given ∧
    (key = b!"a=" → b0 = Spec.gs2Header flag authzid ++ Spec.afterComma (Spec.afterComma b0)) := by
  have e0 : Spec.afterComma (Spec.afterComma b0) = Spec.clientFirstBare user cnonce := by
    have := h0.message
    rw [show Spec.extensions [] = [] from rfl, List.append_nil] at this
    rw [this]
    have e : ∀ x y z : Bytes, x ++ b!"," ++ y ++ b!"," ++ z = x ++ b!"," ++ (y ++ b!"," ++ z) := by
      simp
    rw [e, afterComma_append h0.commas.1, afterComma_append h0.commas.2.1]
  have h2 := beforeLastComma_append (a := Spec.clientFinalBare (Base64.encode (Spec.gs2Header flag
    authzid ++ data)) nonce) (b := b!"p=" ++ Base64.encode given) (by
      intro hm
      rcases List.mem_append.1 hm with hm | hm
      · exact absurd hm (by decide)
      · exact Base64.comma_notMem_encode _ hm)
  have e1 : b1 = Spec.clientFinalBare (Base64.encode (Spec.gs2Header flag authzid ++ data)) nonce ++
      b!"," ++ (b!"p=" ++ Base64.encode given) := by
    rw [h1.message]; simp [Spec.extensions]
  rw [← e1] at h2
  refine ⟨?_, h2.2, ?_⟩
  · rw [ha]
    unfold Spec.exactAuth
    rw [e0, h2.1]
  · rintro rfl
    rw [e0]
    have := h0.message
    rw [show Spec.extensions [] = [] from rfl, List.append_nil] at this
    rw [this]
    simp [Spec.gs2Header]

end Rsasl

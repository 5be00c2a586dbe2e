/-
C07, C08, C09: PLAIN.
-/
import Verif.Model.Mech.Plain
import Verif.Proofs.Bytes
import Verif.Proofs.Exec
import Verif.Proofs.Validate

namespace Rsasl

/-! ## Specification -/

/-- What the server makes of the password bytes: SASLprep if they are the UTF-8 encoding of a
string, unchanged otherwise. -/
def Spec.PreparedPassword (prep : Str → Option Str) (raw prepared : Bytes) : Prop :=
  (∃ s s', raw = Str.bytes s ∧ prep s = some s' ∧ prepared = Str.bytes s') ∨
  ((∀ s, raw ≠ Str.bytes s) ∧ prepared = raw)

/-- What a PLAIN server offers to validate. -/
def Spec.plainOffer (authzid authid : Str) (password : Bytes) : (p : Property) → Option p.Value
  | .authId => some authid
  | .authzId => some authzid
  | .password => some password
  | _ => none

/-- `input` is a PLAIN message for these (prepared) values: `authzid NUL authid NUL password`. -/
def Spec.PlainMessage (prep : Str → Option Str) (input : Bytes) (authzid authid : Str)
    (password : Bytes) : Prop :=
  ∃ rawId rawPw, input = Str.bytes authzid ++ 0 :: (Str.bytes rawId ++ 0 :: rawPw) ∧
    (0 : UInt8) ∉ Str.bytes authzid ∧ (0 : UInt8) ∉ Str.bytes rawId ∧ (0 : UInt8) ∉ rawPw ∧
    prep rawId = some authid ∧ authid ≠ [] ∧
    Spec.PreparedPassword prep rawPw password ∧ password ≠ []

theorem plain_provider_exactly (authzid authid : Str) (password : Bytes) :
    (Plain.provider authid authzid password).Exactly (Spec.plainOffer authzid authid password) := by
  intro p
  cases p <;> rfl

/-! ## Lemmas -/

theorem contains_nul_iff (s : Str) : s.contains '\x00' = true ↔ (0 : UInt8) ∈ Str.bytes s := by
  rw [mem_bytes_ascii (by decide) s]
  simp

theorem Plain.authzid_ok {s : Str} (h : (0 : UInt8) ∉ Str.bytes s) :
    Does Patient (Plain.clientAuthzid s) () () () (Str.bytes s) := by
  unfold Plain.clientAuthzid
  rw [if_neg (by rwa [contains_nul_iff])]
  exact Does.writeAll _ _

theorem Plain.authid_ok {s : Str} (h : (0 : UInt8) ∉ Str.bytes s) (hne : s ≠ []) :
    Does Patient (Plain.clientAuthid s) () () () (Str.bytes s) := by
  unfold Plain.clientAuthid
  rw [if_neg (by simpa using hne), if_neg (by rwa [contains_nul_iff])]
  exact Does.writeAll _ _

theorem Plain.password_ok {b : Bytes} (h : (0 : UInt8) ∉ b) (hne : b ≠ []) :
    Does Patient (Plain.clientPassword b) () () () b := by
  unfold Plain.clientPassword
  rw [if_neg (by simpa using hne), if_neg (by simpa using h)]
  exact Does.writeAll _ _

theorem Plain.client_does {env : Env} {authzid : Option Str} {authid : Str} {password : Bytes}
    (hz : env.Offers .authzId authzid) (ha : env.Gives .authId authid)
    (hp : env.Gives .password password)
    (nz : ∀ z ∈ authzid, (0 : UInt8) ∉ Str.bytes z) (na : (0 : UInt8) ∉ Str.bytes authid)
    (np : (0 : UInt8) ∉ password) (ea : authid ≠ []) (ep : password ≠ []) (input : Option Bytes) :
    Does Patient (Plain.clientStep env input) () (.finished .yes) ()
      (Str.bytes (authzid.getD []) ++ 0 :: (Str.bytes authid ++ 0 :: password)) := by
  unfold Plain.clientStep
  have hC := patient_closed
  have rest : Does Patient (do
      M.writeAll [0]
      needWith env .authId .empty Plain.clientAuthid
      M.writeAll [0]
      needWith env .password .empty Plain.clientPassword
      pure (.finished .yes) : M Unit State) () (.finished .yes) ()
      (0 :: (Str.bytes authid ++ 0 :: password)) := by
    refine Does.bind' hC (Does.writeAll [0] ()) (Does.bind hC (Does.need ha _ (authid_ok na ea))
      (Does.bind hC (Does.writeAll [0] ()) (Does.bind hC (Does.need hp _ (password_ok np ep))
        (Does.pure _ _ _)))) (by simp)
  cases authzid with
  | none =>
    exact Does.bind' hC (Does.maybeNeed_none hz _ _ _) rest (by simp [Str.bytes_nil])
  | some z =>
    exact Does.bind' hC (Does.maybeNeed_some hz _ (authzid_ok (nz z rfl))) rest (by simp)

theorem Plain.authzid_emits (z : Str) :
    Emits (fun d => (0 : UInt8) ∉ d) (Plain.clientAuthzid z) := by
  unfold Plain.clientAuthzid
  split
  · exact Emits.fail (by simp) _
  · next h =>
    rw [contains_nul_iff] at h
    exact Emits.writeAll _ (fun n hn => h (List.mem_of_mem_take hn))

theorem Plain.authid_eq_ok {authid : Str} {s s' : Unit} {w w' : World}
    (h : Plain.clientAuthid authid s w = (.ok (), s', w')) :
    authid ≠ [] ∧ (0 : UInt8) ∉ Str.bytes authid ∧ w'.wr.out = w.wr.out ++ Str.bytes authid ∧
      w'.log = w.log := by
  unfold Plain.clientAuthid at h
  split at h
  · cases h
  · next h1 =>
    split at h
    · cases h
    · next h2 =>
      rw [contains_nul_iff] at h2
      exact ⟨by simpa using h1, h2, M.writeAll_eq_ok h⟩

theorem Plain.password_eq_ok {password : Bytes} {s s' : Unit} {w w' : World}
    (h : Plain.clientPassword password s w = (.ok (), s', w')) :
    password ≠ [] ∧ (0 : UInt8) ∉ password ∧ w'.wr.out = w.wr.out ++ password ∧
      w'.log = w.log := by
  unfold Plain.clientPassword at h
  split at h
  · cases h
  · next h1 =>
    split at h
    · cases h
    · next h2 => exact ⟨by simpa using h1, by simpa using h2, M.writeAll_eq_ok h⟩

/-- The server, given a message of the right form. -/
theorem Plain.server_accepts {prep : Str → Option Str} {env : Env} {ses : Session Unit}
    {input : Bytes} {authzid authid : Str} {password : Bytes}
    (h : Spec.PlainMessage prep input authzid authid password) (hlen : 4 ≤ input.length)
    (sched : List WResp) :
    EndsValidated env ses (Plain.provider authid authzid password) (.finished .no) []
      (ses.step (Plain.server prep) env ⟨some input, sched⟩) := by
  obtain ⟨rawId, rawPw, hi, nz, na, np, hprep, hne, hpw, hpne⟩ := h
  refine (endsValidated (s' := ()) (sched' := sched) ?_).1
  intro w hw
  have hsplit : splitOn 0 input = [Str.bytes authzid, Str.bytes rawId, rawPw] := by
    exact splitOn_three.2 ⟨by rw [hi]; simp, nz, na, np⟩
  show Plain.serverStep prep env (some input) () w = _
  subst hw
  unfold Plain.serverStep
  rw [M.bind_ok (M.okOr_some ..), if_neg (by omega)]
  simp only [hsplit, fromUtf8_bytes]
  rw [M.bind_ok (M.okOr_some ..), M.bind_ok (M.okOr_some ..), hprep, M.bind_ok (M.okOr_some ..),
    if_neg (by simpa using hne)]
  rcases hpw with ⟨s, s', rfl, h2, rfl⟩ | ⟨h1, rfl⟩
  · have hs' : s' ≠ [] := by rintro rfl; exact hpne rfl
    simp only [fromUtf8_bytes, h2]
    rw [M.bind_ok (M.okOr_some ..), if_neg (by simpa using hs')]
    rfl
  · have : fromUtf8 password = none := by
      cases hf : fromUtf8 password with
      | none => rfl
      | some s => exact absurd (bytes_of_fromUtf8 _ _ hf).symm (h1 s)
    simp only [this]
    rw [if_neg (by simpa using hpne)]
    rfl

/-! ## C07 -/

/-- C07: the client sends what the callback provided, and a PLAIN server receiving those bytes
calls validate exactly once, offering exactly the authorization id, the prepared authentication
id and the prepared password; its result is the one of the validate callback. -/
theorem C07_round_trip (prep : Str → Option Str) (cenv senv : Env)
    (authzid : Option Str) (authid authid' : Str) (password password' : Bytes)
    (hz : cenv.Offers .authzId authzid) (ha : cenv.Gives .authId authid)
    (hp : cenv.Gives .password password)
    (nz : ∀ z ∈ authzid, (0 : UInt8) ∉ Str.bytes z) (na : (0 : UInt8) ∉ Str.bytes authid)
    (np : (0 : UInt8) ∉ password) (ea : authid ≠ []) (ep : password ≠ [])
    (hprep : prep authid = some authid') (ea' : authid' ≠ [])
    (hpw : Spec.PreparedPassword prep password password') (ep' : password' ≠ [])
    (client server : Session Unit) (input : Option Bytes) (sched sched' : List WResp)
    (hs : Patient sched) :
    let r := client.step Plain.client cenv ⟨input, sched⟩
    r.1.res = .ok (.finished .yes) ∧
    ∃ ctx : Provider, ctx.Exactly (Spec.plainOffer (authzid.getD []) authid' password') ∧
      EndsValidated senv server ctx (.finished .no) []
        (server.step (Plain.server prep) senv ⟨some r.1.out, sched'⟩) := by
  obtain ⟨es, _, he⟩ := (Plain.client_does hz ha hp nz na np ea ep input).exec (ses := client) hs
  have he : client.step Plain.client cenv ⟨input, sched⟩ = _ := he
  simp only [he]
  refine ⟨trivial, _, plain_provider_exactly _ _ _, ?_⟩
  refine Plain.server_accepts ⟨authid, password, rfl, ?_, na, np, hprep, ea', hpw, ep'⟩ ?_ _
  · cases authzid with
    | none => simp [Str.bytes_nil]
    | some z => exact nz z rfl
  · have h1 : 0 < (Str.bytes authid).length :=
      List.length_pos_iff.2 (by rwa [Ne, Str.bytes_eq_nil])
    have h2 : 0 < password.length := List.length_pos_iff.2 ep
    simp only [List.length_append, List.length_cons]
    omega

/-- The hypotheses of `C07_round_trip` hold for instance for a credentials callback. -/
example : let cenv : Env := ⟨fun _ _ _ => answerAll [⟨.authId, c!"tim"⟩, ⟨.password, b!"tanstaaftanstaaf"⟩],
      fun _ _ _ => .ret (.ok ()), fun _ => none, 0, ⟨⟨b!"PLAIN", 300, .client⟩, .client⟩⟩
    cenv.Offers .authzId none ∧ cenv.Gives .authId (c!"tim") ∧
    cenv.Gives .password (b!"tanstaaftanstaaf") ∧
    Spec.PreparedPassword some (b!"tanstaaftanstaaf") (b!"tanstaaftanstaaf") := by
  refine ⟨fun _ _ => declines_answerAll _ (by simp), fun _ _ =>
    answers_answerAll _ [] _ rfl (by simp), fun _ _ => answers_answerAll _ [⟨.authId, _⟩] [] rfl
      (by simp), .inl ⟨c!"tanstaaftanstaaf", _, by decide +kernel, rfl, by decide +kernel⟩⟩

/-! ## C08 -/

/-- C08: whenever the client step returns `Ok`, it wrote exactly `authzid NUL authid NUL password`
with NUL-free parts, the last two not empty and exactly answers given by the callback. For every
callback and every writer. -/
theorem C08_unambiguous (env : Env) (s : Session Unit) (c : Call) (st : State)
    (h : (s.step Plain.client env c).1.res = .ok st) :
    ∃ (authzid : Bytes) (authid : Str) (password : Bytes),
      (s.step Plain.client env c).1.out = authzid ++ 0 :: (Str.bytes authid ++ 0 :: password) ∧
      (0 : UInt8) ∉ authzid ∧ (0 : UInt8) ∉ Str.bytes authid ∧ (0 : UInt8) ∉ password ∧
      authid ≠ [] ∧ password ≠ [] ∧
      splitOn 0 (s.step Plain.client env c).1.out = [authzid, Str.bytes authid, password] ∧
      .answered .authId authid ∈ (s.step Plain.client env c).2.log ∧
      .answered .password password ∈ (s.step Plain.client env c).2.log := by
  have hstep : ∃ st' w', Plain.clientStep env c.input s.st
      ⟨⟨[], c.sched⟩, s.rng, s.slot, s.log⟩ = (.ok st, st', w') ∧
      (s.step Plain.client env c).1.out = w'.wr.out ∧ (s.step Plain.client env c).2.log = w'.log := by
    unfold Session.step Session.exec at h ⊢
    simp only [Plain.client] at h ⊢
    generalize Plain.clientStep env c.input s.st ⟨⟨[], c.sched⟩, s.rng, s.slot, s.log⟩ = x at h ⊢
    rcases x with ⟨o, st', w'⟩
    simp only at h
    subst h
    exact ⟨st', w', rfl, rfl, rfl⟩
  obtain ⟨st', w', hstep, hout, hlog⟩ := hstep
  rw [hout, hlog]
  unfold Plain.clientStep at hstep
  obtain ⟨_, s₁, w₁, h1, hstep⟩ := M.bind_eq_ok hstep
  obtain ⟨_, s₂, w₂, h2, hstep⟩ := M.bind_eq_ok hstep
  obtain ⟨_, s₃, w₃, h3, hstep⟩ := M.bind_eq_ok hstep
  obtain ⟨_, s₄, w₄, h4, hstep⟩ := M.bind_eq_ok hstep
  obtain ⟨_, s₅, w₅, h5, hstep⟩ := M.bind_eq_ok hstep
  cases hstep
  have hz := Emits.maybeNeedWith (P := fun d => (0 : UInt8) ∉ d) env .authzId .empty
    Plain.clientAuthzid (by simp) Plain.authzid_emits s.st ⟨⟨[], c.sched⟩, s.rng, s.slot, s.log⟩
  rw [h1] at hz
  obtain ⟨z, es1, hz, ho1, hl1⟩ := hz
  obtain ⟨ho2, hl2⟩ := M.writeAll_eq_ok h2
  obtain ⟨authid, as, as', wa, _, _, hfa, rfl⟩ := needWith_ok h3
  obtain ⟨ea, na, ho3, hl3⟩ := Plain.authid_eq_ok hfa
  obtain ⟨ho4, hl4⟩ := M.writeAll_eq_ok h4
  obtain ⟨password, ps, ps', wp, _, _, hfp, rfl⟩ := needWith_ok h5
  obtain ⟨ep, np, ho5, hl5⟩ := Plain.password_eq_ok hfp
  have ho : (wp.addLog ps').wr.out = z ++ 0 :: (Str.bytes authid ++ 0 :: password) := by
    simp only [World.addLog_wr] at ho2 ho3 ho4 ho5 ⊢
    simp only at ho1
    rw [ho5, ho4, ho3, ho2, ho1]
    simp
  refine ⟨z, authid, password, ho, hz, na, np, ea, ep, ?_, ?_, ?_⟩
  · rw [ho]; exact splitOn_three.2 ⟨by simp, hz, na, np⟩
  · simp [hl5, hl4, hl3]
  · simp [hl5]

example : (Session.step Plain.client
    ⟨fun _ _ _ => answerAll [⟨.authId, c!"tim"⟩, ⟨.password, b!"pw"⟩],
      fun _ _ _ => .ret (.ok ()), fun _ => none, 0, ⟨⟨b!"PLAIN", 300, .client⟩, .client⟩⟩
    { st := (), rng := fun _ => 0 } ⟨none, [.accept 1, .fail .interrupted]⟩).1.res =
    .ok (.finished .yes) := by decide +kernel

/-! ## C09 -/

/-- C09: the server calls validate exactly for the messages of the right form, offering exactly
their parts. `prep` is any function that does not make something out of the empty string. -/
theorem C09_accepts (prep : Str → Option Str) (hprep : ∀ s, prep [] = some s → s = [])
    (env : Env) (ses : Session Unit) (input : Bytes) (sched : List WResp)
    (authzid authid : Str) (password : Bytes)
    (h : Spec.PlainMessage prep input authzid authid password) :
    ∃ ctx : Provider, ctx.Exactly (Spec.plainOffer authzid authid password) ∧
      EndsValidated env ses ctx (.finished .no) []
        (ses.step (Plain.server prep) env ⟨some input, sched⟩) := by
  refine ⟨_, plain_provider_exactly _ _ _, Plain.server_accepts h ?_ sched⟩
  obtain ⟨rawId, rawPw, hi, nz, na, np, hp, hne, hpw, hpne⟩ := h
  have h1 : 0 < (Str.bytes rawId).length := by
    refine List.length_pos_iff.2 ?_
    rw [Ne, Str.bytes_eq_nil]
    rintro rfl
    exact hne (hprep _ hp)
  have h2 : 0 < rawPw.length := by
    refine List.length_pos_iff.2 ?_
    rintro rfl
    rcases hpw with ⟨s, s', hs, h2, rfl⟩ | ⟨_, rfl⟩
    · rw [eq_comm, Str.bytes_eq_nil] at hs
      subst hs
      exact hpne (by rw [hprep _ h2]; rfl)
    · exact hpne rfl
  rw [hi]
  simp only [List.length_append, List.length_cons]
  omega

/-- C09: every other input, also no input, is an error; validate is not called and nothing
changes. -/
theorem C09_rejects (prep : Str → Option Str) (env : Env) (ses : Session Unit) (c : Call)
    (h : ∀ input authzid authid password, c.input = some input →
      ¬ Spec.PlainMessage prep input authzid authid password) :
    ∃ e, ses.step (Plain.server prep) env c = (⟨.err e, []⟩, ses) := by
  suffices h : ∃ e, Plain.serverStep prep env c.input ses.st
      ⟨⟨[], c.sched⟩, ses.rng, ses.slot, ses.log⟩ =
        (.err e, ses.st, ⟨⟨[], c.sched⟩, ses.rng, ses.slot, ses.log⟩) by
    obtain ⟨e, he⟩ := h
    refine ⟨e, ?_⟩
    unfold Session.step Session.exec
    simp only [Plain.server, he]
  generalize (⟨⟨[], c.sched⟩, ses.rng, ses.slot, ses.log⟩ : World) = w
  unfold Plain.serverStep
  cases hc : c.input with
  | none => exact ⟨_, rfl⟩
  | some input =>
    have h := fun z a p => h input z a p hc
    rw [M.bind_ok (M.okOr_some ..)]
    split
    · exact ⟨_, rfl⟩
    · rcases hs : splitOn 0 input with _ | ⟨z, _ | ⟨a, _ | ⟨p, _ | ⟨_, _⟩⟩⟩⟩
      · exact ⟨_, rfl⟩
      · exact ⟨_, rfl⟩
      · exact ⟨_, rfl⟩
      · obtain ⟨hi, nz, na, np⟩ := splitOn_three.1 hs
        simp only
        cases hz : fromUtf8 z with
        | none => exact ⟨_, rfl⟩
        | some z' =>
          rw [M.bind_ok (M.okOr_some ..)]
          cases ha : fromUtf8 a with
          | none => exact ⟨_, rfl⟩
          | some a' =>
            rw [M.bind_ok (M.okOr_some ..)]
            cases hp : prep a' with
            | none => exact ⟨_, rfl⟩
            | some a'' =>
              rw [M.bind_ok (M.okOr_some ..)]
              have hz' := bytes_of_fromUtf8 _ _ hz
              have ha' := bytes_of_fromUtf8 _ _ ha
              subst hz' ha'
              have hno : ∀ pw, a'' ≠ [] → Spec.PreparedPassword prep p pw → pw ≠ [] → False :=
                fun pw h1 h2 h3 => h z' a'' pw
                  ⟨a', p, by rw [hi]; simp, nz, na, np, hp, h1, h2, h3⟩
              split
              · exact ⟨_, rfl⟩
              · next hne =>
                have hne : a'' ≠ [] := by simpa using hne
                cases hpw : fromUtf8 p with
                | some pw =>
                  have hpw := bytes_of_fromUtf8 _ _ hpw
                  subst hpw
                  simp only
                  cases hpp : prep pw with
                  | none => exact ⟨_, rfl⟩
                  | some pw' =>
                    rw [M.bind_ok (M.okOr_some ..)]
                    split
                    · exact ⟨_, rfl⟩
                    · next hne' =>
                      exact (hno _ hne (.inl ⟨pw, pw', rfl, hpp, rfl⟩)
                        (by rw [Ne, Str.bytes_eq_nil]; simpa using hne')).elim
                | none =>
                  simp only
                  split
                  · exact ⟨_, rfl⟩
                  · next hne' =>
                    refine (hno p hne (.inr ⟨?_, rfl⟩) (by simpa using hne')).elim
                    rintro s rfl
                    rw [fromUtf8_bytes] at hpw
                    cases hpw
      · exact ⟨_, rfl⟩

/-- Non-UTF-8 passwords are accepted verbatim; an authorization id with a password of that kind. -/
example : Spec.PlainMessage some ([117, 0, 116, 105, 109, 0, 255, 254]) (c!"u") (c!"tim")
    [255, 254] := by
  refine ⟨c!"tim", [255, 254], by decide +kernel, by decide +kernel, by decide +kernel,
    by decide +kernel, rfl, by decide, .inr ⟨?_, rfl⟩, by decide⟩
  intro s hs
  have := fromUtf8_bytes s
  rw [← hs] at this
  exact absurd this (by rw [show fromUtf8 [255, 254] = none by decide +kernel]; simp)

end Rsasl

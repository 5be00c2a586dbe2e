/-
C12, C13: XOAUTH2.
-/
import Verif.Spec.Examples
import Verif.Model.Mech.OAuth
import Verif.Proofs.Bytes
import Verif.Proofs.Exec
import Verif.Proofs.Validate
import Verif.Props.Callback

namespace Rsasl

/-! ## Specification -/

/-- The initial response of XOAUTH2: `user=<authid>^Aauth=Bearer <token>^A^A`. -/
def Spec.xoauth2Message (authid token : Str) : Bytes :=
  b!"user=" ++ Str.bytes authid ++ 1 :: b!"auth=Bearer " ++ Str.bytes token ++ [1, 1]

/-- What an XOAUTH2 server offers to its callbacks. -/
def Spec.xoauth2Offer (authid token : Str) : (p : Property) → Option p.Value
  | .authId => some authid
  | .oauthBearerToken => some token
  | _ => none

theorem XOAuth2.provider_exactly (authid token : Str) :
    (XOAuth2.provider authid token).Exactly (Spec.xoauth2Offer authid token) := by
  intro p
  cases p <;> rfl

/-! ## Parsing -/

theorem findIdx?_one {a : Bytes} (h : (1 : UInt8) ∉ a) (b : Bytes) :
    (a ++ 1 :: b).findIdx? (· == 1) = some a.length := by
  induction a with
  | nil => simp [List.findIdx?_cons]
  | cons x a ih =>
    simp only [List.mem_cons, not_or] at h
    have hx : (x == 1) = false := by simpa using Ne.symm h.1
    simp [List.findIdx?_cons, hx, ih h.2]

theorem findIdx?_one_eq {b : Bytes} {n : Nat} (h : b.findIdx? (· == 1) = some n) :
    (1 : UInt8) ∉ b.take n ∧ ∃ r, b.drop n = 1 :: r := by
  induction b generalizing n with
  | nil => simp at h
  | cons x b ih =>
    rw [List.findIdx?_cons] at h
    by_cases hx : x = 1
    · subst hx
      simp at h
      subst h
      exact ⟨by simp, b, rfl⟩
    · have hx' : (x == 1) = false := by simpa using hx
      rw [hx'] at h
      simp only [Bool.false_eq_true, if_false, Option.map_eq_some_iff] at h
      obtain ⟨m, hm, rfl⟩ := h
      obtain ⟨h1, r, h2⟩ := ih hm
      refine ⟨by simp [h1, Ne.symm hx], r, by simpa using h2⟩

/-- The server parses exactly the messages of the prescribed form, with an authid without `^A`. -/
theorem XOAuth2.parse_eq_ok (input : Bytes) (authid token : Str) :
    XOAuth2.parse input = .ok (authid, token) ↔
      input = Spec.xoauth2Message authid token ∧ '\x01' ∉ authid := by
  have hmem : ∀ s : Str, (1 : UInt8) ∈ Str.bytes s ↔ '\x01' ∈ s := fun s => by
    rw [mem_bytes_ascii (by decide) s]; rfl
  constructor
  · intro h
    unfold XOAuth2.parse at h
    cases hi : input.findIdx? (· == 1) with
    | none => rw [hi] at h; cases h
    | some mid =>
      rw [hi] at h
      simp only at h
      obtain ⟨hn, r, hr⟩ := findIdx?_one_eq hi
      cases h1 : stripPrefix XOAuth2.userPrefix (input.take mid) with
      | none => rw [h1] at h; cases h
      | some rawAuthid =>
        rw [h1] at h
        simp only at h
        cases h2 : (stripPrefix XOAuth2.authPrefix (input.drop mid)).bind
            (stripSuffix XOAuth2.endMark) with
        | none => rw [h2] at h; cases h
        | some rawToken =>
          rw [h2] at h
          simp only at h
          cases h3 : fromUtf8 rawAuthid with
          | none => rw [h3] at h; cases h
          | some a =>
            rw [h3] at h
            simp only at h
            cases h4 : fromUtf8 rawToken with
            | none => rw [h4] at h; cases h
            | some t =>
              rw [h4] at h
              cases h
              have h1 := stripPrefix_eq_some.1 h1
              rw [Option.bind_eq_some_iff] at h2
              obtain ⟨x, h5, h6⟩ := h2
              have h5 := stripPrefix_eq_some.1 h5
              have h6 := stripSuffix_eq_some.1 h6
              have h3 := bytes_of_fromUtf8 _ _ h3
              have h4 := bytes_of_fromUtf8 _ _ h4
              refine ⟨?_, ?_⟩
              · rw [← List.take_append_drop mid input, h1, h5, h6, ← h3, ← h4]
                simp [Spec.xoauth2Message, XOAuth2.userPrefix, XOAuth2.authPrefix, XOAuth2.endMark]
              · rw [← hmem, h3]
                intro hm
                apply hn
                rw [h1]
                exact List.mem_append_right _ hm
  · rintro ⟨rfl, hn⟩
    have hn : (1 : UInt8) ∉ b!"user=" ++ Str.bytes authid := by
      rw [List.mem_append, not_or]
      exact ⟨by decide +kernel, by rwa [hmem]⟩
    have hform : Spec.xoauth2Message authid token = (b!"user=" ++ Str.bytes authid) ++
        1 :: (b!"auth=Bearer " ++ Str.bytes token ++ [1, 1]) := by
      simp [Spec.xoauth2Message]
    unfold XOAuth2.parse
    rw [hform, findIdx?_one hn]
    simp only [List.take_left, List.drop_left]
    rw [show XOAuth2.userPrefix = b!"user=" from rfl, stripPrefix_append]
    have : 1 :: (b!"auth=Bearer " ++ Str.bytes token ++ [1, 1]) =
        XOAuth2.authPrefix ++ (Str.bytes token ++ XOAuth2.endMark) := by
      simp [XOAuth2.authPrefix, XOAuth2.endMark]
    rw [this, stripPrefix_append]
    simp only [Option.bind_some, stripSuffix_append, fromUtf8_bytes]

/-! ## C12 -/

theorem XOAuth2.client_does {env : Env} {authid token : Str} (ha : env.Gives .authId authid)
    (ht : env.Gives .oauthBearerToken token) (input : Option Bytes) :
    Does Cooperative (XOAuth2.clientStep env input) .initial .running .waitingServerResponse
      (Spec.xoauth2Message authid token) := by
  have hC := cooperative_closed
  unfold XOAuth2.clientStep
  refine Does.bind' hC (Does.get _ _) (o₂ := Spec.xoauth2Message authid token) ?_ rfl
  refine Does.bind' hC (Does.need ha _ (Does.writeVectored _ _))
    (Does.bind hC (Does.need ht _ (Does.writeVectored _ _)) (Does.bind hC (Does.set _ _ _)
      (Does.pure _ _ _))) ?_
  simp [Spec.xoauth2Message, XOAuth2.userPrefix, XOAuth2.authPrefix, XOAuth2.endMark]

theorem XOAuth2.onResult_log (v : Except Str Unit) (s : OAuthSState) (w : World) :
    (XOAuth2.onResult v s w).2.2.log = w.log := by
  unfold XOAuth2.onResult
  cases v with
  | ok u => rfl
  | error e =>
    obtain ⟨n, sc, _, _, h | ⟨e, h⟩⟩ := M.writeAll_cases (Str.bytes e) s w
    · simp only
      rw [M.bind_ok h]
      rfl
    · simp only
      rw [M.bind_err h]

/-- In the first step, for every server callback: the first thing that happens is a request
for `XOAuth2Validate` offering exactly the parsed values, and validate, if called, is offered the
same. -/
theorem XOAuth2.server_offers {senv : Env} {server : Session OAuthSState}
    (hst : server.st = .initial) {input : Bytes} {authid token : Str}
    (h : XOAuth2.parse input = .ok (authid, token)) (sched : List WResp) :
    let r := server.step XOAuth2.server senv ⟨some input, sched⟩
    ∃ rest, r.2.log = server.log ++ .asked .xoauth2Validate (XOAuth2.provider authid token) :: rest ∧
      askedProps rest = [] ∧
      (validations rest = [] ∨ validations rest = [XOAuth2.provider authid token]) := by
  unfold Session.step Session.exec
  simp only [XOAuth2.server]
  unfold XOAuth2.serverStep
  rw [hst, M.bind_ok (M.get_apply ..)]
  simp only
  rw [M.bind_ok (M.okOr_some ..), h, M.bind_ok (M.lift_ok ..)]
  simp only
  obtain ⟨rest, h1, h2, h3⟩ := needWith_log senv .xoauth2Validate (XOAuth2.provider authid token)
    XOAuth2.onResult XOAuth2.onResult_log OAuthSState.initial
    ⟨⟨[], sched⟩, server.rng, server.slot, server.log⟩
  rw [M.bind_apply]
  generalize needWith senv .xoauth2Validate (XOAuth2.provider authid token) XOAuth2.onResult
    OAuthSState.initial ⟨⟨[], sched⟩, server.rng, server.slot, server.log⟩ = x at h1
  rcases x with ⟨st | e | _, s', w'⟩
  · simp only at h1 ⊢
    obtain ⟨es, hq, hv⟩ := validate_eq senv (XOAuth2.provider authid token) s' w'
    rw [M.bind_apply, hv]
    refine ⟨rest ++ .validated (XOAuth2.provider authid token) :: es, ?_, ?_, .inr ?_⟩
    · generalize Spec.returned senv.vtag w'.slot.isNone
        (senv.validate w'.log senv.sd (XOAuth2.provider authid token)) = x
      rcases x with e | u <;> simp [h1]
    · have := hq.askedProps
      simp only [askedProps_append, h3, List.nil_append]
      unfold askedProps at this ⊢
      simp [this]
    · have := hq.validations
      simp only [validations_append, h2, List.nil_append]
      unfold validations at this ⊢
      simp [this]
  · exact ⟨rest, h1, h3, .inl h2⟩
  · exact ⟨rest, h1, h3, .inl h2⟩

/-- The full statement of C12. -/
def C12 : Prop :=
  ∀ (cenv senv : Env) (authid token : Str), cenv.Gives .authId authid →
    cenv.Gives .oauthBearerToken token →
    ∀ (client : Session OAuthCState) (server : Session OAuthSState) (input : Option Bytes)
      (sched sched' : List WResp), client.st = .initial → server.st = .initial →
      Cooperative sched →
      let c := client.step XOAuth2.client cenv ⟨input, sched⟩
      let r := server.step XOAuth2.server senv ⟨some c.1.out, sched'⟩
      c.1.res = .ok .running ∧
      ∃ ctx rest, ctx.Exactly (Spec.xoauth2Offer authid token) ∧
        r.2.log = server.log ++ .asked .xoauth2Validate ctx :: rest ∧ askedProps rest = [] ∧
        (validations rest = [] ∨ validations rest = [ctx])

/-- C12 for user names without the separator `^A`. Missing: user names containing `^A`, for which
it is false (`C12_false`). -/
theorem C12_partial (cenv senv : Env) (authid token : Str) (ha : cenv.Gives .authId authid)
    (ht : cenv.Gives .oauthBearerToken token) (hn : '\x01' ∉ authid)
    (client : Session OAuthCState) (server : Session OAuthSState) (input : Option Bytes)
    (sched sched' : List WResp) (hc : client.st = .initial) (hs : server.st = .initial)
    (hw : Cooperative sched) :
    let c := client.step XOAuth2.client cenv ⟨input, sched⟩
    let r := server.step XOAuth2.server senv ⟨some c.1.out, sched'⟩
    c.1.res = .ok .running ∧
    ∃ ctx rest, ctx.Exactly (Spec.xoauth2Offer authid token) ∧
      r.2.log = server.log ++ .asked .xoauth2Validate ctx :: rest ∧ askedProps rest = [] ∧
      (validations rest = [] ∨ validations rest = [ctx]) := by
  have hd := XOAuth2.client_does ha ht input
  rw [← hc] at hd
  obtain ⟨es, _, he⟩ := hd.exec hw
  have he : client.step XOAuth2.client cenv ⟨input, sched⟩ = _ := he
  simp only [he]
  obtain ⟨rest, h1, h2, h3⟩ := XOAuth2.server_offers (senv := senv) hs
    ((XOAuth2.parse_eq_ok _ authid token).2 ⟨rfl, hn⟩) sched'
  exact ⟨trivial, _, rest, XOAuth2.provider_exactly _ _, h1, h2, h3⟩

/-- C12: the server accepts no other messages: everything else is an error, without any callback
or validate call. -/
theorem C12_server_rejects (senv : Env) (server : Session OAuthSState) (c : Call)
    (hs : server.st = .initial)
    (h : ∀ authid token, '\x01' ∉ authid → c.input ≠ some (Spec.xoauth2Message authid token)) :
    ∃ e, server.step XOAuth2.server senv c = (⟨.err e, []⟩, server) := by
  obtain ⟨st, slot, rng, log⟩ := server
  simp only at hs
  subst hs
  unfold Session.step Session.exec
  simp only [XOAuth2.server]
  unfold XOAuth2.serverStep
  rw [M.bind_ok (M.get_apply ..)]
  simp only
  cases hi : c.input with
  | none => exact ⟨_, rfl⟩
  | some input =>
    rw [M.bind_ok (M.okOr_some ..)]
    cases hp : XOAuth2.parse input with
    | error e => exact ⟨_, rfl⟩
    | ok at' =>
      obtain ⟨a, t⟩ := at'
      obtain ⟨h1, h2⟩ := (XOAuth2.parse_eq_ok _ _ _).1 hp
      exact absurd (by rw [hi, h1]) (h a t h2)

/-- The message as text. -/
theorem Spec.xoauth2Message_text (authid token : Str) : Spec.xoauth2Message authid token =
    Str.bytes (c!"user=" ++ (authid ++ '\x01' :: (c!"auth=Bearer " ++ (token ++ ['\x01', '\x01'])))) := by
  unfold Spec.xoauth2Message Str.bytes
  simp only [List.flatMap_append, List.flatMap_cons, List.append_assoc, List.cons_append]
  rfl

theorem append_sep_inj {α : Type} {x : α} {a b c d : List α} (ha : x ∉ a) (hb : x ∉ b)
    (h : a ++ x :: c = b ++ x :: d) : a = b ∧ c = d := by
  induction a generalizing b with
  | nil =>
    cases b with
    | nil => exact ⟨rfl, by simpa using h⟩
    | cons y b =>
      simp only [List.nil_append, List.cons_append, List.cons.injEq] at h
      exact absurd (h.1 ▸ List.mem_cons_self ..) hb
  | cons y a ih =>
    cases b with
    | nil =>
      simp only [List.nil_append, List.cons_append, List.cons.injEq] at h
      exact absurd (h.1 ▸ List.mem_cons_self ..) ha
    | cons z b =>
      simp only [List.cons_append, List.cons.injEq] at h
      obtain ⟨rfl, h⟩ := h
      obtain ⟨rfl, rfl⟩ := ih (fun h => ha (List.mem_cons_of_mem _ h))
        (fun h => hb (List.mem_cons_of_mem _ h)) h
      exact ⟨rfl, rfl⟩

/-- C12, the other user names: what the server makes of a name with a `^A`. If `auth=Bearer ` follows
the first one, the server is shown the user before it, with a token that begins with the rest of
the name; otherwise it refuses the message, without any callback or validate call. -/
theorem C12_separator (cenv senv : Env) (before after token : Str)
    (ha : cenv.Gives .authId (before ++ '\x01' :: after))
    (ht : cenv.Gives .oauthBearerToken token) (hn : '\x01' ∉ before)
    (client : Session OAuthCState) (server : Session OAuthSState) (input : Option Bytes)
    (sched sched' : List WResp) (hc : client.st = .initial) (hs : server.st = .initial)
    (hw : Cooperative sched) :
    let c := client.step XOAuth2.client cenv ⟨input, sched⟩
    let r := server.step XOAuth2.server senv ⟨some c.1.out, sched'⟩
    c.1.res = .ok .running ∧
    (∀ more, after = c!"auth=Bearer " ++ more →
      ∃ ctx rest, ctx.Exactly
          (Spec.xoauth2Offer before (more ++ '\x01' :: (c!"auth=Bearer " ++ token))) ∧
        r.2.log = server.log ++ .asked .xoauth2Validate ctx :: rest ∧ askedProps rest = [] ∧
        (validations rest = [] ∨ validations rest = [ctx])) ∧
    ((¬ c!"auth=Bearer " <+: after) → ∃ e, r = (⟨.err e, []⟩, server)) := by
  have hd := XOAuth2.client_does ha ht input
  rw [← hc] at hd
  obtain ⟨es, _, he⟩ := hd.exec hw
  have he : client.step XOAuth2.client cenv ⟨input, sched⟩ = _ := he
  simp only [he]
  refine ⟨trivial, ?_, fun hp => ?_⟩
  · rintro more rfl
    have : Spec.xoauth2Message (before ++ '\x01' :: (c!"auth=Bearer " ++ more)) token =
        Spec.xoauth2Message before (more ++ '\x01' :: (c!"auth=Bearer " ++ token)) := by
      simp only [Spec.xoauth2Message_text, List.append_assoc, List.cons_append]
    rw [this]
    obtain ⟨rest, h1, h2, h3⟩ := XOAuth2.server_offers (senv := senv) hs
      ((XOAuth2.parse_eq_ok _ before _).2 ⟨rfl, hn⟩) sched'
    exact ⟨_, rest, XOAuth2.provider_exactly _ _, h1, h2, h3⟩
  · refine C12_server_rejects senv server _ hs fun a t hna heq => hp ?_
    simp only [Option.some.injEq, Spec.xoauth2Message_text] at heq
    have heq := List.append_cancel_left (Str.bytes_injective heq)
    rw [List.append_assoc, List.cons_append] at heq
    obtain ⟨-, heq⟩ := append_sep_inj hn hna heq
    rcases List.append_eq_append_iff.1 heq with ⟨bs, h1, h2⟩ | ⟨as, h1, -⟩
    · cases bs with
      | nil => exact ⟨[], by rw [h1]; simp⟩
      | cons x bs =>
        simp only [List.cons_append, List.cons.injEq] at h2
        obtain ⟨rfl, -⟩ := h2
        have : '\x01' ∈ c!"auth=Bearer " := by
          rw [h1]
          exact List.mem_append_right _ (List.mem_cons_self ..)
        exact absurd this (by decide)
    · exact ⟨as, h1.symm⟩

/-- So a user name can carry another user's name and the beginning of a token. -/
example : (XOAuth2.parse (Session.step XOAuth2.client
      (exampleEnv [⟨.authId, c!"other\x01auth=Bearer stolen"⟩, ⟨.oauthBearerToken, c!"mine"⟩])
      { st := .initial, rng := fun _ => 0 } ⟨none, []⟩).1.out).toOption =
    some (c!"other", c!"stolen\x01auth=Bearer mine") := by
  decide +kernel

/-- C12 exactly: the server is shown the client's name and token if and only if the name has no
`^A`. -/
theorem C12_exact (cenv senv : Env) (authid token : Str) (ha : cenv.Gives .authId authid)
    (ht : cenv.Gives .oauthBearerToken token)
    (client : Session OAuthCState) (server : Session OAuthSState) (input : Option Bytes)
    (sched sched' : List WResp) (hc : client.st = .initial) (hs : server.st = .initial)
    (hw : Cooperative sched) :
    let c := client.step XOAuth2.client cenv ⟨input, sched⟩
    let r := server.step XOAuth2.server senv ⟨some c.1.out, sched'⟩
    (∃ ctx rest, ctx.Exactly (Spec.xoauth2Offer authid token) ∧
      r.2.log = server.log ++ .asked .xoauth2Validate ctx :: rest) ↔ '\x01' ∉ authid := by
  intro c r
  constructor
  · rintro ⟨ctx, rest, hx, hl⟩ hm
    obtain ⟨before, after, rfl, hn⟩ := List.eq_append_cons_of_mem hm
    obtain ⟨-, h2, h3⟩ := C12_separator cenv senv before after token ha ht hn client server input
      sched sched' hc hs hw
    by_cases hp : c!"auth=Bearer " <+: after
    · obtain ⟨more, hmore⟩ := hp
      obtain ⟨ctx', rest', hx', hl', -⟩ := h2 more hmore.symm
      have := hl.symm.trans hl'
      simp only [List.append_cancel_left_eq, List.cons.injEq, Event.asked.injEq, true_and] at this
      obtain ⟨rfl, -⟩ := this
      have := (hx .authId).symm.trans (hx' .authId)
      simp [Spec.xoauth2Offer] at this
    · obtain ⟨e, he⟩ := h3 hp
      rw [show r = _ from he] at hl
      simp at hl
  · intro hn
    obtain ⟨-, ctx, rest, h1, h2, -⟩ := C12_partial cenv senv authid token ha ht hn client server
      input sched sched' hc hs hw
    exact ⟨ctx, rest, h1, h2⟩

/-- C12 is violated by a user name containing `^A`: the message is not understood. -/
theorem C12_false : ¬ C12 := by
  intro h
  have := h (exampleEnv [⟨.authId, ['a', '\x01', 'b']⟩, ⟨.oauthBearerToken, c!"t"⟩])
    (exampleEnv []) ['a', '\x01', 'b'] (c!"t")
    (fun _ _ => answers_answerAll _ [] _ rfl (by simp))
    (fun _ _ => answers_answerAll _ [⟨.authId, _⟩] [] rfl (by simp))
    { st := .initial, rng := fun _ => 0 } { st := .initial, rng := fun _ => 0 } none [] []
    rfl rfl Cooperative.nil
  obtain ⟨_, ctx, rest, _, hl, _⟩ := this
  have hl' : (Session.step XOAuth2.server (exampleEnv []) { st := .initial, rng := fun _ => 0 }
    ⟨some (Session.step XOAuth2.client
      (exampleEnv [⟨.authId, ['a', '\x01', 'b']⟩, ⟨.oauthBearerToken, c!"t"⟩])
      { st := .initial, rng := fun _ => 0 } ⟨none, []⟩).1.out, []⟩).2.log = [] := by
    rfl
  have hl := hl'.symm.trans hl
  simp at hl

example : (exampleEnv [⟨.authId, c!"someuser@example.com"⟩, ⟨.oauthBearerToken, c!"ya29.vF9"⟩]).Gives
    .oauthBearerToken (c!"ya29.vF9") :=
  fun _ _ => answers_answerAll _ [⟨.authId, _⟩] [] rfl (by simp)

/-! ## C13 -/

/-- C13, server: told to fail with a message, it sends exactly that message, asks validate and
reports `Running`; whatever comes next finishes the exchange without output. -/
theorem C13_server_error (senv : Env) (server : Session OAuthSState) (hs : server.st = .initial)
    (authid token error : Str) (hn : '\x01' ∉ authid)
    (hcb : senv.GivesAt (Spec.xoauth2Offer authid token) .xoauth2Validate (.error error))
    (sched : List WResp) (hw : Patient sched) :
    let r := server.step XOAuth2.server senv ⟨some (Spec.xoauth2Message authid token), sched⟩
    (∃ ctx es, ctx.Exactly (Spec.xoauth2Offer authid token) ∧ validations es = [] ∧
      EndsValidated senv { server with log := server.log ++ es } ctx .running (Str.bytes error) r) ∧
    ∀ c, r.2.step XOAuth2.server senv c = (⟨.ok (.finished .no), []⟩, r.2) := by
  have hp := (XOAuth2.parse_eq_ok _ authid token).2 ⟨rfl, hn⟩
  obtain ⟨es, hq, hnw⟩ := needWith_answers
    (w := ⟨⟨[], sched⟩, server.rng, server.slot, server.log⟩)
    (hcb server.log _ (XOAuth2.provider_exactly authid token)) XOAuth2.onResult OAuthSState.initial
  obtain ⟨sc, hsc, hwr⟩ := M.writeAll_patient (Str.bytes error) OAuthSState.initial
    ((⟨⟨[], sched⟩, server.rng, server.slot, server.log⟩ : World).addLog
      (.asked .xoauth2Validate (XOAuth2.provider authid token) :: es ++
        [.answered .xoauth2Validate (.error error)])) hw
  have hnw := hnw .running .errored _ (by
    show XOAuth2.onResult (.error error) _ _ = _
    unfold XOAuth2.onResult
    simp only
    rw [M.bind_ok hwr, M.bind_ok (M.set_apply ..)]
    rfl)
  have key := endsValidated' (env := senv) (ses := server) (ctx := XOAuth2.provider authid token)
    (st := .running) (s₁ := .errored) (s' := .errored)
    (m := XOAuth2.serverStep senv (some (Spec.xoauth2Message authid token)))
    (sched := sched) (sched' := sc) (out := Str.bytes error)
    (es₀ := .asked .xoauth2Validate (XOAuth2.provider authid token) :: es ++
        [.answered .xoauth2Validate (.error error)]) (by
      rintro w rfl
      unfold XOAuth2.serverStep
      rw [hs, M.bind_ok (M.get_apply ..)]
      simp only
      rw [M.bind_ok (M.okOr_some ..), hp, M.bind_ok (M.lift_ok ..)]
      simp only
      rw [M.bind_ok hnw]
      simp only [World.addLog, List.nil_append]
      rw [M.bind_apply, M.bind_apply]
      obtain ⟨es', _, hv⟩ := validate_eq senv (XOAuth2.provider authid token) OAuthSState.errored
        ⟨⟨Str.bytes error, sc⟩, server.rng, server.slot, server.log ++ (.asked .xoauth2Validate (XOAuth2.provider authid token) :: es ++
        [.answered .xoauth2Validate (.error error)])⟩
      rw [hv]
      generalize Spec.returned _ _ _ = x
      rcases x with e | u <;> rfl)
  refine ⟨⟨_, _, XOAuth2.provider_exactly _ _, validations_asked _ _ hq _, key.1⟩, ?_⟩
  intro c
  have hst : (server.step XOAuth2.server senv
      ⟨some (Spec.xoauth2Message authid token), sched⟩).2.st = OAuthSState.errored := by
    by_cases hr : (server.step XOAuth2.server senv
      ⟨some (Spec.xoauth2Message authid token), sched⟩).1.res = .ok .running
    · exact key.2.1 hr
    · exact key.2.2 hr
  generalize server.step XOAuth2.server senv
      ⟨some (Spec.xoauth2Message authid token), sched⟩ = r at hst
  obtain ⟨r, st, slot, rng, log⟩ := r
  simp only at hst
  subst hst
  rfl

/-- C13, server: told to accept, it writes nothing, asks validate and finishes. -/
theorem C13_server_ok (senv : Env) (server : Session OAuthSState) (hs : server.st = .initial)
    (authid token : Str) (hn : '\x01' ∉ authid)
    (hcb : senv.GivesAt (Spec.xoauth2Offer authid token) .xoauth2Validate (.ok ()))
    (sched : List WResp) :
    ∃ ctx es, ctx.Exactly (Spec.xoauth2Offer authid token) ∧ validations es = [] ∧
      EndsValidated senv { server with log := server.log ++ es } ctx (.finished .no) []
        (server.step XOAuth2.server senv ⟨some (Spec.xoauth2Message authid token), sched⟩) := by
  have hp := (XOAuth2.parse_eq_ok _ authid token).2 ⟨rfl, hn⟩
  obtain ⟨es, hq, hnw⟩ := needWith_answers
    (w := ⟨⟨[], sched⟩, server.rng, server.slot, server.log⟩)
    (hcb server.log _ (XOAuth2.provider_exactly authid token)) XOAuth2.onResult OAuthSState.initial
  have hnw := hnw (.finished .no) .initial _ rfl
  have key := endsValidated' (env := senv) (ses := server) (ctx := XOAuth2.provider authid token)
    (st := .finished .no) (s₁ := .initial) (s' := .initial)
    (m := XOAuth2.serverStep senv (some (Spec.xoauth2Message authid token)))
    (sched := sched) (sched' := sched) (out := [])
    (es₀ := .asked .xoauth2Validate (XOAuth2.provider authid token) :: es ++
        [.answered .xoauth2Validate (.ok ())]) (by
      rintro w rfl
      unfold XOAuth2.serverStep
      rw [hs, M.bind_ok (M.get_apply ..)]
      simp only
      rw [M.bind_ok (M.okOr_some ..), hp, M.bind_ok (M.lift_ok ..)]
      simp only
      rw [M.bind_ok hnw]
      simp only [World.addLog]
      rw [M.bind_apply, M.bind_apply]
      obtain ⟨es', _, hv⟩ := validate_eq senv (XOAuth2.provider authid token) OAuthSState.initial
        ⟨⟨[], sched⟩, server.rng, server.slot, server.log ++ (.asked .xoauth2Validate (XOAuth2.provider authid token) :: es ++
        [.answered .xoauth2Validate (.ok ())])⟩
      rw [hv]
      generalize Spec.returned _ _ _ = x
      rcases x with e | u <;> rfl)
  exact ⟨_, _, XOAuth2.provider_exactly _ _, validations_asked _ _ hq _, key.1⟩

/-- C13, client: the reaction to the server's response, for every callback. An empty or absent one
finishes with nothing to send. Otherwise the text is handed to the callback, exactly as it came and
once, and the client finishes asking to send the (empty) message; if it is not text or if the
callback does not take it, the step fails. In every case the exchange is over. -/
theorem C13_client (env : Env) (client : Session OAuthCState)
    (hs : client.st = .waitingServerResponse) (c : Call) :
    let r := client.step XOAuth2.client env c
    r.2.st = .done ∧ r.1.out = [] ∧
    ((c.input.getD [] = [] ∧ r.1.res = .ok (.finished .no) ∧ r.2.log = client.log) ∨
     (c.input.getD [] ≠ [] ∧
      ((∃ ctx text, c.input = some (Str.bytes text) ∧ r.1.res = .ok (.finished .yes) ∧
        r.2.log = client.log ++ [.notified .xoauth2Error ctx, .delivered .xoauth2Error text]) ∨
       ∃ e, r.1.res = .err e))) := by
  unfold Session.step Session.exec
  simp only [XOAuth2.client]
  unfold XOAuth2.clientStep
  rw [hs, M.bind_ok (M.get_apply ..)]
  simp only
  rw [M.bind_ok (M.set_apply ..)]
  have ho : External.orEmpty c.input = c.input.getD [] := by cases c.input <;> rfl
  rw [ho]
  by_cases he : c.input.getD [] = []
  · rw [if_pos (by rw [he]; rfl)]
    exact ⟨rfl, rfl, .inl ⟨he, rfl, rfl⟩⟩
  · rw [if_neg (by simpa using he)]
    cases hf : fromUtf8 (c.input.getD []) with
    | none => exact ⟨rfl, rfl, .inr ⟨he, .inr ⟨_, rfl⟩⟩⟩
    | some text =>
      rw [M.bind_ok (M.okOr_some ..), M.bind_apply]
      have hi : c.input = some (Str.bytes text) := by
        rw [bytes_of_fromUtf8 _ _ hf]
        cases hi : c.input with
        | none => rw [hi] at he; exact absurd rfl he
        | some b => rfl
      obtain ⟨o, ⟨h, rfl | ⟨e, rfl, _⟩⟩ | ⟨h, e, rfl, _⟩⟩ := C19_action env .xoauth2Error .empty text
        OAuthCState.done ⟨⟨[], c.sched⟩, client.rng, client.slot, client.log⟩
      · rw [h]
        exact ⟨rfl, rfl, .inr ⟨he, .inl ⟨_, text, hi, rfl, rfl⟩⟩⟩
      · rw [h]
        exact ⟨rfl, rfl, .inr ⟨he, .inr ⟨_, rfl⟩⟩⟩
      · rw [h]
        exact ⟨rfl, rfl, .inr ⟨he, .inr ⟨_, rfl⟩⟩⟩

/-- C13, client: a callback that takes the action makes the step succeed. -/
theorem C13_client_delivers (env : Env) (client : Session OAuthCState)
    (hs : client.st = .waitingServerResponse) (text : Str) (hne : text ≠ []) (sched : List WResp)
    (ht : ∀ log ctx, Takes .xoauth2Error text (.ok ()) (env.callback log env.sd ctx)) :
    let r := client.step XOAuth2.client env ⟨some (Str.bytes text), sched⟩
    r.1.res = .ok (.finished .yes) ∧
      ∃ ctx, r.2.log = client.log ++ [.notified .xoauth2Error ctx, .delivered .xoauth2Error text] := by
  unfold Session.step Session.exec
  simp only [XOAuth2.client]
  unfold XOAuth2.clientStep External.orEmpty
  rw [hs, M.bind_ok (M.get_apply ..)]
  simp only
  rw [M.bind_ok (M.set_apply ..), if_neg (by simpa [Str.bytes_eq_nil] using hne), fromUtf8_bytes,
    M.bind_ok (M.okOr_some ..),
    M.bind_ok (C19_taken env .xoauth2Error .empty text _ (.ok ()) (by simp) (ht _ _) _)]
  exact ⟨rfl, _, rfl⟩

/-- C13, client: afterwards there is only `MechanismDone`. -/
theorem C13_client_done (env : Env) (client : Session OAuthCState) (hs : client.st = .done)
    (c : Call) : client.step XOAuth2.client env c = (⟨.err .mechanismDone, []⟩, client) := by
  obtain ⟨_, _, _, _⟩ := client
  simp only at hs
  subst hs
  rfl

example : (⟨fun _ _ ctx => match ctx.getRef .oauthBearerToken with
      | some _ => .satisfy .xoauth2Validate (.error (c!"{\"status\":\"401\"}")) fun r => .ret r
      | none => .ret (.ok ()),
    fun _ _ _ => .ret (.ok ()), fun _ => none, 0, ⟨⟨b!"XOAUTH2", 300, .client⟩, .server⟩⟩ : Env).GivesAt
    (Spec.xoauth2Offer (c!"u") (c!"t")) .xoauth2Validate (.error (c!"{\"status\":\"401\"}")) := by
  intro log ctx h
  simp only [h .oauthBearerToken, Spec.xoauth2Offer]
  exact .satisfy _ (fun _ => rfl)

end Rsasl

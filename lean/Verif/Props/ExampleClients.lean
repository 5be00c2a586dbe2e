/-
C86: the example clients.
-/
import Verif.Model.ExampleClients
import Verif.Spec.ExampleClients
import Verif.Props.EndToEnd
import Verif.Props.Features

namespace Rsasl

open Spec Example

/-! ## Reading lines -/

theorem takeLine_first (b : Bytes) : FirstLine b (takeLine b).1 (takeLine b).2 := by
  induction b with
  | nil => exact .last [] (by simp)
  | cons x b ih =>
    unfold takeLine
    split
    · next h =>
      subst h
      exact .ended [] b (by simp)
    · next h =>
      generalize takeLine b = t at ih
      rcases t with ⟨line, rest⟩
      cases ih with
      | ended text rest hn => exact .ended (x :: text) rest (by simp [hn, Ne.symm h])
      | last text hn => exact .last (x :: _) (by simp [hn, Ne.symm h])

theorem Spec.FirstLine.takeLine {b line rest : Bytes} (h : FirstLine b line rest) :
    takeLine b = (line, rest) := by
  cases h with
  | ended text rest hn =>
    induction text with
    | nil => rfl
    | cons x text ih =>
      simp only [List.mem_cons, not_or] at hn
      simp only [List.cons_append, Example.takeLine]
      rw [if_neg (Ne.symm hn.1), ih hn.2]
  | last text hn =>
    induction b with
    | nil => rfl
    | cons x text ih =>
      simp only [List.mem_cons, not_or] at hn
      simp only [Example.takeLine]
      rw [if_neg (Ne.symm hn.1), ih hn.2]

/-! ## The client step -/

theorem needWith_gives_ok {S G : Type} {env : Env} {p : Property} {v : p.Value} (h : env.Gives p v)
    {ctx : Provider} {f : p.Value → M S G} {s s' : S} {w w' : World} {g : G}
    (hr : needWith env p ctx f s w = (.ok g, s', w')) :
    ∃ w₁ s₂ w₂, f v s w₁ = (.ok g, s₂, w₂) := by
  obtain ⟨es, -, he⟩ := maybeNeedWith_answers (h w.log ctx) f s
  unfold needWith at hr
  obtain ⟨r, s₁, w₁, h1, h2⟩ := M.bind_eq_ok hr
  obtain ⟨x, hx⟩ : ∃ x, x = f v s (w.addLog (.asked p ctx :: es ++ [.answered p v])) := ⟨_, rfl⟩
  rw [he, ← hx] at h1
  rcases x with ⟨g' | e | _, s₂, w₂⟩
  · cases h1
    cases h2
    exact ⟨_, _, _, hx.symm⟩
  · simp only at h1
    cases hn : filterNoValue (filterEarly (.error e)) <;> rw [hn] at h1 <;> cases h1
    cases h2
  · cases h1

theorem mem_lineFeed (s : Str) : (10 : UInt8) ∈ Str.bytes s ↔ '\n' ∈ s :=
  mem_bytes_ascii (by decide) s

theorem Plain.client_ok {env : Env} {authid : Str} {password : Bytes}
    (ha : env.Gives .authId authid) (hp : env.Gives .password password)
    (s : Session Unit) (c : Call) (st : State)
    (h : (s.step Plain.client env c).1.res = .ok st) :
    authid ≠ [] ∧ password ≠ [] ∧ (0 : UInt8) ∉ Str.bytes authid ∧ (0 : UInt8) ∉ password := by
  have hstep : ∃ st' w', Plain.clientStep env c.input s.st
      ⟨⟨[], c.sched⟩, s.rng, s.slot, s.log⟩ = (.ok st, st', w') := by
    unfold Session.step Session.exec at h
    simp only [Plain.client] at h
    generalize Plain.clientStep env c.input s.st ⟨⟨[], c.sched⟩, s.rng, s.slot, s.log⟩ = x at h ⊢
    rcases x with ⟨o, st', w'⟩
    simp only at h
    subst h
    exact ⟨st', w', rfl⟩
  obtain ⟨st', w', hstep⟩ := hstep
  unfold Plain.clientStep at hstep
  obtain ⟨_, s₁, w₁, h1, hstep⟩ := M.bind_eq_ok hstep
  obtain ⟨_, s₂, w₂, h2, hstep⟩ := M.bind_eq_ok hstep
  obtain ⟨_, s₃, w₃, h3, hstep⟩ := M.bind_eq_ok hstep
  obtain ⟨_, s₄, w₄, h4, hstep⟩ := M.bind_eq_ok hstep
  obtain ⟨_, s₅, w₅, h5, hstep⟩ := M.bind_eq_ok hstep
  obtain ⟨_, _, _, hfa⟩ := needWith_gives_ok ha h3
  obtain ⟨_, _, _, hfp⟩ := needWith_gives_ok hp h5
  obtain ⟨ea, na, -⟩ := Plain.authid_eq_ok hfa
  obtain ⟨ep, np, -⟩ := Plain.password_eq_ok hfp
  exact ⟨ea, ep, na, np⟩

theorem credentialEnv_has (m : Mechanism) (authid password : Str) :
    (credentialEnv m authid password).HasCredentials none authid password := fun _ _ => rfl

theorem build_plain_start (on : Build) (c : Config) (h : on.withCredentials none = .ok c) :
    c.clientStart [b!"PLAIN"] =
      if on .plain then .ok (.plain, PLAIN) else .err .noSharedMechanism := by
  cases h
  simp only [WantMechanisms.withCredentialsMechanisms, WantMechanisms.withRegistry,
    Build.credentials, Build.array, cred, List.filter, Option.isSome, Bool.false_eq_true, if_false]
  cases h1 : on .scramSha2 <;> cases h2 : on .scramSha1 <;> cases h3 : on .plain <;>
    cases h4 : on .login <;> rfl

theorem plainText_eq (username password : Str) :
    plainText username password = Str.bytes ('\x00' :: username ++ '\x00' :: password) := by
  rw [Str.bytes_append, Str.bytes_cons, Str.bytes_cons]
  rfl

/-- The session of `client_simple` with the two strings it read. -/
theorem authenticate_eq (deps : Deps) (on : Build) (rng : Nat → Nat) (username password : Str) :
    (on .plain = true → Sendable username → Sendable password →
      authenticate deps on rng username password = .printed (plainText username password)
        (some ('\x00' :: username ++ '\x00' :: password))) ∧
    (¬ (on .plain = true ∧ Sendable username ∧ Sendable password) →
      authenticate deps on rng username password = .panicked) := by
  unfold authenticate
  have hc : ∃ c, on.withCredentials none = .ok c := ⟨_, rfl⟩
  obtain ⟨c, hc⟩ := hc
  rw [hc]
  simp only [build_plain_start on c hc]
  have hnul : ∀ s : Str, '\x00' ∉ s ↔ (0 : UInt8) ∉ Str.bytes s := fun s => by
    rw [← contains_nul_iff]
    simp
  have hcr := credentialEnv_has PLAIN username password
  constructor
  · rintro ho ⟨ea, na⟩ ⟨ep, np⟩
    rw [hnul] at na np
    obtain ⟨es, _, he⟩ := (Plain.client_does (hcr.offers .authzId) (hcr.offers .authId)
      (hcr.offers .password) nofun na np ea (by rwa [Ne, Str.bytes_eq_nil]) none).exec
      (ses := { st := (), rng := rng }) (sched := []) (by simp [Patient])
    have he : Session.step Plain.client (credentialEnv PLAIN username password)
      { st := (), rng := rng } ⟨none, []⟩ = _ := he
    simp only [ho, if_true, Auth.startClient, Started.session, he]
    have hp : Str.bytes ((credential none username password .authzId).getD []) ++
        0 :: (Str.bytes username ++ 0 :: Str.bytes password) =
        plainText username password := rfl
    rw [hp]
    simp only [plainText_eq, fromUtf8_bytes]
  · intro h
    cases ho : on .plain
    · rfl
    · simp only [if_true, Auth.startClient, Started.session]
      rcases hr : (Session.step Plain.client (credentialEnv PLAIN username password)
        { st := (), rng := rng } ⟨none, []⟩).1.res with st | e | _
      · have := Plain.client_ok (hcr.offers .authId) (hcr.offers .password) _ _ _ hr
        rw [Ne, Ne, Str.bytes_eq_nil, ← hnul, ← hnul] at this
        exact absurd ⟨ho, ⟨this.1, this.2.2.1⟩, ⟨this.2.1, this.2.2.2⟩⟩ h
      · rfl
      · rfl

/-! ## C86 -/

/-- The claim in full: `client_simple` prints the PLAIN message for what the user typed. -/
def C86 : Prop := ∀ (deps : Deps) (on : Build) (rng : Nat → Nat) (username password : Str)
  (more : Bytes), on .plain = true → Sendable username → Sendable password →
    '\n' ∉ username → '\n' ∉ password →
    ∃ text, clientSimple deps on rng (typed username password more) =
      .printed (plainText username password) text

/-- C86: for every input, `client_simple` prints the PLAIN message of the two lines it reads, which
are the lines with their line feeds. It panics if the build has no PLAIN or if PLAIN cannot carry a
line; and it says that it could not read a line that is not UTF-8. What is missing to the full claim
is that the line feeds are not taken off. -/
theorem C86_partial (deps : Deps) (on : Build) (rng : Nat → Nat)
    (stdin line₁ more line₂ rest : Bytes)
    (h₁ : FirstLine stdin line₁ more) (h₂ : FirstLine more line₂ rest) :
    ((∀ s, line₁ ≠ Str.bytes s) ∨ (∀ s, line₂ ≠ Str.bytes s) →
      clientSimple deps on rng stdin = .inputError) ∧
    ∀ username password, line₁ = Str.bytes username → line₂ = Str.bytes password →
      (on .plain = true → Sendable username → Sendable password →
        clientSimple deps on rng stdin = .printed (plainText username password)
          (some ('\x00' :: username ++ '\x00' :: password))) ∧
      (¬ (on .plain = true ∧ Sendable username ∧ Sendable password) →
        clientSimple deps on rng stdin = .panicked) := by
  unfold clientSimple
  rw [h₁.takeLine, h₂.takeLine]
  simp only
  constructor
  · have hn : ∀ b : Bytes, (∀ s, b ≠ Str.bytes s) → fromUtf8 b = none := by
      intro b hb
      cases hu : fromUtf8 b with
      | none => rfl
      | some s => exact absurd (bytes_of_fromUtf8 _ _ hu).symm (hb s)
    rintro (h | h)
    · rw [hn _ h]
    · rw [hn _ h]
      cases fromUtf8 line₁ <;> rfl
  · rintro username password rfl rfl
    simp only [fromUtf8_bytes]
    exact authenticate_eq deps on rng username password

theorem firstLine_typed {s : Str} (h : '\n' ∉ s) (rest : Bytes) :
    FirstLine (Str.bytes s ++ 10 :: rest) (Str.bytes (s ++ ['\n'])) rest := by
  have : Str.bytes (s ++ ['\n']) = Str.bytes s ++ [10] := by
    rw [Str.bytes_append]
    rfl
  rw [this]
  exact .ended _ _ fun hm => h ((mem_lineFeed s).1 hm)

theorem Spec.Sendable.typed {s : Str} (h : Sendable s) : Sendable (s ++ ['\n']) :=
  ⟨by simp, by simpa using h.noNul⟩

/-- C86: what one types is never what is sent: both strings get a line feed at their end. -/
theorem C86_typed (deps : Deps) (on : Build) (rng : Nat → Nat) (username password : Str)
    (more : Bytes) (ho : on .plain = true) (hu : Sendable username) (hp : Sendable password)
    (nu : '\n' ∉ username) (np : '\n' ∉ password) :
    ∃ text, clientSimple deps on rng (typed username password more) =
      .printed (plainText (username ++ ['\n']) (password ++ ['\n'])) text :=
  ⟨_, ((C86_partial deps on rng _ _ _ _ _ (firstLine_typed nu _) (firstLine_typed np more)).2 _ _
    rfl rfl).1 ho hu.typed hp.typed⟩

theorem plainText_inj {u p u' p' : Str} (hu : '\x00' ∉ u) (hu' : '\x00' ∉ u')
    (h : plainText u p = plainText u' p') : u = u' ∧ p = p' := by
  rw [plainText_eq, plainText_eq] at h
  replace h := Str.bytes_injective h
  simp only [List.cons_append, List.cons.injEq, true_and] at h
  induction u generalizing u' with
  | nil =>
    cases u' with
    | nil => exact ⟨rfl, by simpa using h⟩
    | cons c u' =>
      simp only [List.nil_append, List.cons_append, List.cons.injEq] at h
      exact absurd (by simp [← h.1]) hu'
  | cons c u ih =>
    cases u' with
    | nil =>
      simp only [List.nil_append, List.cons_append, List.cons.injEq] at h
      exact absurd (by simp [h.1]) hu
    | cons c' u' =>
      simp only [List.cons_append, List.cons.injEq] at h
      obtain ⟨rfl, h⟩ := h
      obtain ⟨rfl, rfl⟩ := ih (fun hm => hu (.tail _ hm)) (fun hm => hu' (.tail _ hm)) h
      exact ⟨rfl, rfl⟩

/-- C86: the full claim is false, for everything one can type. -/
theorem C86_false : ¬ C86 ∧
    ∀ (deps : Deps) (on : Build) (rng : Nat → Nat) (username password : Str) (more : Bytes),
      on .plain = true → Sendable username → Sendable password →
      '\n' ∉ username → '\n' ∉ password →
      ∀ text, clientSimple deps on rng (typed username password more) ≠
        .printed (plainText username password) text := by
  have key : ∀ (deps : Deps) (on : Build) (rng : Nat → Nat) (username password : Str)
      (more : Bytes), on .plain = true → Sendable username → Sendable password →
      '\n' ∉ username → '\n' ∉ password →
      ∀ text, clientSimple deps on rng (typed username password more) ≠
        .printed (plainText username password) text := by
    intro deps on rng username password more ho hu hp nu np text h
    obtain ⟨text', h'⟩ := C86_typed deps on rng username password more ho hu hp nu np
    rw [h'] at h
    injection h with h _
    exact nu ((plainText_inj hu.typed.noNul hu.noNul h).1 ▸ by simp)
  refine ⟨fun h => ?_, key⟩
  obtain ⟨text, ht⟩ := h toyDeps (fun _ => true) (fun _ => 0) (c!"tim") (c!"pw") [] rfl
    ⟨by decide, by decide⟩ ⟨by decide, by decide⟩ (by decide) (by decide)
  exact key _ _ _ _ _ _ rfl ⟨by decide, by decide⟩ ⟨by decide, by decide⟩ (by decide) (by decide) _ ht

/-- C86: whatever the input, a message that is printed has a user name that ends in a line feed. -/
theorem C86_never (deps : Deps) (on : Build) (rng : Nat → Nat) (stdin buffer : Bytes)
    (text : Option Str) (h : clientSimple deps on rng stdin = .printed buffer text) :
    ∃ username password, Sendable (username ++ ['\n']) ∧ Sendable password ∧ '\n' ∉ username ∧
      buffer = plainText (username ++ ['\n']) password ∧
      text = some ('\x00' :: (username ++ ['\n']) ++ '\x00' :: password) := by
  have h₁ := takeLine_first stdin
  have h₂ := takeLine_first (takeLine stdin).2
  obtain ⟨he, hu⟩ := C86_partial deps on rng _ _ _ _ _ h₁ h₂
  by_cases hx : (∀ s, (takeLine stdin).1 ≠ Str.bytes s) ∨
      (∀ s, (takeLine (takeLine stdin).2).1 ≠ Str.bytes s)
  · rw [he hx] at h
    cases h
  · simp only [not_or, Classical.not_forall, Classical.not_not] at hx
    obtain ⟨⟨u, hu'⟩, p, hp'⟩ := hx
    obtain ⟨hok, hbad⟩ := hu u p hu' hp'
    by_cases hs : on .plain = true ∧ Sendable u ∧ Sendable p
    · rw [hok hs.1 hs.2.1 hs.2.2] at h
      cases h
      generalize takeLine stdin = t at *
      rcases t with ⟨l1, more⟩
      simp only at h₁ h₂ hu' hp'
      cases h₁ with
      | ended body rest hn =>
        have : ∃ u', u = u' ++ ['\n'] := by
          rcases List.eq_nil_or_concat u with rfl | ⟨u', c, rfl⟩
          · exact absurd hu' (by simp [Str.bytes_nil])
          · refine ⟨u', ?_⟩
            have hl : (10 : UInt8) ∈ Str.bytes [c] := by
              rw [List.concat_eq_append, Str.bytes_append] at hu'
              have hne : Str.bytes [c] ≠ [] := by simp [Str.bytes_eq_nil]
              have := congrArg List.getLast? hu'
              rw [List.getLast?_append, List.getLast?_append, List.getLast?_eq_some_getLast hne] at this
              simp only [List.getLast?_singleton, Option.some_or, Option.some.injEq] at this
              exact this ▸ List.getLast_mem hne
            have := (mem_lineFeed [c]).1 hl
            rw [List.concat_eq_append, List.mem_singleton.1 this]
        obtain ⟨u', rfl⟩ := this
        refine ⟨u', p, hs.2.1, hs.2.2, ?_, rfl, rfl⟩
        have hb : body = Str.bytes u' := by
          rw [Str.bytes_append] at hu'
          exact List.append_cancel_right hu'
        subst hb
        exact fun hm => hn ((mem_lineFeed u').2 hm)
      | last _ hn =>
        have := h₂.takeLine
        have hl : (takeLine ([] : Bytes)).1 = [] := rfl
        rw [hl, eq_comm, Str.bytes_eq_nil] at hp'
        exact absurd hp' hs.2.2.nonempty
    · rw [hbad hs] at h
      cases h

/-- C86: a PLAIN server that prepares strings as RFC 4616 demands, that is whose preparation refuses
control characters, does not take any message of the example: it answers with the error of the
preparation, asks no one to validate and stays as it was. -/
theorem C86_refused (deps : Deps) (on : Build) (rng : Nat → Nat) (stdin buffer : Bytes)
    (text : Option Str) (h : clientSimple deps on rng stdin = .printed buffer text)
    (prep : Str → Option Str) (hprep : ∀ s, '\n' ∈ s → prep s = none)
    (env : Env) (ses : Session Unit) (sched : List WResp) :
    ses.step (Plain.server prep) env ⟨some buffer, sched⟩ =
      (⟨.err (.mechanismError (.plain .saslprep)), []⟩, ses) := by
  obtain ⟨u, p, hu, hp, -, rfl, -⟩ := C86_never deps on rng stdin buffer text h
  have hnul : ∀ s : Str, '\x00' ∉ s → (0 : UInt8) ∉ Str.bytes s := fun s hs => by
    rw [← contains_nul_iff]
    simpa using hs
  have hsplit : splitOn 0 (plainText (u ++ ['\n']) p) =
      [[], Str.bytes (u ++ ['\n']), Str.bytes p] :=
    splitOn_three.2 ⟨by simp [plainText], by simp, hnul _ hu.noNul, hnul _ hp.noNul⟩
  have hlen : ¬ (plainText (u ++ ['\n']) p).length < 4 := by
    have h1 : 0 < (Str.bytes (u ++ ['\n'])).length :=
      List.length_pos_iff.2 (by rw [Ne, Str.bytes_eq_nil]; exact hu.nonempty)
    have h2 : 0 < (Str.bytes p).length :=
      List.length_pos_iff.2 (by rw [Ne, Str.bytes_eq_nil]; exact hp.nonempty)
    simp only [plainText, List.length_append, List.length_cons]
    omega
  have hs : Plain.serverStep prep env (some (plainText (u ++ ['\n']) p)) ses.st
      ⟨⟨[], sched⟩, ses.rng, ses.slot, ses.log⟩ =
      (.err (.mechanismError (.plain .saslprep)), ses.st,
        ⟨⟨[], sched⟩, ses.rng, ses.slot, ses.log⟩) := by
    unfold Plain.serverStep
    rw [M.bind_ok (M.okOr_some ..), if_neg hlen]
    simp only [hsplit, fromUtf8_bytes]
    have h0 : fromUtf8 [] = some [] := rfl
    rw [h0, M.bind_ok (M.okOr_some ..), M.bind_ok (M.okOr_some ..), hprep _ (by simp)]
    rfl
  unfold Session.step Session.exec
  simp only [Plain.server, hs]

/-- Something to which `C86_refused` applies. -/
example : clientSimple toyDeps (fun _ => true) (fun _ => 0) (b!"tim\nsecret\n") =
    .printed (b!"\x00tim\n\x00secret\n") (some (c!"\x00tim\n\x00secret\n")) := by
  decide +kernel

example : ∀ s : Str, '\n' ∈ s →
    (fun s : Str => if s.any (fun c => c.toNat < 32) then none else some s) s = none := by
  intro s h
  simp only [ite_eq_left_iff, reduceCtorEq, imp_false, Bool.not_eq_true, Bool.not_eq_false]
  exact List.any_eq_true.2 ⟨_, h, by decide⟩

/-- Without a second line there is a panic, as there is without PLAIN. -/
example : clientSimple toyDeps (fun _ => true) (fun _ => 0) (b!"tim") = .panicked ∧
    clientSimple toyDeps (fun f => f == .login) (fun _ => 0) (b!"tim\nsecret\n") = .panicked ∧
    clientSimple toyDeps (fun _ => true) (fun _ => 0) [116, 255, 10] = .inputError := by
  decide +kernel

/-- C86: `mechanism_selection` prints `SCRAM-SHA-256` if the build has it, and panics otherwise,
whatever else the build has. -/
theorem C86_selection (on : Build) :
    mechanismSelection on = if on .scramSha2 then some (b!"SCRAM-SHA-256") else none := by
  unfold mechanismSelection Build.withCredentials
  simp only [WantMechanisms.withCredentialsMechanisms, WantMechanisms.withRegistry,
    WantCallback.withCallback, Build.credentials, Build.array, cred, List.filter, Option.isSome,
    Bool.false_eq_true, if_false]
  cases h1 : on .scramSha2 <;> cases h2 : on .scramSha1 <;> cases h3 : on .plain <;>
    cases h4 : on .login <;> decide +kernel

end Rsasl

/-
Code that does not panic.
-/
import Verif.Proofs.TameScram
import Verif.Spec.Supplies

namespace Rsasl

variable {S T α β G : Type}

/-- `m` panics in no state. -/
def NoPanic (m : M S α) : Prop := ∀ s w, (m s w).1 ≠ .panic

theorem NoPanic.pure (a : α) : NoPanic (Pure.pure a : M S α) := nofun
theorem NoPanic.fail (e : SessionError) : NoPanic (M.fail e : M S α) := nofun
theorem NoPanic.get : NoPanic (M.get : M S S) := nofun
theorem NoPanic.set (s : S) : NoPanic (M.set s) := nofun
theorem NoPanic.modify (f : S → S) : NoPanic (M.modify f) := nofun
theorem NoPanic.note (e : Event) : NoPanic (M.note e : M S Unit) := nofun
theorem NoPanic.history : NoPanic (M.history : M S _) := nofun
theorem NoPanic.draw (n : Nat) : NoPanic (M.draw n : M S _) := nofun

theorem NoPanic.bind {m : M S α} {f : α → M S β} (hm : NoPanic m) (hf : ∀ a, NoPanic (f a)) :
    NoPanic (m >>= f) := by
  intro s w h
  rw [M.bind_apply] at h
  have hm := hm s w
  generalize m s w = x at h hm
  rcases x with ⟨a | e' | _, s', w'⟩
  · exact hf a _ _ h
  · cases h
  · exact hm rfl

theorem NoPanic.okOr (e : SessionError) (o : Option α) : NoPanic (M.okOr e o : M S α) := by
  cases o <;> nofun

theorem NoPanic.lift (r : Except SessionError α) : NoPanic (M.lift r : M S α) := by
  cases r <;> nofun

theorem NoPanic.liftOutcome {r : Outcome α} (h : r ≠ .panic) : NoPanic (M.liftOutcome r : M S α) := by
  intro s w h'
  rw [M.liftOutcome_apply] at h'
  exact h h'

theorem NoPanic.writeAll (buf : Bytes) : NoPanic (M.writeAll buf : M S Unit) := by
  intro s w h
  obtain ⟨n, sc, _, _, h1 | ⟨e', h1⟩⟩ := M.writeAll_cases buf s w <;> (rw [h1] at h; cases h)

theorem NoPanic.writeVectored (bufs : List Bytes) : NoPanic (M.writeVectored bufs : M S Unit) := by
  intro s w h
  obtain ⟨n, sc, _, _, h1 | ⟨e', h1⟩⟩ := M.writeVectored_cases bufs s w <;> (rw [h1] at h; cases h)

theorem NoPanic.attempt {m : M S α} (h : NoPanic m) : NoPanic (M.attempt m) := by
  intro s w h'
  rw [M.attempt_apply] at h'
  have h := h s w
  generalize m s w = x at h h'
  rcases x with ⟨_ | _ | _, _, _⟩
  · cases h'
  · cases h'
  · exact h rfl

theorem NoPanic.withLocal {t : T} {m : M (S × T) α} (h : NoPanic m) :
    NoPanic (M.withLocal t m) := fun s w => h (s, t) w

theorem NoPanic.satisfy {p : Property} {f : p.Value → M S G} {v : p.Value} (hf : NoPanic (f v))
    (cr : CR G) : NoPanic (CR.satisfy p f v cr) := by
  cases cr with
  | «open» =>
    unfold CR.satisfy
    refine NoPanic.bind (NoPanic.note _) (fun _ => NoPanic.bind (NoPanic.attempt hf) (fun r => ?_))
    cases r <;> exact NoPanic.pure _
  | satisfied g => exact NoPanic.pure _
  | gone => exact NoPanic.pure _

theorem NoPanic.runSat {p : Property} {V : p.Value → Prop} {f : p.Value → M S G}
    (hf : ∀ v, V v → NoPanic (f v)) {prog : CbProg} (hp : prog.Supplies p V) (cr : CR G) :
    NoPanic (runSat p f prog cr) := by
  induction prog generalizing cr with
  | ret r => exact NoPanic.pure _
  | satisfy q v k ih =>
    unfold Rsasl.runSat
    split
    · next h => exact NoPanic.bind (NoPanic.satisfy (hf _ (hp.1 h)) _) (fun _ => ih _ (hp.2 _) _)
    · exact ih _ (hp.2 _) _
  | satisfyWith q g k ih =>
    unfold Rsasl.runSat
    split
    · next h =>
      refine NoPanic.bind (NoPanic.note _) (fun _ => ?_)
      cases g with
      | error e => exact ih _ (hp.2 _) _
      | ok v => exact NoPanic.bind (NoPanic.satisfy (hf _ (hp.1 h v rfl)) _) (fun _ => ih _ (hp.2 _) _)
    · exact ih _ (hp.2 _) _
  | getAction q k ih => exact ih _ (hp _) _
  | is q k ih => exact ih _ (hp _) _

theorem NoPanic.maybeNeedWith {env : Env} {p : Property} {V : p.Value → Prop}
    (henv : env.Supplies p V) {ctx : Provider} {f : p.Value → M S G}
    (hf : ∀ v, V v → NoPanic (f v)) : NoPanic (maybeNeedWith env p ctx f) :=
  NoPanic.bind NoPanic.history (fun _ => NoPanic.bind (NoPanic.note _) (fun _ =>
    NoPanic.bind (NoPanic.runSat hf (henv _ _) _) (fun _ => NoPanic.bind (NoPanic.lift _)
      (fun _ => NoPanic.pure _))))

theorem NoPanic.needWith {env : Env} {p : Property} {V : p.Value → Prop}
    (henv : env.Supplies p V) {ctx : Provider} {f : p.Value → M S G}
    (hf : ∀ v, V v → NoPanic (f v)) : NoPanic (needWith env p ctx f) :=
  NoPanic.bind (NoPanic.maybeNeedWith henv hf) (fun _ => NoPanic.okOr _ _)

theorem NoPanic.runAct (p : Property) (prog : CbProg) (cur : Option p.Value) :
    NoPanic (runAct p prog cur : M S _) := by
  induction prog generalizing cur with
  | ret r => exact NoPanic.pure _
  | satisfy q v k ih => exact ih _ _
  | satisfyWith q g k ih => exact ih _ _
  | getAction q k ih =>
    unfold Rsasl.runAct
    split
    · cases cur with
      | some v => exact NoPanic.bind (NoPanic.note _) (fun _ => ih _ _)
      | none => exact NoPanic.bind (NoPanic.pure _) (fun _ => ih _ _)
    · exact ih _ _
  | is q k ih => exact ih _ _

theorem NoPanic.action (env : Env) (p : Property) (ctx : Provider) (v : p.Value) :
    NoPanic (action env p ctx v : M S Unit) := by
  refine NoPanic.bind NoPanic.history (fun _ => NoPanic.bind (NoPanic.note _) (fun _ =>
    NoPanic.bind (NoPanic.runAct _ _ _) (fun a => ?_)))
  obtain ⟨r, cur⟩ := a
  refine NoPanic.bind (NoPanic.lift _) (fun _ => ?_)
  cases cur
  · exact NoPanic.pure _
  · exact NoPanic.fail _

theorem NoPanic.maybeNeedCbData {env : Env} {name : Str} {ctx : Provider} {f : Bytes → M S G}
    (hf : ∀ v, NoPanic (f v)) : NoPanic (maybeNeedCbData env name ctx f) := by
  unfold Rsasl.maybeNeedCbData
  split
  · exact NoPanic.bind (hf _) (fun _ => NoPanic.pure _)
  · exact NoPanic.maybeNeedWith (env.supplies_true _) (fun v _ => hf v)

theorem NoPanic.needCbData {env : Env} {name : Str} {ctx : Provider} {f : Bytes → M S G}
    (hf : ∀ v, NoPanic (f v)) : NoPanic (needCbData env name ctx f) :=
  NoPanic.bind (NoPanic.maybeNeedCbData hf) (fun _ => NoPanic.okOr _ _)

theorem NoPanic.validate (env : Env) (ctx : Provider) : NoPanic (validate env ctx : M S Unit) := by
  intro s w h
  have := (Post.validate (S := S) (env := env) (ctx := ctx) (s := s) (vs := validations w.log)
    (Q := fun o _ _ => o ≠ .panic) nofun (fun _ => nofun)) w rfl
  exact this h

namespace Scram

theorem NoPanic.pushHeader (b : Bytes) : NoPanic (pushHeader b) := NoPanic.modify _
theorem NoPanic.setCbdata (b : Bytes) : NoPanic (setCbdata b) := NoPanic.modify _

theorem NoPanic.escapeM (x : Str) : NoPanic (escapeM x : M S Str) := by
  unfold Scram.escapeM
  split
  · exact NoPanic.pure _
  · exact NoPanic.fail _

theorem NoPanic.generateNonce (n : Nat) : NoPanic (generateNonce n : M S Bytes) :=
  NoPanic.bind (NoPanic.draw n) (fun _ => NoPanic.pure _)

theorem NoPanic.clientCb (env : Env) (plus : CbSupport) : NoPanic (clientCb env plus) := by
  cases plus with
  | supported =>
    refine NoPanic.bind (NoPanic.pushHeader _) (fun _ => ?_)
    refine NoPanic.bind (NoPanic.maybeNeedWith (env.supplies_true _)
      (fun v _ => NoPanic.bind (NoPanic.pushHeader _) (fun _ => NoPanic.pure _))) (fun o => ?_)
    cases o with
    | some name => exact NoPanic.needCbData NoPanic.setCbdata
    | none =>
      refine NoPanic.bind (NoPanic.maybeNeedCbData (fun _ => NoPanic.bind (NoPanic.pushHeader _)
        (fun _ => NoPanic.setCbdata _))) (fun o => ?_)
      cases o with
      | some _ => exact NoPanic.pure _
      | none => exact NoPanic.needCbData (fun _ => NoPanic.bind (NoPanic.pushHeader _)
          (fun _ => NoPanic.setCbdata _))
  | serverNoSupport => exact NoPanic.pushHeader _
  | clientNoSupport => exact NoPanic.pushHeader _

theorem NoPanic.sendClientFirst (n : Nat) (env : Env) (plus : CbSupport) :
    NoPanic (sendClientFirst n env plus) := by
  refine NoPanic.bind (NoPanic.clientCb _ _) (fun _ => ?_)
  refine NoPanic.bind (NoPanic.pushHeader _) (fun _ => ?_)
  refine NoPanic.bind (NoPanic.maybeNeedWith (env.supplies_true _) (fun _ _ =>
    NoPanic.bind (NoPanic.pushHeader _) (fun _ => NoPanic.bind (NoPanic.escapeM _)
      (fun _ => NoPanic.pushHeader _)))) (fun _ => ?_)
  refine NoPanic.bind (NoPanic.pushHeader _) (fun _ => ?_)
  refine NoPanic.bind (NoPanic.needWith (env.supplies_true _) (fun _ _ => NoPanic.escapeM _))
    (fun _ => ?_)
  refine NoPanic.bind (NoPanic.generateNonce _) (fun _ => ?_)
  exact NoPanic.bind NoPanic.get (fun _ => NoPanic.bind (NoPanic.writeVectored _)
    (fun _ => NoPanic.pure _))

/-- The cached keys have the length of the digest. -/
def CachedOk (d : Digest) (c : CachedPassword) : Prop :=
  c.clientKey.length = d.outLen ∧ c.serverKey.length = d.outLen

theorem NoPanic.clientKeys (d : Digest) {env : Env}
    (henv : env.Supplies .scramCachedPassword (CachedOk d)) (prov : Provider) (i : UInt32)
    (salt : Bytes) : NoPanic (clientKeys d env prov i salt) := by
  refine NoPanic.bind (NoPanic.maybeNeedWith henv (fun v hv => ?_)) (fun o => ?_)
  · unfold useCached
    have hv : v.clientKey.length = d.outLen ∧ v.serverKey.length = d.outLen := hv
    rw [if_pos hv]
    exact NoPanic.pure _
  · cases o with
    | some k => exact NoPanic.pure _
    | none =>
      refine NoPanic.bind (NoPanic.maybeNeedWith (env.supplies_true _) (fun v _ => ?_)) (fun o => ?_)
      · unfold useSalted
        split
        · exact NoPanic.fail _
        · exact NoPanic.pure _
      · cases o with
        | some k => exact NoPanic.pure _
        | none => exact NoPanic.needWith (env.supplies_true _) (fun _ _ => NoPanic.pure _)

theorem checkServerFirst_panic {n b : Bytes} (h : checkServerFirst n b = .panic) :
    ServerFirst.parse b = .panic := by
  unfold checkServerFirst at h
  cases hp : ServerFirst.parse b with
  | panic => rfl
  | err e => rw [hp] at h; cases h
  | ok sf =>
    rw [hp] at h
    exfalso
    have h : (match stripPrefix n sf.nonce with
      | none => .err (protoErr .invalidNonce)
      | some serverNonce =>
        if serverNonce.isEmpty then .err (protoErr .invalidNonce)
        else do
          let count ← utf8 sf.iterationCount
          match parseU32 count with
          | none => .err (protoErr .iterationCountFormat)
          | some iterations =>
            if iterations = 0 then .err (protoErr .iterationCountZero)
            else
              match Base64.decode sf.salt with
              | none => .err (protoErr .base64Decode)
              | some salt => .ok (sf, serverNonce, iterations, salt) :
                Outcome (ServerFirst × Bytes × UInt32 × Bytes)) = .panic := h
    split at h
    · cases h
    · split at h
      · cases h
      · unfold utf8 at h
        cases hu : fromUtf8 sf.iterationCount with
        | none => rw [hu] at h; cases h
        | some c =>
          rw [hu] at h
          have h : (match parseU32 c with
            | none => .err (protoErr .iterationCountFormat)
            | some iterations =>
              if iterations = 0 then .err (protoErr .iterationCountZero)
              else
                match Base64.decode sf.salt with
                | none => .err (protoErr .base64Decode)
                | some salt => .ok (sf, _, iterations, salt) :
                  Outcome (ServerFirst × Bytes × UInt32 × Bytes)) = .panic := h
          repeat' first
            | (cases h; done)
            | split at h

theorem NoPanic.handleServerFirst (d : Digest) {env : Env}
    (henv : env.Supplies .scramCachedPassword (CachedOk d)) (cb nonce : Bytes) (u : Str)
    (input : Bytes) (hp : ServerFirst.parse input ≠ .panic) :
    NoPanic (handleServerFirst d env cb nonce u input) := by
  refine NoPanic.bind (NoPanic.liftOutcome (fun h => hp (checkServerFirst_panic h))) (fun a => ?_)
  obtain ⟨sf, sn, i, salt⟩ := a
  refine NoPanic.bind (NoPanic.clientKeys d henv _ _ _) (fun k => ?_)
  exact NoPanic.bind (NoPanic.writeVectored _) (fun _ => NoPanic.pure _)

theorem NoPanic.handleServerFinal (env : Env) (v ck sk salt : Bytes) (i : UInt32)
    (input : Bytes) (hp : ServerFinal.parse input ≠ .panic) :
    NoPanic (handleServerFinal env v ck sk salt i input) := by
  refine NoPanic.bind (NoPanic.liftOutcome hp) (fun a => ?_)
  cases a with
  | verifier v64 =>
    dsimp only
    split
    · exact NoPanic.fail _
    · split
      · exact NoPanic.bind (NoPanic.attempt (NoPanic.action _ _ _ _)) (fun _ => NoPanic.pure _)
      · exact NoPanic.fail _
  | error e => exact NoPanic.fail _

theorem NoPanic.handleClientFirst (d : Digest) (n : Nat) (env : Env) (b : Bool)
    (msg : ClientFirst) : NoPanic (handleClientFirst d n env b msg) := by
  refine NoPanic.bind ?_ (fun _ => ?_)
  · cases msg.cbflag with
    | supportedNotUsed =>
      show NoPanic (ite _ _ _)
      split
      · exact NoPanic.fail _
      · exact NoPanic.pure _
    | notSupported => exact NoPanic.pure _
    | used name => exact NoPanic.needCbData (fun _ => NoPanic.modify _)
  · refine NoPanic.bind (NoPanic.maybeNeedWith (env.supplies_true _) (fun v _ => ?_)) (fun o => ?_)
    · unfold useStored
      split
      · exact NoPanic.fail _
      · exact NoPanic.pure _
    · refine NoPanic.bind (NoPanic.generateNonce _) (fun _ => ?_)
      cases o with
      | some p =>
        exact NoPanic.bind (NoPanic.writeVectored _) (fun _ => NoPanic.bind NoPanic.get
          (fun _ => NoPanic.pure _))
      | none =>
        exact NoPanic.bind (NoPanic.draw _) (fun _ => NoPanic.bind (NoPanic.writeVectored _)
          (fun _ => NoPanic.pure _))

theorem NoPanic.handleClientFinal (d : Digest) (env : Env) (data : Option FinalInner)
    (input : Bytes) (hp : ClientFinal.parse input ≠ .panic) :
    NoPanic (handleClientFinal d env data input) := by
  refine NoPanic.bind (NoPanic.liftOutcome hp) (fun msg => NoPanic.bind (NoPanic.lift _)
    (fun a => ?_))
  cases a with
  | ok fs =>
    exact NoPanic.bind (NoPanic.writeVectored _) (fun _ => NoPanic.validate _ _)
  | error e => exact NoPanic.writeVectored _

/-! ## Parsers -/

theorem Outcome.bind_ne_panic {o : Outcome α} {f : α → Outcome β} (h : o ≠ .panic)
    (hf : ∀ a, o = .ok a → f a ≠ .panic) : (o >>= f) ≠ .panic := by
  cases o with
  | ok a => exact hf a rfl
  | err e => exact nofun
  | panic => exact absurd rfl h

theorem nextPart_ne_panic (e : SParseError) (ps : List Bytes) : nextPart e ps ≠ .panic := by
  cases ps <;> exact nofun

theorem nextPart_ok {e : SParseError} {ps : List Bytes} {a : Bytes × List Bytes}
    (h : nextPart e ps = .ok a) : ps = a.1 :: a.2 := by
  cases ps with
  | nil => cases h
  | cons p ps => cases h; rfl

theorem attr_ne_panic {b : Bytes} (h : 2 ≤ b.length) : attr b ≠ .panic := by
  match b, h with
  | _ :: _ :: _, _ => exact nofun

theorem firstByte_ne_panic {b : Bytes} (h : 2 ≤ b.length) : firstByte b ≠ .panic := by
  match b, h with
  | _ :: _, _ => exact nofun

theorem expectAttr_ne_panic (k : Bytes) {b : Bytes} (h : 2 ≤ b.length) :
    expectAttr k b ≠ .panic := by
  refine Outcome.bind_ne_panic (attr_ne_panic h) (fun a _ => ?_)
  obtain ⟨k', v⟩ := a
  show ite _ _ _ ≠ _
  split
  · exact nofun
  · exact Outcome.bind_ne_panic (firstByte_ne_panic h) (fun _ _ => nofun)

theorem utf8_ne_panic (b : Bytes) : utf8 b ≠ .panic := by
  unfold utf8
  cases fromUtf8 b <;> exact nofun

theorem cbFlag_ne_panic (b : Bytes) : CbFlag.parse b ≠ .panic := by
  unfold CbFlag.parse
  split
  · exact nofun
  · exact nofun
  · split <;> exact nofun
  · exact nofun

theorem parseAuthzid_ne_panic {b : Bytes} (h : b = [] ∨ 2 ≤ b.length) :
    parseAuthzid b ≠ .panic := by
  unfold parseAuthzid
  split
  · exact nofun
  · next hb =>
    have h2 : 2 ≤ b.length := h.resolve_left (by rintro rfl; exact hb rfl)
    exact Outcome.bind_ne_panic (attr_ne_panic h2) (fun _ _ =>
      Outcome.bind_ne_panic (utf8_ne_panic _) (fun _ _ => nofun))

theorem clientFirst_ne_panic {b : Bytes}
    (h : ∀ flag az rest, splitOn 44 b = flag :: az :: rest →
      (az = [] ∨ 2 ≤ az.length) ∧ ∀ p ∈ rest, 2 ≤ p.length) : ClientFirst.parse b ≠ .panic := by
  refine Outcome.bind_ne_panic (nextPart_ne_panic _ _) (fun p₁ h₁ => ?_)
  refine Outcome.bind_ne_panic (cbFlag_ne_panic _) (fun _ _ => ?_)
  refine Outcome.bind_ne_panic (nextPart_ne_panic _ _) (fun p₂ h₂ => ?_)
  have e₁ := nextPart_ok h₁
  have e₂ := nextPart_ok h₂
  rw [e₂] at e₁
  obtain ⟨ha, hr⟩ := h _ _ _ e₁
  refine Outcome.bind_ne_panic (parseAuthzid_ne_panic ha) (fun _ _ => ?_)
  refine Outcome.bind_ne_panic (nextPart_ne_panic _ _) (fun p₃ h₃ => ?_)
  have e₃ := nextPart_ok h₃
  rw [e₃] at hr
  have l₃ := hr p₃.1 (by simp)
  refine Outcome.bind_ne_panic (attr_ne_panic l₃) (fun _ _ => ?_)
  show ite _ _ _ ≠ _
  split
  · exact nofun
  · refine Outcome.bind_ne_panic (expectAttr_ne_panic _ l₃) (fun _ _ => ?_)
    refine Outcome.bind_ne_panic (utf8_ne_panic _) (fun _ _ => ?_)
    refine Outcome.bind_ne_panic (nextPart_ne_panic _ _) (fun p₄ h₄ => ?_)
    have e₄ := nextPart_ok h₄
    rw [e₄] at hr
    have l₄ := hr p₄.1 (by simp)
    refine Outcome.bind_ne_panic (expectAttr_ne_panic _ l₄) (fun _ _ => ?_)
    show ite _ _ _ ≠ _
    split <;> exact nofun

theorem serverFirst_ne_panic {b : Bytes} (h : ∀ p ∈ splitOn 44 b, 2 ≤ p.length) :
    ServerFirst.parse b ≠ .panic := by
  refine Outcome.bind_ne_panic (nextPart_ne_panic _ _) (fun p₁ h₁ => ?_)
  rw [nextPart_ok h₁] at h
  have l₁ := h p₁.1 (by simp)
  show ite _ _ _ ≠ _
  split
  · exact nofun
  · refine Outcome.bind_ne_panic (attr_ne_panic l₁) (fun _ _ => ?_)
    show ite _ _ _ ≠ _
    split
    · exact nofun
    · refine Outcome.bind_ne_panic (expectAttr_ne_panic _ l₁) (fun _ _ => ?_)
      refine Outcome.bind_ne_panic (nextPart_ne_panic _ _) (fun p₂ h₂ => ?_)
      rw [nextPart_ok h₂] at h
      have l₂ := h p₂.1 (by simp)
      refine Outcome.bind_ne_panic (expectAttr_ne_panic _ l₂) (fun _ _ => ?_)
      refine Outcome.bind_ne_panic (nextPart_ne_panic _ _) (fun p₃ h₃ => ?_)
      rw [nextPart_ok h₃] at h
      have l₃ := h p₃.1 (by simp)
      refine Outcome.bind_ne_panic (expectAttr_ne_panic _ l₃) (fun _ _ => ?_)
      obtain ⟨x, ps⟩ := p₃
      cases ps with
      | nil => exact nofun
      | cons p ps =>
        exact Outcome.bind_ne_panic (firstByte_ne_panic (h p (by simp))) (fun _ _ => nofun)

theorem findProof_ne_panic {ps : List Bytes} (h : ∀ p ∈ ps, 2 ≤ p.length) :
    findProof ps ≠ .panic ∧ ∀ a, findProof ps = .ok a → ∀ p ∈ a.2, 2 ≤ p.length := by
  induction ps with
  | nil => exact ⟨nofun, nofun⟩
  | cons p ps ih =>
    have ih := ih (fun q hq => h q (by simp [hq]))
    match p, h p (by simp) with
    | x :: y :: v, _ =>
      have e : findProof ((x :: y :: v) :: ps) = if [x, y] = b!"p=" then .ok (v, ps)
        else if [x, y] = b!"m=" then .err (perr .unknownMandatoryExtensions)
        else findProof ps := rfl
      rw [e]
      split
      · exact ⟨nofun, fun a ha q hq => by cases ha; exact h q (by simp [hq])⟩
      · split
        · exact ⟨nofun, nofun⟩
        · exact ih

theorem clientFinal_ne_panic {b : Bytes} (h : ∀ p ∈ splitOn 44 b, 2 ≤ p.length) :
    ClientFinal.parse b ≠ .panic := by
  refine Outcome.bind_ne_panic (nextPart_ne_panic _ _) (fun p₁ h₁ => ?_)
  rw [nextPart_ok h₁] at h
  refine Outcome.bind_ne_panic (expectAttr_ne_panic _ (h p₁.1 (by simp))) (fun _ _ => ?_)
  refine Outcome.bind_ne_panic (nextPart_ne_panic _ _) (fun p₂ h₂ => ?_)
  rw [nextPart_ok h₂] at h
  refine Outcome.bind_ne_panic (expectAttr_ne_panic _ (h p₂.1 (by simp))) (fun _ _ => ?_)
  obtain ⟨hf, hr⟩ := findProof_ne_panic (ps := p₂.2) (fun q hq => h q (by simp [hq]))
  refine Outcome.bind_ne_panic hf (fun a ha => ?_)
  have hr := hr a ha
  obtain ⟨x, ps⟩ := a
  cases ps with
  | nil => exact nofun
  | cons p ps =>
    exact Outcome.bind_ne_panic (firstByte_ne_panic (hr p (by simp))) (fun _ _ => nofun)

theorem serverFinal_ne_panic {b : Bytes} (h : 2 ≤ b.length) : ServerFinal.parse b ≠ .panic := by
  refine Outcome.bind_ne_panic (attr_ne_panic h) (fun _ _ => ?_)
  show ite _ _ _ ≠ _
  split
  · exact nofun
  · split
    · exact nofun
    · exact Outcome.bind_ne_panic (firstByte_ne_panic h) (fun _ _ => nofun)

end Scram

end Rsasl

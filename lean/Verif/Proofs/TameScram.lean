/-
The facts of `Verif.Proofs.Tame` for SCRAM.
-/
import Verif.Proofs.Tame

namespace Rsasl

section Calm

variable {S T α β G : Type} {E : SessionError → Prop} {P : S → Prop} {R : α → Prop} {R' : β → Prop}

/-- Code that keeps `P` of the state, never calls validate, gives results in `R` and errors
in `E`. -/
def Calm (E : SessionError → Prop) (P : S → Prop) (R : α → Prop) (m : M S α) : Prop :=
  ∀ s vs, P s → Post m s vs (fun o s' vs' => P s' ∧ vs' = vs ∧ (∀ a, o = .ok a → R a) ∧
    ∀ e, o = .err e → E e)

theorem Calm.bind {m : M S α} {f : α → M S β} (hm : Calm E P R m)
    (hf : ∀ a, R a → Calm E P R' (f a)) : Calm E P R' (m >>= f) := by
  intro s vs hs
  refine Post.bind ((hm s vs hs).mono ?_)
  rintro o s' vs' ⟨h1, rfl, h2, h3⟩
  cases o with
  | ok a => exact hf a (h2 a rfl) s' vs' h1
  | err e => exact ⟨h1, rfl, nofun, fun _ he => by cases he; exact h3 e rfl⟩
  | panic => exact ⟨h1, rfl, nofun, nofun⟩

theorem Calm.mono {m : M S α} {R₂ : α → Prop} (hm : Calm E P R m) (h : ∀ a, R a → R₂ a) :
    Calm E P R₂ m := fun s vs hs => (hm s vs hs).mono fun _ _ _ ⟨h1, h2, h3, h4⟩ =>
  ⟨h1, h2, fun a ha => h a (h3 a ha), h4⟩

theorem Calm.pure {a : α} (h : R a) : Calm E P R (Pure.pure a : M S α) := fun _ _ hs =>
  Post.pure ⟨hs, rfl, fun _ h' => by cases h'; exact h, nofun⟩

theorem Calm.fail {e : SessionError} (h : E e) : Calm E P R (M.fail e : M S α) := fun _ _ hs =>
  Post.fail ⟨hs, rfl, nofun, fun _ h' => by cases h'; exact h⟩

theorem Calm.panic : Calm E P R (M.panic : M S α) := fun _ _ hs =>
  Post.panic ⟨hs, rfl, nofun, nofun⟩

theorem Calm.get : Calm E P (fun _ => True) (M.get : M S S) := fun _ _ hs =>
  Post.get ⟨hs, rfl, fun _ _ => trivial, nofun⟩

theorem Calm.modify {f : S → S} (h : ∀ s, P s → P (f s)) :
    Calm E P (fun _ => True) (M.modify f) := fun s _ hs =>
  Post.modify ⟨h s hs, rfl, fun _ _ => trivial, nofun⟩

theorem Calm.draw (n : Nat) : Calm E P (fun _ => True) (M.draw n : M S _) := fun _ _ hs =>
  Post.draw fun _ => ⟨hs, rfl, fun _ _ => trivial, nofun⟩

theorem Calm.writeVectored (hE : Std E) (bufs : List Bytes) :
    Calm E P (fun _ => True) (M.writeVectored bufs : M S Unit) := fun _ _ hs =>
  Post.writeVectored ⟨hs, rfl, fun _ _ => trivial, nofun⟩
    (fun _ => ⟨hs, rfl, nofun, fun _ h => by cases h; exact hE _ nofun⟩)

theorem Calm.writeAll (hE : Std E) (buf : Bytes) :
    Calm E P (fun _ => True) (M.writeAll buf : M S Unit) := fun _ _ hs =>
  Post.writeAll ⟨hs, rfl, fun _ _ => trivial, nofun⟩
    (fun _ => ⟨hs, rfl, nofun, fun _ h => by cases h; exact hE _ nofun⟩)

theorem Calm.liftOutcome {r : Outcome α} (h : ∀ e, r = .err e → E e) :
    Calm E P (fun _ => True) (M.liftOutcome r : M S α) := fun _ _ hs =>
  Post.liftOutcome ⟨hs, rfl, fun _ _ => trivial, h⟩

theorem Calm.lift {r : Except SessionError α} (h : ∀ e, r = .error e → E e) :
    Calm E P (fun _ => True) (M.lift r : M S α) := fun _ _ hs =>
  Post.lift (fun _ _ => ⟨hs, rfl, fun _ _ => trivial, nofun⟩)
    (fun _ he => ⟨hs, rfl, nofun, fun _ h' => by cases h'; exact h _ he⟩)

theorem Calm.okOr {e : SessionError} (o : Option α) (h : E e) :
    Calm E P (fun _ => True) (M.okOr e o : M S α) := fun _ _ hs =>
  Post.okOr (fun _ _ => ⟨hs, rfl, fun _ _ => trivial, nofun⟩)
    (fun _ => ⟨hs, rfl, nofun, fun _ h' => by cases h'; exact h⟩)

theorem Calm.maybeNeedWith (hE : Std E) {env : Env} (henv : env.Errs E) {p : Property}
    {ctx : Provider} {f : p.Value → M S G} {R : G → Prop} (hf : ∀ v, Fails E (f v))
    (hc : ∀ v, Calm E P R (f v)) :
    Calm E P (fun o => ∀ g, o = some g → R g) (maybeNeedWith env p ctx f) := by
  intro s vs hs
  refine Post.maybeNeedWith (hE _ nofun) henv hf ⟨hs, rfl, fun _ h => by cases h; nofun, nofun⟩
    (fun e he => ⟨hs, rfl, nofun, fun _ h => by cases h; exact he⟩)
    (fun v => (hc v s vs hs).mono ?_)
  rintro o s' vs' ⟨h1, rfl, h2, h3⟩
  cases o with
  | ok g =>
    exact ⟨⟨h1, rfl, fun _ h => by cases h; intro _ h; cases h; exact h2 _ rfl, nofun⟩,
      ⟨h1, rfl, fun _ h => by cases h; nofun, nofun⟩,
      fun e he => ⟨h1, rfl, nofun, fun _ h => by cases h; exact he⟩⟩
  | err e =>
    exact ⟨⟨h1, rfl, fun _ h => by cases h; nofun, nofun⟩,
      fun e he => ⟨h1, rfl, nofun, fun _ h => by cases h; exact he⟩⟩
  | panic => exact ⟨h1, rfl, nofun, nofun⟩

theorem Calm.needWith (hE : Std E) {env : Env} (henv : env.Errs E) {p : Property}
    {ctx : Provider} {f : p.Value → M S G} {R : G → Prop} (hf : ∀ v, Fails E (f v))
    (hc : ∀ v, Calm E P R (f v)) : Calm E P R (needWith env p ctx f) := by
  unfold Rsasl.needWith
  refine Calm.bind (Calm.maybeNeedWith hE henv hf hc) (fun o ho => ?_)
  cases o with
  | none => exact Calm.fail (hE _ nofun)
  | some g => exact Calm.pure (ho g rfl)

theorem Calm.action (hE : Std E) {env : Env} (henv : env.Errs E) {p : Property}
    {ctx : Provider} {v : p.Value} : Calm E P (fun _ => True) (action env p ctx v : M S Unit) :=
  fun _ _ hs => Post.action (fun _ => hE _ nofun) henv ⟨hs, rfl, fun _ _ => trivial, nofun⟩
    (fun _ he => ⟨hs, rfl, nofun, fun _ h => by cases h; exact he⟩)

theorem Calm.attempt {m : M S α} (h : Calm E P R m) :
    Calm E P (fun _ => True) (M.attempt m) := fun s vs hs =>
  Post.attempt ((h s vs hs).mono fun o _ _ ⟨h1, h2, _, _⟩ => by
    cases o <;> exact ⟨h1, h2, fun _ _ => trivial, nofun⟩)

theorem Calm.withLocal {t : T} {m : M (S × T) α} (h : Calm E (fun st => P st.1) R m) :
    Calm E P R (M.withLocal t m) := fun s vs hs => Post.withLocal (h (s, t) vs hs)

end Calm

namespace Scram

variable {E : SessionError → Prop}

/-! ## The errors of the parsers -/

/-- The result is not `InputDataRequired`. -/
def PErr (o : Outcome α) : Prop := o ≠ .err .inputDataRequired

theorem PErr.ok (a : α) : PErr (.ok a) := nofun
theorem PErr.panic : PErr (.panic : Outcome α) := nofun
theorem PErr.err {e : SessionError} (h : e ≠ .inputDataRequired) : PErr (.err e : Outcome α) :=
  fun h' => h (by cases h'; rfl)

theorem PErr.bind {o : Outcome α} {f : α → Outcome β} (h : PErr o) (hf : ∀ a, PErr (f a)) :
    PErr (o >>= f) := by
  cases o with
  | ok a => exact hf a
  | err e => exact fun h' => h (by cases h'; rfl)
  | panic => exact nofun

theorem PErr.orErr (e : SParseError) (o : Option α) : PErr (orErr e o) := by
  cases o <;> exact nofun

theorem PErr.nextPart (e : SParseError) (ps : List Bytes) : PErr (nextPart e ps) := by
  cases ps <;> exact nofun

theorem PErr.attr (b : Bytes) : PErr (attr b) := by
  unfold Scram.attr
  split <;> exact nofun

theorem PErr.firstByte (b : Bytes) : PErr (firstByte b) := by
  cases b <;> exact nofun

theorem PErr.utf8 (b : Bytes) : PErr (utf8 b) := PErr.orErr _ _

theorem PErr.expectAttr (k b : Bytes) : PErr (expectAttr k b) := by
  refine PErr.bind (PErr.attr b) (fun a => ?_)
  obtain ⟨k', v⟩ := a
  show PErr (ite _ _ _)
  split
  · exact PErr.ok _
  · exact PErr.bind (PErr.firstByte _) (fun _ => PErr.err nofun)

theorem PErr.cbFlag (b : Bytes) : PErr (CbFlag.parse b) := by
  unfold CbFlag.parse
  split
  · exact PErr.ok _
  · exact PErr.ok _
  · split
    · exact PErr.ok _
    · exact PErr.err nofun
  · exact PErr.err nofun

theorem PErr.authzid (b : Bytes) : PErr (parseAuthzid b) := by
  unfold parseAuthzid
  split
  · exact PErr.ok _
  · exact PErr.bind (PErr.attr _) (fun _ => PErr.bind (PErr.utf8 _) (fun _ => PErr.ok _))

theorem PErr.clientFirst (b : Bytes) : PErr (ClientFirst.parse b) := by
  refine PErr.bind (PErr.nextPart _ _) (fun _ => ?_)
  refine PErr.bind (PErr.cbFlag _) (fun _ => ?_)
  refine PErr.bind (PErr.nextPart _ _) (fun _ => ?_)
  refine PErr.bind (PErr.authzid _) (fun _ => ?_)
  refine PErr.bind (PErr.nextPart _ _) (fun _ => ?_)
  refine PErr.bind (PErr.attr _) (fun _ => ?_)
  show PErr (ite _ _ _)
  split
  · exact PErr.err nofun
  · refine PErr.bind (PErr.expectAttr _ _) (fun _ => ?_)
    refine PErr.bind (PErr.utf8 _) (fun _ => ?_)
    refine PErr.bind (PErr.nextPart _ _) (fun _ => ?_)
    refine PErr.bind (PErr.expectAttr _ _) (fun _ => ?_)
    show PErr (ite _ _ _)
    split
    · exact PErr.ok _
    · exact PErr.err nofun

theorem PErr.serverFirst (b : Bytes) : PErr (ServerFirst.parse b) := by
  refine PErr.bind (PErr.nextPart _ _) (fun _ => ?_)
  show PErr (ite _ _ _)
  split
  · exact PErr.err nofun
  · refine PErr.bind (PErr.attr _) (fun _ => ?_)
    show PErr (ite _ _ _)
    split
    · exact PErr.err nofun
    · refine PErr.bind (PErr.expectAttr _ _) (fun _ => ?_)
      refine PErr.bind (PErr.nextPart _ _) (fun _ => ?_)
      refine PErr.bind (PErr.expectAttr _ _) (fun _ => ?_)
      refine PErr.bind (PErr.nextPart _ _) (fun _ => ?_)
      refine PErr.bind (PErr.expectAttr _ _) (fun _ => ?_)
      show PErr _
      try dsimp only
      split
      · exact PErr.bind (PErr.firstByte _) (fun _ => PErr.err nofun)
      · exact PErr.ok _

theorem PErr.findProof (ps : List Bytes) : PErr (findProof ps) := by
  induction ps with
  | nil => exact nofun
  | cons p ps ih =>
    refine PErr.bind (PErr.attr _) (fun _ => ?_)
    show PErr (ite _ _ _)
    split
    · exact PErr.ok _
    · split
      · exact PErr.err nofun
      · exact ih

theorem PErr.clientFinal (b : Bytes) : PErr (ClientFinal.parse b) := by
  refine PErr.bind (PErr.nextPart _ _) (fun _ => ?_)
  refine PErr.bind (PErr.expectAttr _ _) (fun _ => ?_)
  refine PErr.bind (PErr.nextPart _ _) (fun _ => ?_)
  refine PErr.bind (PErr.expectAttr _ _) (fun _ => ?_)
  refine PErr.bind (PErr.findProof _) (fun _ => ?_)
  show PErr _
  try dsimp only
  split
  · exact PErr.bind (PErr.firstByte _) (fun _ => PErr.err nofun)
  · exact PErr.ok _

theorem PErr.serverFinal (b : Bytes) : PErr (ServerFinal.parse b) := by
  refine PErr.bind (PErr.attr _) (fun _ => ?_)
  show PErr (ite _ _ _)
  split
  · exact PErr.ok _
  · split
    · exact PErr.ok _
    · exact PErr.bind (PErr.firstByte _) (fun _ => PErr.err nofun)

theorem PErr.checkServerFirst (n b : Bytes) : PErr (checkServerFirst n b) := by
  refine PErr.bind (PErr.serverFirst _) (fun sf => ?_)
  show PErr _
  try dsimp only
  split
  · exact PErr.err nofun
  · split
    · exact PErr.err nofun
    · refine PErr.bind (PErr.utf8 _) (fun _ => ?_)
      show PErr _
      try dsimp only
      split
      · exact PErr.err nofun
      · split
        · exact PErr.err nofun
        · split
          · exact PErr.err nofun
          · exact PErr.ok _

theorem PErr.std {o : Outcome α} (h : PErr o) (hE : Std E) : ∀ e, o = .err e → E e := by
  rintro e rfl
  exact hE e (fun h' => h (by rw [h']))

/-! ## Client -/

/-- The state of the mechanism (with some local variables) is taken. -/
def Taken {S T : Type} (st : Option S × T) : Prop := st.1 = none

theorem pushHeader_calm (b : Bytes) : Calm E Taken (fun _ => True) (pushHeader b) :=
  Calm.modify (fun _ h => h)

theorem setCbdata_calm (b : Bytes) : Calm E Taken (fun _ => True) (setCbdata b) :=
  Calm.modify (fun _ h => h)

theorem pushHeader_fails (b : Bytes) : Fails E (pushHeader b) := Fails.modify _
theorem setCbdata_fails (b : Bytes) : Fails E (setCbdata b) := Fails.modify _

theorem escapeM_calm {S : Type} {P : S → Prop} (hE : Std E) (x : Str) :
    Calm E P (fun _ => True) (escapeM x) := by
  unfold escapeM
  split
  · exact Calm.pure trivial
  · exact Calm.fail (hE _ nofun)

theorem escapeM_fails {S : Type} (hE : Std E) (x : Str) : Fails E (escapeM x : M S Str) := by
  unfold escapeM
  split
  · exact Fails.pure _
  · exact Fails.fail (hE _ nofun)

theorem generateNonce_calm {S : Type} {P : S → Prop} (n : Nat) :
    Calm E P (fun _ => True) (generateNonce n) :=
  Calm.bind (Calm.draw n) (fun _ _ => Calm.pure trivial)

theorem maybeNeedCbData_calm {S G : Type} {P : S → Prop} {R : G → Prop} (hE : Std E) {env : Env}
    (henv : env.Errs E) (name : Str) (ctx : Provider) {f : Bytes → M S G}
    (hf : ∀ v, Fails E (f v)) (hc : ∀ v, Calm E P R (f v)) :
    Calm E P (fun o => ∀ g, o = some g → R g) (maybeNeedCbData env name ctx f) := by
  unfold maybeNeedCbData
  split
  · exact Calm.bind (hc _) (fun g hg => Calm.pure (fun _ h => by cases h; exact hg))
  · exact Calm.maybeNeedWith hE henv hf hc

theorem needCbData_calm {S G : Type} {P : S → Prop} {R : G → Prop} (hE : Std E) {env : Env}
    (henv : env.Errs E) (name : Str) (ctx : Provider) {f : Bytes → M S G}
    (hf : ∀ v, Fails E (f v)) (hc : ∀ v, Calm E P R (f v)) :
    Calm E P R (needCbData env name ctx f) := by
  unfold needCbData
  refine Calm.bind (maybeNeedCbData_calm hE henv name ctx hf hc) (fun o ho => ?_)
  cases o with
  | none => exact Calm.fail (hE _ nofun)
  | some g => exact Calm.pure (ho g rfl)

theorem clientCb_calm (hE : Std E) {env : Env} (henv : env.Errs E) (plus : CbSupport) :
    Calm E Taken (fun _ => True) (clientCb env plus) := by
  have hf : ∀ n v, Fails E (do pushHeader n; setCbdata v : M (CS × Gs2) Unit) := fun n v =>
    Fails.bind (pushHeader_fails _) (fun _ => setCbdata_fails _)
  have hc : ∀ n v, Calm E Taken (fun _ => True) (do pushHeader n; setCbdata v : M (CS × Gs2) Unit) :=
    fun n v => Calm.bind (pushHeader_calm _) (fun _ _ => setCbdata_calm _)
  cases plus with
  | supported =>
    refine Calm.bind (pushHeader_calm _) (fun _ _ => ?_)
    refine Calm.bind (Calm.maybeNeedWith (R := fun _ => True) hE henv
      (fun v => Fails.bind (pushHeader_fails _) (fun _ => Fails.pure _))
      (fun v => Calm.bind (pushHeader_calm _) (fun _ _ => Calm.pure trivial))) (fun cbtype _ => ?_)
    cases cbtype with
    | some name => exact needCbData_calm hE henv _ _ setCbdata_fails setCbdata_calm
    | none =>
      refine Calm.bind (maybeNeedCbData_calm hE henv _ _ (hf _) (hc _)) (fun ex _ => ?_)
      cases ex with
      | some _ => exact Calm.pure trivial
      | none => exact needCbData_calm hE henv _ _ (hf _) (hc _)
  | serverNoSupport => exact pushHeader_calm _
  | clientNoSupport => exact pushHeader_calm _

theorem clientAuthzid_calm (hE : Std E) (v : Str) :
    Calm E Taken (fun _ => True) (clientAuthzid v) :=
  Calm.bind (pushHeader_calm _) (fun _ _ => Calm.bind (escapeM_calm hE _)
    (fun _ _ => pushHeader_calm _))

theorem clientAuthzid_fails (hE : Std E) (v : Str) : Fails E (clientAuthzid v) :=
  Fails.bind (pushHeader_fails _) (fun _ => Fails.bind (escapeM_fails hE _)
    (fun _ => pushHeader_fails _))

theorem sendClientFirst_calm (hE : Std E) {env : Env} (henv : env.Errs E) (n : Nat)
    (plus : CbSupport) : Calm E Taken (fun st => ∃ cb nonce u, st = .clientFirst cb nonce u)
      (sendClientFirst n env plus) := by
  refine Calm.bind (clientCb_calm hE henv plus) (fun _ _ => ?_)
  refine Calm.bind (pushHeader_calm _) (fun _ _ => ?_)
  refine Calm.bind (Calm.maybeNeedWith hE henv (clientAuthzid_fails hE) (clientAuthzid_calm hE))
    (fun _ _ => ?_)
  refine Calm.bind (pushHeader_calm _) (fun _ _ => ?_)
  refine Calm.bind (Calm.needWith hE henv (escapeM_fails hE) (escapeM_calm hE)) (fun _ _ => ?_)
  refine Calm.bind (generateNonce_calm _) (fun _ _ => ?_)
  refine Calm.bind Calm.get (fun _ _ => ?_)
  exact Calm.bind (Calm.writeVectored hE _) (fun _ _ => Calm.pure ⟨_, _, _, rfl⟩)

theorem useCached_calm (d : Digest) {P : CS → Prop} (c : CachedPassword) :
    Calm E P (fun _ => True) (useCached d c) := by
  unfold useCached
  split
  · exact Calm.pure trivial
  · exact Calm.panic

theorem useCached_fails (d : Digest) (c : CachedPassword) : Fails E (useCached d c) := by
  unfold useCached
  split
  · exact Fails.pure _
  · exact Fails.panic

theorem useSalted_calm (hE : Std E) (d : Digest) {P : CS → Prop} (c : Bytes) :
    Calm E P (fun _ => True) (useSalted d c) := by
  unfold useSalted
  split
  · exact Calm.fail (hE _ nofun)
  · exact Calm.pure trivial

theorem useSalted_fails (hE : Std E) (d : Digest) (c : Bytes) : Fails E (useSalted d c) := by
  unfold useSalted
  split
  · exact Fails.fail (hE _ nofun)
  · exact Fails.pure _

theorem clientKeys_calm (hE : Std E) {env : Env} (henv : env.Errs E) (d : Digest) {P : CS → Prop}
    (prov : Provider) (i : UInt32) (salt : Bytes) :
    Calm E P (fun _ => True) (clientKeys d env prov i salt) := by
  refine Calm.bind (Calm.maybeNeedWith hE henv (useCached_fails d) (useCached_calm d)) (fun o _ => ?_)
  cases o with
  | some k => exact Calm.pure trivial
  | none =>
    refine Calm.bind (Calm.maybeNeedWith hE henv (useSalted_fails hE d) (useSalted_calm hE d))
      (fun o _ => ?_)
    cases o with
    | some k => exact Calm.pure trivial
    | none => exact Calm.needWith hE henv (fun _ => Fails.pure _) (fun _ => Calm.pure trivial)

theorem handleServerFirst_calm (hE : Std E) {env : Env} (henv : env.Errs E) (d : Digest)
    {P : CS → Prop} (cb nonce : Bytes) (u : Str) (input : Bytes) :
    Calm E P (fun st => ∃ a b c d e, st = .serverFirst a b c d e)
      (handleServerFirst d env cb nonce u input) := by
  refine Calm.bind (Calm.liftOutcome ((PErr.checkServerFirst _ _).std hE)) (fun a _ => ?_)
  obtain ⟨sf, sn, i, salt⟩ := a
  refine Calm.bind (clientKeys_calm hE henv d _ _ _) (fun k _ => ?_)
  obtain ⟨ck, sk⟩ := k
  exact Calm.bind (Calm.writeVectored hE _) (fun _ _ => Calm.pure ⟨_, _, _, _, _, rfl⟩)

theorem handleServerFinal_calm (hE : Std E) {env : Env} (henv : env.Errs E)
    {P : CS → Prop} (v ck sk salt : Bytes) (i : UInt32) (input : Bytes) :
    Calm E P (fun _ => True) (handleServerFinal env v ck sk salt i input) := by
  refine Calm.bind (Calm.liftOutcome ((PErr.serverFinal _).std hE)) (fun a _ => ?_)
  cases a with
  | verifier v64 =>
    try dsimp only
    split
    · exact Calm.fail (hE _ nofun)
    · split
      · exact Calm.bind (Calm.attempt (Calm.action hE henv)) (fun _ _ => Calm.pure trivial)
      · exact Calm.fail (hE _ nofun)
  | error e => exact Calm.fail (hE _ nofun)

def crank : CS → Nat
  | some (.initial _) => 2
  | some (.clientFirst ..) => 1
  | _ => 0

def cneeds : CS → Prop
  | some (.clientFirst ..) => True
  | some (.serverFirst ..) => True
  | _ => False

theorem client_tame (d : Digest) : Tame (client d) crank (fun _ => 0) (· = 0) cneeds True := by
  intro E hE env henv input s vs
  show Post (clientStep d nonceLen env input) s vs _
  have hr : crank none ≤ crank s := Nat.zero_le _
  refine Post.bind (Post.get (Post.bind (Post.set ?_)))
  show Post _ _ _ _
  rcases s with _ | s
  · exact Post.panic (.crash trivial hr)
  · cases s with
    | initial plus =>
      refine Post.bind ((Calm.withLocal (P := fun s : CS => s = none)
        (sendClientFirst_calm hE henv nonceLen plus) none vs rfl).mono ?_)
      rintro o s' vs' ⟨rfl, rfl, h2, h3⟩
      cases o with
      | ok a =>
        obtain ⟨cb, nonce, u, rfl⟩ := h2 a rfl
        exact Seq.ok (Post.bind (Post.set (Seq.ok (Post.pure (.run (Nat.lt_succ_self 1) rfl)))))
      | err e => exact .error (h3 e rfl) hr
      | panic => exact .crash trivial hr
    | clientFirst cb nonce u =>
      refine Post.bind (Post.okOr (fun a _ => ?_) (fun hn => .needed hn trivial hr))
      refine Seq.ok (Post.bind ((handleServerFirst_calm (P := fun s : CS => s = none) hE henv d cb
        nonce u a none vs rfl).mono ?_))
      rintro o s' vs' ⟨rfl, rfl, h2, h3⟩
      cases o with
      | ok a =>
        obtain ⟨_, _, _, _, _, rfl⟩ := h2 a rfl
        exact Seq.ok (Post.bind (Post.set (Seq.ok (Post.pure (.run (Nat.zero_lt_one) rfl)))))
      | err e => exact .error (h3 e rfl) hr
      | panic => exact .crash trivial hr
    | serverFirst v ck sk salt i =>
      refine Post.bind (Post.okOr (fun a _ => ?_) (fun hn => .needed hn trivial hr))
      refine Seq.ok (Post.bind ((handleServerFinal_calm (P := fun s : CS => s = none) hE henv v ck
        sk salt i a none vs rfl).mono ?_))
      rintro o s' vs' ⟨rfl, rfl, h2, h3⟩
      cases o with
      | ok a => exact Seq.ok (Post.pure (.done hr 0 rfl rfl))
      | err e => exact .error (h3 e rfl) hr
      | panic => exact .crash trivial hr

/-! ## Server -/

theorem useStored_calm {S : Type} (hE : Std E) (d : Digest) {P : S → Prop} (c : StoredPassword) :
    Calm E P (fun _ => True) (useStored d c) := by
  unfold useStored
  split
  · exact Calm.fail (hE _ nofun)
  · exact Calm.pure trivial

theorem useStored_fails {S : Type} (hE : Std E) (d : Digest) (c : StoredPassword) :
    Fails E (useStored d c : M S Params) := by
  unfold useStored
  split
  · exact Fails.fail (hE _ nofun)
  · exact Fails.pure _

theorem serverCb_calm (hE : Std E) {env : Env} (henv : env.Errs E) (b : Bool) (prov : Provider)
    (f : CbFlag) : Calm E Taken (fun _ => True) (serverCb env b prov f) := by
  cases f with
  | supportedNotUsed =>
    show Calm _ _ _ (ite _ _ _)
    split
    · exact Calm.fail (hE _ nofun)
    · exact Calm.pure trivial
  | notSupported => exact Calm.pure trivial
  | used name =>
    exact needCbData_calm hE henv _ _ (fun _ => Fails.modify _) (fun _ => Calm.modify (fun _ h => h))

theorem handleClientFirst_calm (hE : Std E) {env : Env} (henv : env.Errs E) (d : Digest) (n : Nat)
    (b : Bool) (msg : ClientFirst) : Calm E Taken (fun st => ∃ data, st = .waitingClientFinal data)
      (handleClientFirst d n env b msg) := by
  refine Calm.bind (serverCb_calm hE henv _ _ _) (fun _ _ => ?_)
  refine Calm.bind (Calm.maybeNeedWith hE henv (useStored_fails hE d) (useStored_calm hE d))
    (fun o _ => ?_)
  refine Calm.bind (generateNonce_calm _) (fun _ _ => ?_)
  cases o with
  | some p =>
    exact Calm.bind (Calm.writeVectored hE _) (fun _ _ => Calm.bind Calm.get
      (fun _ _ => Calm.pure ⟨_, rfl⟩))
  | none =>
    exact Calm.bind (Calm.draw _) (fun _ _ => Calm.bind (Calm.writeVectored hE _)
      (fun _ _ => Calm.pure ⟨_, rfl⟩))

theorem judge_errs (d : Digest) (data : Option FinalInner) (msg : ClientFinal) (e : SessionError)
    (h : judge d data msg = .error e) : e = protoErr .base64Decode := by
  unfold judge at h
  repeat' first
    | (cases h; done)
    | (cases h; rfl)
    | split at h
    | (dsimp only at h; split at h)

theorem handleClientFinal_post (hE : Std E) {env : Env} (d : Digest)
    (data : Option FinalInner) (input : Bytes) (s : SS) (vs : List Provider) :
    Post (handleClientFinal d env data input) s vs (fun o s' vs' => s' = s ∧
      (∀ a, o = .ok a → ∃ n, n ≤ 1 ∧ vs'.length = vs.length + n) ∧ ∀ e, o = .err e → E e) := by
  refine Post.bind (Post.liftOutcome ?_)
  have hp := (PErr.clientFinal input).std hE
  generalize ClientFinal.parse input = r at hp
  cases r with
  | err e => exact ⟨rfl, nofun, fun _ h => by cases h; exact hp e rfl⟩
  | panic => exact ⟨rfl, nofun, nofun⟩
  | ok msg =>
    refine Seq.ok (Post.bind (Post.lift (fun a _ => ?_) (fun e he => ⟨rfl, nofun, fun _ h => by
      cases h; rw [judge_errs _ _ _ _ he]; exact hE _ nofun⟩)))
    cases a with
    | ok fs =>
      obtain ⟨f, sig⟩ := fs
      refine Seq.ok (Post.bind (Post.writeVectored (Seq.ok ?_)
        (fun e => ⟨rfl, nofun, fun _ h => by cases h; exact hE _ nofun⟩)))
      exact Post.validate ⟨rfl, fun _ _ => ⟨1, by decide, by simp⟩, nofun⟩
        (fun e => ⟨rfl, nofun, fun _ h => by cases h; exact hE _ nofun⟩)
    | error e =>
      exact Seq.ok (Post.writeVectored ⟨rfl, fun _ _ => ⟨0, by decide, by simp⟩, nofun⟩
        (fun e => ⟨rfl, nofun, fun _ h => by cases h; exact hE _ nofun⟩))

def srank : SS → Nat
  | some (.waitingClientFirst _) => 1
  | _ => 0

def sneeds : SS → Prop
  | some (.waitingClientFirst _) => True
  | some (.waitingClientFinal _) => True
  | _ => False

theorem server_tame (d : Digest) : Tame (server d) srank (fun _ => 0) (· ≤ 1) sneeds True := by
  intro E hE env henv input s vs
  show Post (serverStep d nonceLen env input) s vs _
  have hr : srank none ≤ srank s := Nat.zero_le _
  refine Post.bind (Post.get (Post.bind (Post.set ?_)))
  show Post _ _ _ _
  rcases s with _ | s
  · exact Post.panic (.crash trivial hr)
  · cases s with
    | waitingClientFirst b =>
      refine Post.bind (Post.okOr (fun a _ => ?_) (fun hn => .needed hn trivial hr))
      refine Seq.ok (Post.bind (Post.liftOutcome ?_))
      have hp := (PErr.clientFirst a).std hE
      generalize ClientFirst.parse a = r at hp
      cases r with
      | err e => exact .error (hp e rfl) hr
      | panic => exact .crash trivial hr
      | ok msg =>
        refine Seq.ok (Post.bind ((Calm.withLocal (P := fun s : SS => s = none)
          (handleClientFirst_calm hE henv d nonceLen b msg) none vs rfl).mono ?_))
        rintro o s' vs' ⟨rfl, rfl, h2, h3⟩
        cases o with
        | ok a =>
          obtain ⟨_, rfl⟩ := h2 a rfl
          exact Seq.ok (Post.bind (Post.set (Seq.ok (Post.pure (.run Nat.zero_lt_one rfl)))))
        | err e => exact .error (h3 e rfl) hr
        | panic => exact .crash trivial hr
    | waitingClientFinal data =>
      refine Post.bind (Post.okOr (fun a _ => ?_) (fun hn => .needed hn trivial hr))
      refine Seq.ok (Post.bind ((handleClientFinal_post hE d data a none vs).mono ?_))
      rintro o s' vs' ⟨rfl, h2, h3⟩
      cases o with
      | ok a =>
        obtain ⟨n, h4, h5⟩ := h2 a rfl
        exact Seq.ok (Post.bind (Post.set (Seq.ok (Post.pure (.done (Nat.zero_le _) n h4 h5)))))
      | err e => exact .error (h3 e rfl) hr
      | panic => exact .crash trivial hr
    | finished => exact Post.fail (.error (hE _ nofun) hr)

end Scram

end Rsasl

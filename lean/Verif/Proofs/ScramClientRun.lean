/-
What the steps of the SCRAM client do, for every callback and writer.
-/
import Verif.Spec.Scram
import Verif.Spec.Io
import Verif.Proofs.Silent
import Verif.Proofs.ScramParse
import Verif.Proofs.Base64

namespace Rsasl

/-- A vectored write that returned `Ok`. -/
theorem M.writeVectored_eq_ok {S : Type} {bufs : List Bytes} {s s' : S} {w w' : World} {u : Unit}
    (h : M.writeVectored bufs s w = (.ok u, s', w')) :
    s' = s ∧ ∃ o sched, o <+: bufs.flatten ∧ sched <:+ w.wr.sched ∧
      (Cooperative w.wr.sched → o = bufs.flatten) ∧
      w' = { w with wr := ⟨w.wr.out ++ o, sched⟩ } := by
  by_cases hc : Cooperative w.wr.sched
  · obtain ⟨sched, h1, h2⟩ := M.writeVectored_cooperative bufs s w hc
    rw [h2] at h
    cases h
    exact ⟨rfl, _, sched, List.prefix_refl _, h1, fun _ => rfl, rfl⟩
  · obtain ⟨n, sched, h1, h2, h3 | ⟨e, h3⟩⟩ := M.writeVectored_cases bufs s w
    · rw [h3] at h
      cases h
      exact ⟨rfl, _, sched, List.take_prefix _ _, h2, fun hc' => absurd hc' hc, rfl⟩
    · rw [h3] at h
      cases h

namespace Scram

/-- Events of requests for the given properties. -/
def Concerns (ps : List Property) : Event → Prop
  | .asked p _ => p ∈ ps
  | .answered p _ => p ∈ ps
  | .evaluated _ => True
  | _ => False

theorem requests_concerns {ps : List Property} {p : Property} (h : p ∈ ps) (ctx : Provider) :
    Requests (Concerns ps) p ctx := ⟨h, fun _ => h, fun _ => trivial⟩

/-- What the client asks for in its first step. -/
def firstAsks : List Property := [.overrideCBType, .channelBindings, .authzId, .authId]

/-- The secrets the client asks for in its second step. -/
def secrets : List Property := [.scramCachedPassword, .saltedPassword, .password]

/-- How the gs2 header begins. -/
def flagStart : CbSupport → Bytes
  | .supported => b!"p="
  | .serverNoSupport => b!"y"
  | .clientNoSupport => b!"n"

/-- The mechanism state is taken, the header begins with `pre`, and there is binding data only
if that is supported. -/
def Hd (plus : CbSupport) (pre : Bytes) (s : CS × Gs2) : Prop :=
  s.1 = none ∧ pre <+: s.2.header ∧ (plus ≠ .supported → s.2.cbdata = none)

theorem pushHeader_keeps {L : Event → Prop} (plus : CbSupport) (pre b : Bytes) :
    Keeps L (Hd plus pre) (pushHeader b) :=
  Keeps.modify (fun _ hs => ⟨hs.1, hs.2.1.trans (List.prefix_append ..), hs.2.2⟩)

theorem pushHeader_apply (b : Bytes) (s : CS × Gs2) (w : World) :
    pushHeader b s w = (.ok (), (s.1, { s.2 with header := s.2.header ++ b }), w) := rfl

theorem setCbdata_keeps {L : Event → Prop} (pre b : Bytes) :
    Keeps L (Hd .supported pre) (setCbdata b) :=
  Keeps.modify (fun _ hs => ⟨hs.1, hs.2.1, fun h => absurd rfl h⟩)

theorem escapeM_keeps {S : Type} {L : Event → Prop} {P : S → Prop} (x : Str) :
    Keeps L P (escapeM x : M S Str) := by
  unfold escapeM
  split
  · exact Keeps.pure _
  · exact Keeps.fail _

/-- The part of `clientCb` after `p=`. -/
theorem clientCb_rest_keeps (env : Env) (pre : Bytes) :
    Keeps (Concerns firstAsks) (Hd .supported pre) (do
      let cbtype ← maybeNeedWith env .overrideCBType .empty (fun cbname => do
        pushHeader (Str.bytes cbname)
        pure cbname)
      match cbtype with
      | some cbname => needCbData env cbname .empty setCbdata
      | none => do
        let exporter ← maybeNeedCbData env tlsExporter .empty (fun cb => do
          pushHeader (Str.bytes tlsExporter)
          setCbdata cb)
        match exporter with
        | some _ => pure ()
        | none =>
          needCbData env tlsUnique .empty (fun cb => do
            pushHeader (Str.bytes tlsUnique)
            setCbdata cb) : M (CS × Gs2) Unit) := by
  refine Keeps.bind (Keeps.maybeNeedWith (requests_concerns (by decide) _)
    (fun v => Keeps.bind (pushHeader_keeps _ _ _) (fun _ => Keeps.pure _))) (fun r => ?_)
  cases r with
  | some name => exact Keeps.needCbData (requests_concerns (by decide) _) (fun v => setCbdata_keeps _ _)
  | none =>
    refine Keeps.bind (Keeps.maybeNeedCbData (requests_concerns (by decide) _)
      (fun v => Keeps.bind (pushHeader_keeps _ _ _) (fun _ => setCbdata_keeps _ _))) (fun r => ?_)
    cases r with
    | some _ => exact Keeps.pure _
    | none =>
      exact Keeps.needCbData (requests_concerns (by decide) _)
        (fun v => Keeps.bind (pushHeader_keeps _ _ _) (fun _ => setCbdata_keeps _ _))

/-- The channel binding part does nothing but ask, and begins the header. -/
theorem clientCb_silent (env : Env) (plus : CbSupport) :
    Silent (Concerns firstAsks)
      (fun s : CS × Gs2 => s.1 = none ∧ s.2.header = [] ∧ s.2.cbdata = none) (clientCb env plus)
      (fun o s => s.1 = none ∧
        (o = .ok () → flagStart plus <+: s.2.header ∧
          (plus ≠ .supported → s.2.header = flagStart plus ∧ s.2.cbdata = none))) := by
  cases plus with
  | clientNoSupport =>
    exact Silent.modify (fun s hs => ⟨hs.1, fun _ => by simp [hs.2.1, hs.2.2, flagStart]⟩)
  | serverNoSupport =>
    exact Silent.modify (fun s hs => ⟨hs.1, fun _ => by simp [hs.2.1, hs.2.2, flagStart]⟩)
  | supported =>
    refine Silent.bind (R := fun _ s => Hd .supported (b!"p=") s)
      (Silent.modify (fun s hs => ⟨hs.1, by simp [hs.2.1], fun h => absurd rfl h⟩))
      (fun _ => (clientCb_rest_keeps env (b!"p=")).mono (fun _ h => h)
        (fun o s hs => ⟨hs.1, fun _ => ⟨hs.2.1, fun h => absurd rfl h⟩⟩) (fun _ h => h))
      (fun _ s h => ⟨h.1, nofun⟩) (fun s h => ⟨h.1, nofun⟩)

theorem clientAuthzid_keeps {L : Event → Prop} (plus : CbSupport) (pre : Bytes) (v : Str) :
    Keeps L (Hd plus pre) (clientAuthzid v) :=
  Keeps.bind (pushHeader_keeps _ _ _) (fun _ => Keeps.bind (escapeM_keeps _)
    (fun _ => pushHeader_keeps _ _ _))

/-- The client's first message begins with the flag for its channel binding mode; the comma shows
that there is nothing else in the flag. -/
def FlagOk (plus : CbSupport) (header : Bytes) : Prop :=
  match plus with
  | .supported => b!"p=" <+: header
  | .serverNoSupport => b!"y," <+: header
  | .clientNoSupport => b!"n," <+: header

/-- The world after a step: `o` written, `es` logged. -/
def World.after (w : World) (o : Bytes) (sched : List WResp) (rng : Nat → Nat) (es : List Event) :
    World := { w with wr := ⟨w.wr.out ++ o, sched⟩, rng := rng, log := w.log ++ es }

/-- The gs2 header is finished: the part of `send_client_first` before the user name. -/
theorem sendHeader_ok {env : Env} {plus : CbSupport} {s1 s2 s3 s4 : CS × Gs2} {w w1 w2 w3 w4 : World}
    {u1 u2 u4 : Unit} {a : Option Unit}
    (h1 : clientCb env plus (none, {}) w = (.ok u1, s1, w1))
    (h2 : pushHeader (b!",") s1 w1 = (.ok u2, s2, w2))
    (h3 : maybeNeedWith env .authzId .empty clientAuthzid s2 w2 = (.ok a, s3, w3))
    (h4 : pushHeader (b!",") s3 w3 = (.ok u4, s4, w4)) :
    s4.1 = none ∧ FlagOk plus s4.2.header ∧ (plus ≠ .supported → s4.2.cbdata = none) ∧
      ∃ es, w4 = w.addLog es ∧ ∀ e ∈ es, Concerns firstAsks e := by
  obtain ⟨q1, es1, e1, l1⟩ := clientCb_silent env plus (none, {}) w ⟨rfl, rfl, rfl⟩
  rw [h1] at q1 e1
  simp only at q1 e1
  have q1 := And.intro q1.1 (q1.2 trivial)
  have e2 : s2 = (s1.1, { s1.2 with header := s1.2.header ++ b!"," }) ∧ w2 = w1 := by
    rw [pushHeader_apply, Prod.mk.injEq, Prod.mk.injEq] at h2
    exact ⟨h2.2.1.symm, h2.2.2.symm⟩
  have hflag : ∃ pre, FlagOk plus pre ∧ Hd plus pre s2 := by
    rw [e2.1]
    cases plus with
    | supported =>
      exact ⟨b!"p=", List.prefix_refl _, q1.1, q1.2.1.trans (List.prefix_append ..),
        fun h => absurd rfl h⟩
    | serverNoSupport =>
      exact ⟨b!"y,", List.prefix_refl _, q1.1,
        by rw [(q1.2.2 nofun).1]; exact List.prefix_refl _, fun h => (q1.2.2 h).2⟩
    | clientNoSupport =>
      exact ⟨b!"n,", List.prefix_refl _, q1.1,
        by rw [(q1.2.2 nofun).1]; exact List.prefix_refl _, fun h => (q1.2.2 h).2⟩
  obtain ⟨pre, hpre, hd2⟩ := hflag
  have k3 : Keeps (Concerns firstAsks) (Hd plus pre)
      (maybeNeedWith env .authzId .empty clientAuthzid) :=
    Keeps.maybeNeedWith (requests_concerns (by decide) _) (fun v => clientAuthzid_keeps plus pre v)
  obtain ⟨hd3, es3, e3, l3⟩ := k3.ok hd2 h3
  have k4 : Keeps (Concerns firstAsks) (Hd plus pre) (pushHeader (b!",")) :=
    pushHeader_keeps _ _ _
  obtain ⟨hd4, es4, e4, l4⟩ := k4.ok hd3 h4
  refine ⟨hd4.1, ?_, hd4.2.2, es1 ++ es3 ++ es4, ?_, ?_⟩
  · unfold FlagOk at hpre ⊢
    cases plus <;> exact List.IsPrefix.trans hpre hd4.2.1
  · rw [e4, e3, e2.2, e1]; simp
  · intro e he
    simp only [List.mem_append] at he
    rcases he with (he | he) | he
    · exact l1 e he
    · exact l3 e he
    · exact l4 e he

/-- The user name is what the callback answered, escaped. -/
theorem needAuthid_ok {S : Type} {env : Env} {s s' : S} {w w' : World} {user : Str}
    (h : needWith env .authId .empty escapeM s w = (.ok user, s', w')) :
    s' = s ∧ ∃ name es, escape name = .ok user ∧ w' = w.addLog es ∧
      .answered .authId name ∈ es ∧ ∀ e ∈ es, Concerns firstAsks e := by
  obtain ⟨name, es, es', w1, hq, hq', hesc, e⟩ := needWith_ok h
  unfold escapeM at hesc
  cases he : escape name with
  | error x => rw [he] at hesc; cases hesc
  | ok x =>
    rw [he] at hesc
    cases hesc
    refine ⟨rfl, name, (.asked .authId .empty :: es ++ [.answered .authId name]) ++ es', he, ?_, ?_, ?_⟩
    · rw [e]; simp
    · simp
    · intro e he
      simp only [List.cons_append, List.mem_cons, List.mem_append, List.append_assoc,
        List.not_mem_nil, List.nil_append] at he
      rcases he with rfl | he | rfl | he
      · show Property.authId ∈ firstAsks; decide
      · obtain ⟨q, rfl⟩ := hq e he; trivial
      · show Property.authId ∈ firstAsks; decide
      · obtain ⟨q, rfl⟩ := hq' e he; trivial

theorem generateNonce_apply {S : Type} (n : Nat) (s : S) (w : World) :
    generateNonce n s w = (.ok (((List.range n).map w.rng).map nonceChar), s,
      { w with rng := fun i => w.rng (i + n) }) := rfl

/-- What `send_client_first` comes down to. -/
structure SentFirst (n : Nat) (plus : CbSupport) (w w' : World) (new : CState) (header : Bytes)
    (cbdata : Option Bytes) (name user : Str) (nonce o : Bytes) (sched : List WResp)
    (es : List Event) : Prop where
  hflag : FlagOk plus header
  hcbdata : plus ≠ .supported → cbdata = none
  huser : escape name = .ok user
  hnonce : nonce = ((List.range n).map w.rng).map nonceChar
  hnew : new = .clientFirst (Base64.encode (header ++ cbdata.getD [])) nonce user
  hout : o <+: header ++ Spec.clientFirstBare user nonce
  hall : Cooperative w.wr.sched → o = header ++ Spec.clientFirstBare user nonce
  hanswered : .answered .authId name ∈ es
  hlog : ∀ e ∈ es, Concerns firstAsks e
  hworld : w' = World.after w o sched (fun i => w.rng (i + n)) es

theorem sendClientFirst_ok {n : Nat} {env : Env} {plus : CbSupport} {s' : CS × Gs2}
    {w w' : World} {new : CState}
    (h : sendClientFirst n env plus (none, {}) w = (.ok new, s', w')) :
    s'.1 = none ∧ ∃ header cbdata name user nonce o sched es,
      SentFirst n plus w w' new header cbdata name user nonce o sched es := by
  unfold sendClientFirst at h
  obtain ⟨_, s1, w1, h1, k1⟩ := M.bind_eq_ok h
  obtain ⟨_, s2, w2, h2, k2⟩ := M.bind_eq_ok k1
  obtain ⟨_, s3, w3, h3, k3⟩ := M.bind_eq_ok k2
  obtain ⟨_, s4, w4, h4, k4⟩ := M.bind_eq_ok k3
  obtain ⟨user, s5, w5, h5, k5⟩ := M.bind_eq_ok k4
  clear h k1 k2 k3 k4
  obtain ⟨hs, hfl, hcb, es1, e1, l1⟩ := sendHeader_ok h1 h2 h3 h4
  obtain ⟨rfl, name, es2, hesc, e2, hans, l2⟩ := needAuthid_ok h5
  clear h1 h2 h3 h4 h5
  rw [M.bind_ok (generateNonce_apply ..), M.bind_ok (M.get_apply ..)] at k5
  obtain ⟨_, s8, w8, h8, h⟩ := M.bind_eq_ok k5
  clear k5
  obtain ⟨e8, o, sched, ho1, ho2, ho3, e9⟩ := M.writeVectored_eq_ok h8
  clear h8
  have hw5 : w5.wr = w.wr ∧ w5.rng = w.rng ∧ w5.slot = w.slot ∧ w5.log = w.log ++ (es1 ++ es2) := by
    subst e1 e2
    simp
  obtain ⟨a1, a2, a3, a4⟩ := hw5
  rw [a2] at h e9 ho1 ho3
  generalize hnonce : ((List.range n).map w.rng).map nonceChar = nonce at *
  have hbare : ([s5.2.header, b!"n=", Str.bytes user, b!",r=", nonce] : List Bytes).flatten =
      s5.2.header ++ Spec.clientFirstBare user nonce := by
    simp [Spec.clientFirstBare]
  rw [hbare] at ho1 ho3
  have h' : new = .clientFirst (Base64.encode (s5.2.header ++ s5.2.cbdata.getD [])) nonce user ∧
      s' = s8 ∧ w' = w8 := by
    obtain ⟨_, ⟨header, cbdata⟩⟩ := s5
    cases cbdata <;> cases h <;> simp
  obtain ⟨h', rfl, rfl⟩ := h'
  refine ⟨by rw [e8]; exact hs, s5.2.header, s5.2.cbdata, name, user, nonce, o, sched, es1 ++ es2,
    hfl, hcb, hesc, hnonce.symm, h', ho1, fun hc => ho3 (by rw [a1]; exact hc),
    List.mem_append_right _ hans, ?_, ?_⟩
  · intro e he
    rcases List.mem_append.1 he with he | he
    · exact l1 e he
    · exact l2 e he
  · rw [e9, a1, a3, a4]
    rfl

/-- The client's first step, when it succeeds. -/
theorem clientStep_initial_ok {d : Digest} {n : Nat} {env : Env} {input : Option Bytes}
    {plus : CbSupport} {w w' : World} {st : State} {s' : CS}
    (h : clientStep d n env input (some (.initial plus)) w = (.ok st, s', w')) :
    st = .running ∧ ∃ new header cbdata name user nonce o sched es, s' = some new ∧
      SentFirst n plus w w' new header cbdata name user nonce o sched es := by
  unfold clientStep at h
  rw [M.bind_ok (M.get_apply ..), M.bind_ok (M.set_apply ..)] at h
  dsimp only at h
  obtain ⟨new, s1, w1, h1, h2⟩ := M.bind_eq_ok h
  rw [M.bind_ok (M.set_apply ..)] at h2
  cases h2
  unfold M.withLocal at h1
  rcases hs : sendClientFirst n env plus (none, {}) w with ⟨o, ⟨s2, l⟩, w2⟩
  rw [hs] at h1
  cases h1
  obtain ⟨-, h3⟩ := sendClientFirst_ok hs
  obtain ⟨header, cbdata, name, user, nonce, o, sched, es, h3⟩ := h3
  exact ⟨rfl, new, header, cbdata, name, user, nonce, o, sched, es, rfl, h3⟩

/-- The client's first step in every case: what it asks, and that a failure is for good. -/
theorem clientStep_initial_log (d : Digest) (n : Nat) (env : Env) (input : Option Bytes)
    (plus : CbSupport) (w : World) :
    (∃ es, (clientStep d n env input (some (.initial plus)) w).2.2.log = w.log ++ es ∧
      ∀ e ∈ es, Concerns firstAsks e) ∧
    ((∀ st, (clientStep d n env input (some (.initial plus)) w).1 ≠ .ok st) →
      (clientStep d n env input (some (.initial plus)) w).2.1 = none) := by
  unfold clientStep
  rw [M.bind_ok (M.get_apply ..), M.bind_ok (M.set_apply ..)]
  dsimp only
  have h : Logs (Concerns firstAsks) (fun s : CS => s = none)
      (M.withLocal {} (sendClientFirst n env plus)) := by
    refine Logs.withLocal ?_
    unfold sendClientFirst
    have hpush : ∀ b, Keeps (Concerns firstAsks) (fun x : CS × Gs2 => x.1 = none) (pushHeader b) :=
      fun b => Keeps.modify (fun _ hs => hs)
    have hset : ∀ b, Keeps (Concerns firstAsks) (fun x : CS × Gs2 => x.1 = none) (setCbdata b) :=
      fun b => Keeps.modify (fun _ hs => hs)
    have hcb : Keeps (Concerns firstAsks) (fun x : CS × Gs2 => x.1 = none) (clientCb env plus) := by
      cases plus with
      | clientNoSupport => exact hpush _
      | serverNoSupport => exact hpush _
      | supported =>
        refine Keeps.bind (hpush _) (fun _ => Keeps.bind (Keeps.maybeNeedWith
          (requests_concerns (by decide) _) (fun v => Keeps.bind (hpush _) (fun _ => Keeps.pure _)))
          (fun r => ?_))
        cases r with
        | some name => exact Keeps.needCbData (requests_concerns (by decide) _) (fun v => hset _)
        | none =>
          refine Keeps.bind (Keeps.maybeNeedCbData (requests_concerns (by decide) _)
            (fun v => Keeps.bind (hpush _) (fun _ => hset _))) (fun r => ?_)
          cases r with
          | some _ => exact Keeps.pure _
          | none =>
            exact Keeps.needCbData (requests_concerns (by decide) _)
              (fun v => Keeps.bind (hpush _) (fun _ => hset _))
    have haz : Keeps (Concerns firstAsks) (fun x : CS × Gs2 => x.1 = none)
        (maybeNeedWith env .authzId .empty clientAuthzid) :=
      Keeps.maybeNeedWith (requests_concerns (by decide) _) (fun v => Keeps.bind (hpush _)
        (fun _ => Keeps.bind (escapeM_keeps _) (fun _ => hpush _)))
    have hid : Keeps (Concerns firstAsks) (fun x : CS × Gs2 => x.1 = none)
        (needWith env .authId .empty escapeM) :=
      Keeps.needWith (requests_concerns (by decide) _) (fun v => escapeM_keeps _)
    refine hcb.logs.bind (fun _ => (hpush _).logs.bind (fun _ => haz.logs.bind (fun _ =>
      (hpush _).logs.bind (fun _ => hid.logs.bind (fun _ => (Logs.bind (Logs.draw _)
      (fun _ => (Keeps.pure _).logs)).bind (fun _ => Logs.bind Keeps.get.logs (fun _ => ?_)))))))
    exact Logs.bind (Logs.writeVectored _) (fun _ => (Keeps.pure _).logs)
  obtain ⟨h1, es, h2, h3⟩ := h none w rfl
  rcases hs : M.withLocal {} (sendClientFirst n env plus) (none : CS) w with ⟨o, s1, w1⟩
  rw [hs] at h1 h2
  cases o with
  | ok new =>
    rw [M.bind_ok hs, M.bind_ok (M.set_apply ..)]
    exact ⟨⟨es, h2, h3⟩, fun h => absurd rfl (h .running)⟩
  | err e => rw [M.bind_err hs]; exact ⟨⟨es, h2, h3⟩, fun _ => h1⟩
  | panic => rw [M.bind_panic hs]; exact ⟨⟨es, h2, h3⟩, fun _ => h1⟩

/-! ## The second step -/

/-- What the client demands of the server's first message. -/
structure GoodServerFirst (clientNonce input serverNonce salt64 it64 salt : Bytes) (it : UInt32) :
    Prop where
  message : input = Spec.serverFirst (clientNonce ++ serverNonce) salt64 it64
  extends_ : serverNonce ≠ []
  commas : 44 ∉ clientNonce ++ serverNonce ∧ 44 ∉ salt64 ∧ 44 ∉ it64
  salt : Base64.decode salt64 = some salt
  count : ∃ text, it64 = Str.bytes text ∧ parseU32 text = some it
  positive : it ≠ 0

theorem isDigit_iff (c : Char) : c.isDigit = true ↔ '0' ≤ c ∧ c ≤ '9' := by
  unfold Char.isDigit
  simp [Char.le_def]
theorem parseU32_iff {text : Str} {it : UInt32} :
    parseU32 text = some it ↔ Spec.Decimal text it.toNat := by
  have key : ∀ ds : Str, (if ds.isEmpty then none else if ds.all Char.isDigit then
      (let n := Nat.ofDigitChars 10 ds 0
       if n < 4294967296 then some (UInt32.ofNat n) else none) else none) = some it ↔
      ds ≠ [] ∧ (∀ c ∈ ds, '0' ≤ c ∧ c ≤ '9') ∧
      it.toNat = ds.foldl (fun m c => 10 * m + (c.toNat - '0'.toNat)) 0 := by
    intro ds
    have hd : (∀ c ∈ ds, '0' ≤ c ∧ c ≤ '9') ↔ ds.all Char.isDigit = true := by
      simp only [List.all_eq_true, isDigit_iff]
    rw [hd]
    have hf : Nat.ofDigitChars 10 ds 0 = ds.foldl (fun m c => 10 * m + (c.toNat - '0'.toNat)) 0 := rfl
    rw [← hf]
    split
    · next h => simp at h; simp [h]
    · next h =>
      split
      · next h' =>
        simp only
        have hne : ds ≠ [] := by simpa using h
        split
        · next hl =>
          simp only [Option.some.injEq, hne, h', ne_eq, not_false_eq_true, true_and]
          constructor
          · rintro rfl; exact Nat.mod_eq_of_lt hl
          · intro he; rw [← he]; simp
        · next hl =>
          simp only [reduceCtorEq, false_iff]
          rintro ⟨-, -, he⟩
          have := it.toNat_lt
          omega
      · next h' => simp [h']
  unfold Spec.Decimal parseU32
  rw [key]
  constructor
  · intro h
    refine ⟨dropPlus text, ?_, h⟩
    unfold dropPlus
    split
    · exact .inr rfl
    · exact .inl rfl
  · rintro ⟨ds, h, h1, h2, h3⟩
    have : dropPlus text = ds := by
      rcases h with rfl | rfl
      · cases text with
        | nil => rfl
        | cons c cs =>
          unfold dropPlus
          split
          · next heq => 
            cases heq
            exact absurd (h2 '+' (by simp)) (by decide)
          · rfl
      · rfl
    rw [this]
    exact ⟨h1, h2, h3⟩

theorem checkServerFirst_eq_ok {cn input : Bytes} {sf : ServerFirst} {sn salt : Bytes} {it : UInt32} :
    checkServerFirst cn input = .ok (sf, sn, it, salt) ↔
      sf = ⟨cn ++ sn, none, sf.salt, sf.iterationCount⟩ ∧
      GoodServerFirst cn input sn sf.salt sf.iterationCount salt it := by
  unfold checkServerFirst
  constructor
  · intro h
    obtain ⟨m, h1, h⟩ := Outcome.bind_eq_ok.1 h
    rw [ServerFirst.parse_eq_ok] at h1
    obtain ⟨n1, n2, n3, n4, n5⟩ := h1
    cases hs : stripPrefix cn m.nonce with
    | none => rw [hs] at h; cases h
    | some x =>
      rw [hs] at h
      dsimp only at h
      rw [stripPrefix_eq_some] at hs
      split at h
      · cases h
      · next hne =>
        obtain ⟨text, h2, h⟩ := Outcome.bind_eq_ok.1 h
        rw [utf8_eq_ok] at h2
        cases hp : parseU32 text with
        | none => rw [hp] at h; cases h
        | some i =>
          rw [hp] at h
          dsimp only at h
          split at h
          · cases h
          · next hz =>
            cases hd : Base64.decode m.salt with
            | none => rw [hd] at h; cases h
            | some sa =>
              rw [hd] at h
              cases h
              obtain ⟨a, b, c, e⟩ := sf
              dsimp only at *
              subst n1 hs
              refine ⟨rfl, n5, by simpa using hne, ⟨n2, n3, n4⟩, hd, ⟨text, h2, hp⟩, hz⟩
  · rintro ⟨h1, h⟩
    obtain ⟨text, ht, hp⟩ := h.count
    refine Outcome.bind_eq_ok.2 ⟨sf, ServerFirst.parse_eq_ok.2 ⟨by rw [h1], ?_, h.commas.2.1,
      h.commas.2.2, ?_⟩, ?_⟩
    · rw [h1]; exact h.commas.1
    · rw [h.message]
      rw [show sf.nonce = cn ++ sn by rw [h1]]
      rfl
    · rw [show sf.nonce = cn ++ sn by rw [h1], stripPrefix_append]
      dsimp only
      rw [if_neg (by simpa using h.extends_)]
      refine Outcome.bind_eq_ok.2 ⟨text, utf8_eq_ok.2 ht, ?_⟩
      rw [hp]
      dsimp only
      rw [if_neg h.positive, h.salt]

theorem useCached_keeps {L : Event → Prop} {P : CS → Prop} (d : Digest) (c : CachedPassword) :
    Keeps L P (useCached d c) := by
  unfold useCached
  split
  · exact Keeps.pure _
  · exact Keeps.panic

theorem useSalted_keeps {L : Event → Prop} {P : CS → Prop} (d : Digest) (c : Bytes) :
    Keeps L P (useSalted d c) := by
  unfold useSalted
  split
  · exact Keeps.fail _
  · exact Keeps.pure _

/-- Events of requests for the secrets, all with salt and iteration count in the context. -/
def SecretEvent (salt : Bytes) (it : UInt32) : Event → Prop
  | .asked p ctx => p ∈ secrets ∧ ctx = clientProvider salt it
  | .answered p _ => p ∈ secrets
  | .evaluated _ => True
  | _ => False

theorem requests_secret {salt : Bytes} {it : UInt32} {p : Property} (h : p ∈ secrets) :
    Requests (SecretEvent salt it) p (clientProvider salt it) :=
  ⟨⟨h, rfl⟩, fun _ => h, fun _ => trivial⟩

theorem clientKeys_keeps {P : CS → Prop} (d : Digest) (env : Env) (salt : Bytes) (it : UInt32) :
    Keeps (SecretEvent salt it) P (clientKeys d env (clientProvider salt it) it salt) := by
  unfold clientKeys
  refine Keeps.bind (Keeps.maybeNeedWith (requests_secret (by decide)) (fun _ => useCached_keeps _ _))
    (fun r => ?_)
  cases r with
  | some keys => exact Keeps.pure _
  | none =>
    refine Keeps.bind (Keeps.maybeNeedWith (requests_secret (by decide))
      (fun _ => useSalted_keeps _ _)) (fun r => ?_)
    cases r with
    | some keys => exact Keeps.pure _
    | none => exact Keeps.needWith (requests_secret (by decide)) (fun _ => Keeps.pure _)

theorem clientKeys_ok {d : Digest} {env : Env} {salt : Bytes} {it : UInt32} {s s' : CS}
    {w w' : World} {ck sk : Bytes}
    (h : clientKeys d env (clientProvider salt it) it salt s w = (.ok (ck, sk), s', w')) :
    s' = s ∧ ck.length = d.outLen ∧ sk.length = d.outLen ∧
    ∃ es, w' = w.addLog es ∧ (∀ e ∈ es, SecretEvent salt it e) ∧
      Spec.KeysFrom d salt it es ck sk := by
  have hk := (clientKeys_keeps (P := fun x => x = s) d env salt it).ok rfl h
  obtain ⟨hs, es, hw, hL⟩ := hk
  refine ⟨hs, ?_⟩
  -- everything that was answered is in `es`
  have hmem : ∀ e, e ∈ w'.log → (e ∉ w.log → e ∈ es) := by
    intro e he hne
    rw [hw] at he
    exact (List.mem_append.1 he).resolve_left hne
  suffices hsuf : ck.length = d.outLen ∧ sk.length = d.outLen ∧
      ∃ es', w'.log = w.log ++ es' ∧ Spec.KeysFrom d salt it es' ck sk by
    obtain ⟨l1, l2, es', h1, h2⟩ := hsuf
    have : es' = es := by
      rw [hw, World.addLog_log] at h1
      exact (List.append_cancel_left h1).symm
    subst this
    exact ⟨l1, l2, es', hw, hL, h2⟩
  clear hmem hw hL es hs
  unfold clientKeys at h
  obtain ⟨r, s1, w1, h1, h⟩ := M.bind_eq_ok h
  cases r with
  | some keys =>
    cases h
    obtain ⟨c, es, es', w2, -, -, hf, e⟩ := maybeNeedWith_some h1
    unfold useCached at hf
    split at hf
    · next hlen =>
      cases hf
      refine ⟨hlen.1, hlen.2, (.asked .scramCachedPassword (clientProvider salt it) :: es ++
        [.answered .scramCachedPassword c]) ++ es', by rw [e]; simp, .inl ⟨c, by simp, rfl, rfl⟩⟩
    · cases hf
  | none =>
    obtain ⟨r, s2, w2, h2, h⟩ := M.bind_eq_ok h
    have k1 : Keeps (SecretEvent salt it) (fun _ => True) (maybeNeedWith env .scramCachedPassword
        (clientProvider salt it) (useCached d)) :=
      Keeps.maybeNeedWith (requests_secret (by decide)) (fun _ => useCached_keeps _ _)
    obtain ⟨-, es1, e1, -⟩ := k1.ok trivial h1
    cases r with
    | some keys =>
      cases h
      obtain ⟨c, es, es', w3, -, -, hf, e⟩ := maybeNeedWith_some h2
      unfold useSalted at hf
      split at hf
      · cases hf
      · cases hf
        refine ⟨d.hmac_length .., d.hmac_length .., es1 ++ ((.asked .saltedPassword
          (clientProvider salt it) :: es ++ [.answered .saltedPassword c]) ++ es'),
          by rw [e, e1]; simp, .inr (.inl ⟨c, by simp, rfl, rfl⟩)⟩
    | none =>
      have k2 : Keeps (SecretEvent salt it) (fun _ => True) (maybeNeedWith env .saltedPassword
          (clientProvider salt it) (useSalted d)) :=
        Keeps.maybeNeedWith (requests_secret (by decide)) (fun _ => useSalted_keeps _ _)
      obtain ⟨-, es2, e2, -⟩ := k2.ok trivial h2
      obtain ⟨c, es, es', w3, -, -, hf, e⟩ := needWith_ok h
      cases hf
      refine ⟨d.hmac_length .., d.hmac_length .., es1 ++ es2 ++ ((.asked .password
          (clientProvider salt it) :: es ++ [.answered .password c]) ++ es'),
          by rw [e, e2, e1]; simp, .inr (.inr ⟨c, by simp, rfl, rfl⟩)⟩

/-- The code's auth message is the RFC's. -/
theorem authMessage_eq (user : Str) (cn sn salt64 it64 cb64 : Bytes) :
    authMessage user cn sn salt64 it64 cb64 =
      Spec.authMessage (Spec.clientFirstBare user cn) (Spec.serverFirst (cn ++ sn) salt64 it64)
        (Spec.clientFinalBare cb64 (cn ++ sn)) := by
  simp [authMessage, Spec.authMessage, Spec.clientFirstBare, Spec.serverFirst, Spec.clientFinalBare]

/-- What a good second step of the client comes down to; `auth` is the RFC's auth message. -/
structure SentFinal (d : Digest) (cb64 cn : Bytes) (user : Str) (sf sn salt : Bytes) (it : UInt32)
    (w w' : World) (new : CState) (ck sk auth o : Bytes) (sched : List WResp) (es : List Event) :
    Prop where
  hauth : auth = Spec.authMessage (Spec.clientFirstBare user cn) sf
    (Spec.clientFinalBare cb64 (cn ++ sn))
  hck : ck.length = d.outLen
  hsk : sk.length = d.outLen
  hkeys : Spec.KeysFrom d salt it es ck sk
  hnew : new = .serverFirst (d.hmac sk auth) ck sk salt it
  hout : o <+: Spec.clientFinalBare cb64 (cn ++ sn) ++ b!",p=" ++
    Base64.encode (Spec.clientProof d ck auth)
  hall : Cooperative w.wr.sched → o = Spec.clientFinalBare cb64 (cn ++ sn) ++ b!",p=" ++
    Base64.encode (Spec.clientProof d ck auth)
  hworld : w' = World.after w o sched w.rng es

/-- The client's second step in every case: it refuses at once, or the server's message was good
and only the secrets are asked for. -/
theorem clientStep_second {d : Digest} {n : Nat} {env : Env} {input : Option Bytes}
    {cb64 cn : Bytes} {user : Str} {w w' : World} {o : Outcome State} {s' : CS}
    (h : clientStep d n env input (some (.clientFirst cb64 cn user)) w = (o, s', w')) :
    ((∀ st, o ≠ .ok st) ∧ s' = none ∧ w' = w ∧
      ¬ ∃ b sn salt64 it64 salt it, input = some b ∧ GoodServerFirst cn b sn salt64 it64 salt it) ∨
    ∃ b sn salt64 it64 salt it es, input = some b ∧ GoodServerFirst cn b sn salt64 it64 salt it ∧
      w'.log = w.log ++ es ∧ (∀ e ∈ es, SecretEvent salt it e) ∧
      (((∀ st, o ≠ .ok st) ∧ s' = none) ∨
       o = .ok .running ∧ ∃ new ck sk auth out sched, s' = some new ∧
        SentFinal d cb64 cn user b sn salt it w w' new ck sk auth out sched es) := by
  unfold clientStep at h
  rw [M.bind_ok (M.get_apply ..), M.bind_ok (M.set_apply ..)] at h
  dsimp only at h
  cases input with
  | none =>
    rw [M.bind_err (M.okOr_none ..)] at h
    cases h
    exact .inl ⟨nofun, rfl, rfl, fun ⟨_, _, _, _, _, _, h, _⟩ => nomatch h⟩
  | some b =>
    rw [M.bind_ok (M.okOr_some ..)] at h
    have hbad : (∀ x, checkServerFirst cn b ≠ .ok x) →
        ¬ ∃ b' sn salt64 it64 salt it, some b = some b' ∧
          GoodServerFirst cn b' sn salt64 it64 salt it := by
      rintro hx ⟨b', sn, salt64, it64, salt, it, hb, hg⟩
      cases hb
      exact hx (⟨cn ++ sn, none, salt64, it64⟩, sn, it, salt)
        (checkServerFirst_eq_ok.2 ⟨rfl, hg⟩)
    cases hc : checkServerFirst cn b with
    | err e =>
      unfold handleServerFirst at h
      rw [hc, M.bind_err (M.bind_err (M.liftOutcome_apply ..))] at h
      cases h
      exact .inl ⟨nofun, rfl, rfl, hbad (by rw [hc]; exact nofun)⟩
    | panic =>
      unfold handleServerFirst at h
      rw [hc, M.bind_panic (M.bind_panic (M.liftOutcome_apply ..))] at h
      cases h
      exact .inl ⟨nofun, rfl, rfl, hbad (by rw [hc]; exact nofun)⟩
    | ok x =>
      right
      obtain ⟨sf, sn, it, salt⟩ := x
      obtain ⟨hsf, hg⟩ := checkServerFirst_eq_ok.1 hc
      have hk := clientKeys_keeps (P := fun x => x = none) d env salt it none w rfl
      rcases hkeys : clientKeys d env (clientProvider salt it) it salt none w with ⟨r, s1, w1⟩
      rw [hkeys] at hk
      obtain ⟨hs1, es, hw1, hL⟩ := hk
      dsimp only at hs1 hw1
      refine ⟨b, sn, sf.salt, sf.iterationCount, salt, it, es, rfl, hg, ?_⟩
      have hm : handleServerFirst d env cb64 cn user b none w =
          (clientKeys d env (clientProvider salt it) it salt >>= fun x => do
            M.writeVectored (ClientFinal.ioslices ⟨cb64, sf.nonce, Base64.encode (xor x.1
              (computeSignatures d (d.hash x.1) x.2 user cn sn sf.salt sf.iterationCount cb64).1)⟩)
            pure (.serverFirst (computeSignatures d (d.hash x.1) x.2 user cn sn sf.salt
              sf.iterationCount cb64).2 x.1 x.2 salt it)) none w := by
        unfold handleServerFirst
        rw [hc, M.bind_ok (M.liftOutcome_apply ..)]
      cases r with
      | err e =>
        rw [M.bind_err hkeys] at hm
        rw [M.bind_err hm] at h
        cases h
        exact ⟨by rw [hw1]; rfl, hL, .inl ⟨nofun, hs1⟩⟩
      | panic =>
        rw [M.bind_panic hkeys] at hm
        rw [M.bind_panic hm] at h
        cases h
        exact ⟨by rw [hw1]; rfl, hL, .inl ⟨nofun, hs1⟩⟩
      | ok keys =>
        obtain ⟨ck, sk⟩ := keys
        obtain ⟨-, hck, hsk, es', hw1', -, hkf⟩ := clientKeys_ok hkeys
        have hes : es' = es := by
          have := congrArg World.log (hw1'.symm.trans hw1)
          simpa using this
        subst hes
        subst hs1
        rw [M.bind_ok hkeys] at hm
        dsimp only at hm
        have hnonce : sf.nonce = cn ++ sn := by rw [hsf]
        have hauth : authMessage user cn sn sf.salt sf.iterationCount cb64 =
            Spec.authMessage (Spec.clientFirstBare user cn) b
              (Spec.clientFinalBare cb64 (cn ++ sn)) := by
          rw [authMessage_eq, hg.message]
        unfold computeSignatures at hm
        dsimp only at hm
        rw [hauth, hnonce] at hm
        generalize haut : Spec.authMessage (Spec.clientFirstBare user cn) b
              (Spec.clientFinalBare cb64 (cn ++ sn)) = auth at hm
        have hflat : (ClientFinal.ioslices ⟨cb64, cn ++ sn, Base64.encode (xor ck
            (d.hmac (d.hash ck) auth))⟩).flatten = Spec.clientFinalBare cb64 (cn ++ sn) ++ b!",p=" ++
              Base64.encode (Spec.clientProof d ck auth) := by
          simp [ClientFinal.ioslices, Spec.clientFinalBare, Spec.clientProof, xor]
        rcases hwr : M.writeVectored (ClientFinal.ioslices ⟨cb64, cn ++ sn, Base64.encode (xor ck
            (d.hmac (d.hash ck) auth))⟩) (none : CS) w1 with ⟨r, s2, w2⟩
        cases r with
        | ok u =>
          obtain ⟨rfl, out, sched, ho1, -, ho3, e2⟩ := M.writeVectored_eq_ok hwr
          rw [M.bind_ok hwr] at hm
          rw [M.bind_ok hm, M.bind_ok (M.set_apply ..)] at h
          cases h
          rw [hflat] at ho1 ho3
          refine ⟨by rw [e2, hw1]; rfl, hL, .inr ⟨rfl, _, ck, sk, auth, out, sched, rfl, haut.symm,
            hck, hsk, hkf, rfl, ho1, fun hcw => ho3 (by rw [hw1]; exact hcw), ?_⟩⟩
          rw [e2, hw1]
          rfl
        | err e =>
          obtain ⟨k, sched, -, -, hx | ⟨e', hx⟩⟩ := M.writeVectored_cases (ClientFinal.ioslices
            ⟨cb64, cn ++ sn, Base64.encode (xor ck (d.hmac (d.hash ck) auth))⟩) (none : CS) w1
          · rw [hx] at hwr; cases hwr
          · rw [hx] at hwr
            cases hwr
            rw [M.bind_err hx] at hm
            rw [M.bind_err hm] at h
            cases h
            exact ⟨by rw [hw1]; rfl, hL, .inl ⟨nofun, rfl⟩⟩
        | panic =>
          obtain ⟨k, sched, -, -, hx | ⟨e', hx⟩⟩ := M.writeVectored_cases (ClientFinal.ioslices
            ⟨cb64, cn ++ sn, Base64.encode (xor ck (d.hmac (d.hash ck) auth))⟩) (none : CS) w1
          · rw [hx] at hwr; cases hwr
          · rw [hx] at hwr; cases hwr

/-! ## The third step -/

/-- The client's third step in every case. -/
theorem clientStep_third {d : Digest} {n : Nat} {env : Env} {input : Option Bytes}
    {v ck sk salt : Bytes} {it : UInt32} {w w' : World} {o : Outcome State} {s' : CS}
    (h : clientStep d n env input (some (.serverFirst v ck sk salt it)) w = (o, s', w')) :
    s' = none ∧
    ((input = some (b!"v=" ++ Base64.encode v) ∧ o = .ok (.finished .no) ∧
        ∃ es, w' = w.addLog (.notified .scramCachedPassword (clientProvider salt it) :: es) ∧
          (es = [] ∨ es = [.delivered .scramCachedPassword (⟨ck, sk⟩ : CachedPassword)])) ∨
     (input ≠ some (b!"v=" ++ Base64.encode v) ∧ (∀ st, o ≠ .ok st) ∧ w' = w)) := by
  unfold clientStep at h
  rw [M.bind_ok (M.get_apply ..), M.bind_ok (M.set_apply ..)] at h
  dsimp only at h
  cases input with
  | none =>
    rw [M.bind_err (M.okOr_none ..)] at h
    cases h
    exact ⟨rfl, .inr ⟨nofun, nofun, rfl⟩⟩
  | some b =>
    rw [M.bind_ok (M.okOr_some ..)] at h
    unfold handleServerFinal at h
    cases hp : ServerFinal.parse b with
    | err e =>
      rw [hp, M.bind_err (M.bind_err (M.liftOutcome_apply ..))] at h
      cases h
      refine ⟨rfl, .inr ⟨?_, nofun, rfl⟩⟩
      intro hb
      cases hb
      rw [ServerFinal.parse_eq_ok.2 (.inl ⟨_, rfl, rfl⟩)] at hp
      cases hp
    | panic =>
      rw [hp, M.bind_panic (M.bind_panic (M.liftOutcome_apply ..))] at h
      cases h
      refine ⟨rfl, .inr ⟨?_, nofun, rfl⟩⟩
      intro hb
      cases hb
      rw [ServerFinal.parse_eq_ok.2 (.inl ⟨_, rfl, rfl⟩)] at hp
      cases hp
    | ok m =>
      rcases ServerFinal.parse_eq_ok.1 hp with ⟨x, rfl, rfl⟩ | ⟨x, rfl, rfl⟩
      · rw [hp, M.bind_apply, M.bind_ok (M.liftOutcome_apply ..)] at h
        dsimp only at h
        cases hd : Base64.decode x with
        | none =>
          rw [hd] at h
          cases h
          refine ⟨rfl, .inr ⟨?_, nofun, rfl⟩⟩
          intro hb
          have hb := List.append_cancel_left (Option.some.inj hb)
          rw [hb, Base64.decode_encode] at hd
          cases hd
        | some v' =>
          rw [hd] at h
          dsimp only at h
          have hx := Base64.decode_eq_some_iff.1 hd
          by_cases hv : v = v'
          · rw [if_pos hv] at h
            subst hv hx
            obtain ⟨r, es, ha, hr, hes⟩ := action_log env .scramCachedPassword
              (clientProvider salt it) (⟨ck, sk⟩ : CachedPassword) (none : CS) w
            rw [M.bind_apply, M.attempt_apply, ha] at h
            cases r with
            | panic => exact absurd rfl hr
            | ok u => cases h; exact ⟨rfl, .inl ⟨rfl, rfl, es, rfl, hes⟩⟩
            | err e => cases h; exact ⟨rfl, .inl ⟨rfl, rfl, es, rfl, hes⟩⟩
          · rw [if_neg hv] at h
            cases h
            refine ⟨rfl, .inr ⟨?_, nofun, rfl⟩⟩
            intro hb
            have hb := List.append_cancel_left (Option.some.inj hb)
            rw [hb, Base64.decode_encode] at hd
            exact hv (Option.some.inj hd)
      · rw [hp, M.bind_apply, M.bind_ok (M.liftOutcome_apply ..)] at h
        cases h
        refine ⟨rfl, .inr ⟨?_, nofun, rfl⟩⟩
        intro hb
        have hb := congrArg List.head? (Option.some.inj hb)
        exact absurd hb (by simp)

end Scram

end Rsasl

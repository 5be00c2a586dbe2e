/-
C73: what `step64` hands to the outer writer.
-/
import Verif.Proofs.Encoder
import Verif.Proofs.Serves
import Verif.Props.Writers

namespace Rsasl

/-! ## Specification -/

/-- `step64` over an outer writer may end like this: the mechanism hands some non-empty buffers to
the encoder, gets the encoder's answers, and has written what the encoder took. (`write_all` never
passes on an empty buffer; the vectored writes of the mechanisms contain literals.) -/
def Spec.Over64 (m : Mech) (env : Env) (ses : Session m.S) (input : Option Bytes)
    (outer : List WResp) (reply : Reply State) (ses' : Session m.S) : Prop :=
  ∃ offered : List Bytes, (∀ b ∈ offered, b ≠ []) ∧
    ses.step64Over m env input outer offered =
      (reply, ses', ((Encoder.new ⟨[], outer⟩).serve offered).2.1)

/-- The full property: whatever the outer writer does, when `step64` returns `Ok` the outer writer
has been given the whole message in base64. -/
def Spec.Whole64 : Prop :=
  ∀ (deps : Deps) (st : Started), Spec.BuiltinServer deps st ∨ Spec.BuiltinClient deps st →
    ∀ (env : Env) (ses ses' : Session st.mech.S) (input : Option Bytes) (outer : List WResp)
      (reply : Reply State) (r : State),
      Spec.Over64 st.mech env ses input outer reply ses' → reply.res = .ok r →
      reply = (ses.step64 st.mech env ⟨input, []⟩).1

/-! ## Theorems -/

/-- The relation and the model of `step64` with a perfect outer writer. -/
theorem over64_step64 {m : Mech} {env : Env} {ses ses' : Session m.S} {input : Option Bytes}
    {outer : List WResp} {reply : Reply State} (h : Spec.Over64 m env ses input outer reply ses') :
    ∃ offered : List Bytes, (∀ b ∈ offered, b ≠ []) ∧
      reply.res = (ses.step64 m env ⟨input, ((Encoder.new ⟨[], outer⟩).serve offered).1⟩).1.res ∧
      ses' = (ses.step64 m env ⟨input, ((Encoder.new ⟨[], outer⟩).serve offered).1⟩).2 ∧
      (reply.out <+:
        (ses.step64 m env ⟨input, ((Encoder.new ⟨[], outer⟩).serve offered).1⟩).1.out) ∧
      (Unfailing ((Encoder.new ⟨[], outer⟩).serve offered).2.2.outer.sched → reply.out =
        (ses.step64 m env ⟨input, ((Encoder.new ⟨[], outer⟩).serve offered).1⟩).1.out) := by
  obtain ⟨offered, hne, h⟩ := h
  refine ⟨offered, hne, ?_⟩
  have hh := Encoder.serve_holds offered (Encoder.holds_new ⟨[], outer⟩)
  rw [List.nil_append] at hh
  have hp := Encoder.drop_prefix hh
  have ha := Encoder.drop_all hh
  unfold Session.step64Over at h
  unfold Session.step64
  rcases hs : (Encoder.new ⟨[], outer⟩).serve offered with ⟨resps, taken, enc⟩
  rw [hs] at h hp ha
  dsimp only at h hp ha ⊢
  rw [List.nil_append] at hp ha
  cases input with
  | none =>
    rcases hr : ses.step m env ⟨none, resps⟩ with ⟨r, s1⟩
    simp only [hr, Prod.mk.injEq] at h ⊢
    obtain ⟨rfl, rfl, rfl⟩ := h
    exact ⟨rfl, rfl, hp, ha⟩
  | some text =>
    dsimp only at h ⊢
    cases hd : Base64.decode text with
    | none =>
      rw [hd] at h
      simp only [Prod.mk.injEq] at h ⊢
      obtain ⟨rfl, rfl, rfl⟩ := h
      exact ⟨rfl, rfl, List.prefix_refl _, fun _ => rfl⟩
    | some bytes =>
      rw [hd] at h
      dsimp only at h ⊢
      rcases hr : ses.step m env ⟨some bytes, resps⟩ with ⟨r, s1⟩
      simp only [hr, Prod.mk.injEq] at h ⊢
      obtain ⟨rfl, rfl, rfl⟩ := h
      exact ⟨rfl, rfl, hp, ha⟩

theorem serve_unfailing (bs : List Bytes) {e : Encoder} (h : Unfailing e.outer.sched) :
    Unfailing (e.serve bs).2.2.outer.sched := by
  have hw : ∀ (w : Writer) (b : Bytes), Unfailing w.sched → Unfailing (w.write b).2.sched := by
    intro w b h
    rcases w with ⟨out, _ | ⟨⟨n⟩ | ⟨er⟩, s⟩⟩
    · exact h
    · exact fun r hr => h r (.tail _ hr)
    · exact fun r hr => h r (.tail _ hr)
  have he : ∀ (e : Encoder) (b : Bytes), Unfailing e.outer.sched →
      Unfailing (e.write b).2.outer.sched := by
    intro e b h
    unfold Encoder.write
    split
    · exact h
    split
    · have := hw e.outer e.pending h
      rcases hq : e.outer.write e.pending with ⟨_ | _, w⟩ <;> rw [hq] at this <;> exact this
    split
    · exact h
    dsimp only
    generalize Base64.encode _ = buf
    have := hw e.outer buf h
    rcases hq : e.outer.write buf with ⟨_ | _, w⟩ <;> rw [hq] at this <;> exact this
  induction bs generalizing e with
  | nil => exact h
  | cons b bs ih => exact ih (he e b h)

/-- C73: any mechanism, session, input and outer writer. For some answers of a writer, `step64`
returns what the step with those answers returns and the outer writer is given a prefix of the
base64 encoding of what that step wrote, and the whole encoding if the outer writer does not
fail: nothing is made up, reordered or padded twice, also on errors. -/
theorem C73 (m : Mech) (env : Env) (ses ses' : Session m.S) (input : Option Bytes)
    (outer : List WResp) (reply : Reply State)
    (h : Spec.Over64 m env ses input outer reply ses') :
    ∃ sched, reply.res = (ses.step64 m env ⟨input, sched⟩).1.res ∧
      ses' = (ses.step64 m env ⟨input, sched⟩).2 ∧
      reply.out <+: (ses.step64 m env ⟨input, sched⟩).1.out ∧
      (Unfailing outer → reply.out = (ses.step64 m env ⟨input, sched⟩).1.out) := by
  obtain ⟨offered, -, h1, h2, h3, h4⟩ := over64_step64 h
  exact ⟨_, h1, h2, h3, fun hu => h4 (serve_unfailing offered hu)⟩

/-- A step that ends alike with two writers does so in base64. -/
theorem step64_congr {m : Mech} {env : Env} {ses : Session m.S} {input : Option Bytes}
    {sched : List WResp}
    (h : ∀ i, ses.step m env ⟨i, sched⟩ = ses.step m env ⟨i, []⟩) :
    ses.step64 m env ⟨input, sched⟩ = ses.step64 m env ⟨input, []⟩ := by
  unfold Session.step64
  cases input with
  | none => dsimp only; rw [h]
  | some text =>
    dsimp only
    cases Base64.decode text with
    | none => rfl
    | some b => dsimp only; rw [h]

/-- C73: over an outer writer that takes 1024 bytes per call if offered, the built-in mechanisms
deliver what they deliver over a perfect one. -/
theorem C73_whole {deps : Deps} {st : Started}
    (hst : Spec.BuiltinServer deps st ∨ Spec.BuiltinClient deps st) (env : Env)
    (ses ses' : Session st.mech.S) (input : Option Bytes) (outer : List WResp)
    (ho : Roomy (fun _ => False) outer) (reply : Reply State)
    (h : Spec.Over64 st.mech env ses input outer reply ses') :
    (reply, ses') = ses.step64 st.mech env ⟨input, []⟩ := by
  obtain ⟨offered, hne, h1, h2, h3, h4⟩ := over64_step64 h
  have hr := Encoder.serve_roomy (F := fun _ => False) offered (e := Encoder.new ⟨[], outer⟩)
    (by simp [Encoder.new]) rfl ho hne
  have hc : Cooperative ((Encoder.new ⟨[], outer⟩).serve offered).1 := by
    intro r hr'
    rcases hr.1 r hr' with h | ⟨_, h, -⟩
    · exact h
    · exact h.elim
  have hu : Unfailing ((Encoder.new ⟨[], outer⟩).serve offered).2.2.outer.sched := by
    intro r hr' e he
    rcases hr.2 r hr' with ⟨n, -, h⟩ | ⟨_, h, -⟩
    · rw [h] at he; cases he
    · exact h.elim
  have hs := step64_congr (input := input)
    fun i => C22_short_writes hst env ses i _ hc
  rw [hs] at h1 h2 h4
  rw [h2]
  refine Prod.ext ?_ rfl
  have := h4 hu
  rcases reply with ⟨res, out⟩
  dsimp only at h1 this
  rw [h1, this]

/-- C73, partial: over an outer writer that takes 1024 bytes per call or fails, a built-in
mechanism returns an error of the writer, or the result of the perfect writer having delivered a
prefix of the message. Missing: the whole message (`C73_drop_false`), outer writers that take less
(`C73_short_false`), callbacks that swallow errors (as in `C22_swallow_false`). -/
theorem C73_partial {deps : Deps} {st : Started}
    (hst : Spec.BuiltinServer deps st ∨ Spec.BuiltinClient deps st) (env : Env)
    (henv : env.HandsOn FromWriter) (ses ses' : Session st.mech.S) (input : Option Bytes)
    (outer : List WResp) (ho : Roomy (fun _ => True) outer) (reply : Reply State)
    (h : Spec.Over64 st.mech env ses input outer reply ses') :
    (∃ e, reply.res = .err e ∧ FromWriter e) ∨
      (reply.res = (ses.step64 st.mech env ⟨input, []⟩).1.res ∧
        ses' = (ses.step64 st.mech env ⟨input, []⟩).2 ∧
        reply.out <+: (ses.step64 st.mech env ⟨input, []⟩).1.out ∧
        (Unfailing outer → reply.out = (ses.step64 st.mech env ⟨input, []⟩).1.out)) := by
  obtain ⟨offered, hne, h1, h2, h3, h4⟩ := over64_step64 h
  have hr := Encoder.serve_roomy (F := fun _ => True) offered (e := Encoder.new ⟨[], outer⟩)
    (by simp [Encoder.new]) rfl ho hne
  have hz : NeverZero ((Encoder.new ⟨[], outer⟩).serve offered).1 := by
    rintro r hr' rfl
    rcases hr.1 _ hr' with ⟨n, h⟩ | ⟨_, -, h⟩ <;> cases h
  have h4 := fun hu => h4 (serve_unfailing offered hu)
  have key := fun i => C22_partial hst env henv ses i _ hz
  simp only [stepWith] at key
  unfold Session.step64 at h1 h2 h3 h4 ⊢
  cases input with
  | none =>
    dsimp only at h1 h2 h3 h4 ⊢
    rcases key none with ⟨e, he, hf⟩ | he
    · exact .inl ⟨e, by rw [h1]; exact he, hf⟩
    · rw [he] at h1 h2 h3 h4
      exact .inr ⟨h1, h2, h3, h4⟩
  | some text =>
    dsimp only at h1 h2 h3 h4 ⊢
    cases hd : Base64.decode text with
    | none =>
      rw [hd] at h1 h2 h3 h4
      exact .inr ⟨h1, h2, h3, h4⟩
    | some b =>
      rw [hd] at h1 h2 h3 h4
      dsimp only at h1 h2 h3 h4 ⊢
      rcases key (some b) with ⟨e, he, hf⟩ | he
      · exact .inl ⟨e, by rw [h1]; exact he, hf⟩
      · rw [he] at h1 h2 h3 h4
        exact .inr ⟨h1, h2, h3, h4⟩

/-! ## The mechanisms' loops over the encoder

These justify `Spec.Over64`: what the two loops that mechanisms write with do over the encoder is
what they do, in the model of the mechanisms, over a writer that answers what the encoder
answers. -/

/-- C73: `write_all` into the encoder ends, with enough fuel. -/
theorem C73_write_all (fuel : Nat) (e : Encoder) (buf : Bytes) {base d : Bytes}
    (h : e.Holds base d) (hf : buf.length + e.outer.sched.length < fuel) :
    (e.writeAll fuel buf).1 ≠ .diverge ∧
    ∃ offered, (∀ b ∈ offered, b ≠ []) ∧ (e.serve offered).2.2 = (e.writeAll fuel buf).2 ∧
      ∀ out rest, (Writer.mk out ((e.serve offered).1 ++ rest)).writeAll buf =
        ((match (e.writeAll fuel buf).1 with
          | .err er => .error er
          | _ => .ok ()), ⟨out ++ (e.serve offered).2.1, rest⟩) :=
  have hd := e.writeAll_ends fuel buf hf
  ⟨hd, e.writeAll_serves fuel buf h hd⟩

/-- C73: `write_all_vectored` into the encoder. -/
theorem C73_write_all_vectored (fuel : Nat) (vw : VectoredWriter) (e : Encoder) {base d : Bytes}
    (h : e.Holds base d) (hr : vw.rest ≠ []) (hf : vw.rest.length < fuel) :
    ∃ offered, (∀ b ∈ offered, b ≠ []) ∧
      (e.serve offered).2.2 = (vw.writeAllOver fuel e).2.2 ∧
      ∀ out rest, vw.writeAllVectored ⟨out, (e.serve offered).1 ++ rest⟩ =
        ((vw.writeAllOver fuel e).1, (vw.writeAllOver fuel e).2.1,
          ⟨out ++ (e.serve offered).2.1, rest⟩) :=
  vw.writeAll_serves fuel e h hr hf

/-- C73: a step of a built-in mechanism over the encoder makes a definite number of calls with
definite buffers, none of them empty, and believes to have written what the encoder took in those
calls. What would be answered afterwards does not matter. -/
theorem C73_calls {deps : Deps} {st : Started}
    (hst : Spec.BuiltinServer deps st ∨ Spec.BuiltinClient deps st) (env : Env)
    (ses : Session st.mech.S) (input : Option Bytes) (outer : List WResp) :
    ∃ (offered : List Bytes) (res : Outcome State) (ses' : Session st.mech.S),
      (∀ b ∈ offered, b ≠ []) ∧
      ∀ rest, ses.step st.mech env
          ⟨input, ((Encoder.new ⟨[], outer⟩).serve offered).1 ++ rest⟩ =
        (⟨res, ((Encoder.new ⟨[], outer⟩).serve offered).2.1⟩, ses') := by
  obtain ⟨offered, h1, o, s', w', h2⟩ := ((builtin_code hst env).1 input).serves ses.st
    { wr := ⟨[], []⟩, rng := ses.rng, slot := ses.slot, log := ses.log } _ _ _
    (Encoder.holds_new ⟨[], outer⟩)
  refine ⟨offered, o, { st := s', slot := w'.slot, rng := w'.rng, log := w'.log }, h1,
    fun rest => ?_⟩
  unfold Session.step Session.exec
  rw [show _ = _ from h2 rest]
  rfl

/-- C73: whatever the outer writer answers, `step64` comes to an end, in one of the ways that
`Spec.Over64` allows. -/
theorem C73_total {deps : Deps} {st : Started}
    (hst : Spec.BuiltinServer deps st ∨ Spec.BuiltinClient deps st) (env : Env)
    (ses : Session st.mech.S) (input : Option Bytes) (outer : List WResp) :
    ∃ reply ses', Spec.Over64 st.mech env ses input outer reply ses' := by
  have key : ∀ input', ∃ (offered : List Bytes), (∀ b ∈ offered, b ≠ []) ∧
      (ses.step st.mech env ⟨input', ((Encoder.new ⟨[], outer⟩).serve offered).1⟩).1.out =
        ((Encoder.new ⟨[], outer⟩).serve offered).2.1 := by
    intro input'
    obtain ⟨offered, res, ses', h1, h2⟩ := C73_calls hst env ses input' outer
    have := h2 []
    rw [List.append_nil] at this
    exact ⟨offered, h1, by rw [this]⟩
  cases input with
  | none =>
    obtain ⟨offered, h1, h2⟩ := key none
    exact ⟨_, _, offered, h1, Prod.ext rfl (Prod.ext rfl h2)⟩
  | some text =>
    rcases hd : Base64.decode text with _ | bytes
    · refine ⟨⟨.err .base64, []⟩, ses, [], nofun, ?_⟩
      unfold Session.step64Over
      dsimp only [Encoder.serve]
      rw [hd]
    · obtain ⟨offered, h1, h2⟩ := key (some bytes)
      refine ⟨(ses.step64Over st.mech env (some text) outer offered).1,
        (ses.step64Over st.mech env (some text) outer offered).2.1, offered, h1, ?_⟩
      refine Prod.ext rfl (Prod.ext rfl ?_)
      unfold Session.step64Over
      simp only [hd]
      exact h2

/-! ## Counterexamples -/

theorem over64_of {m : Mech} {env : Env} {ses : Session m.S} {input : Option Bytes}
    {outer : List WResp} {res : Outcome State} {out : Bytes} (offered : List Bytes)
    (hne : ∀ b ∈ offered, b ≠ [])
    (hres : (ses.step64Over m env input outer offered).1.res = res)
    (hout : (ses.step64Over m env input outer offered).1.out = out)
    (ht : (ses.step64Over m env input outer offered).2.2 =
      ((Encoder.new ⟨[], outer⟩).serve offered).2.1) :
    ∃ ses', Spec.Over64 m env ses input outer ⟨res, out⟩ ses' := by
  subst hres hout
  exact ⟨_, offered, hne, Prod.ext rfl (Prod.ext rfl ht)⟩

/-- A callback that gives `me` as authorisation identity, `u` as user and `t` as token. -/
def env64 : Env := exampleEnv [⟨.authzId, c!"me"⟩, ⟨.authId, c!"u"⟩, ⟨.oauthBearerToken, c!"t"⟩]

/-- C73 is false over an outer writer that fails: the EXTERNAL client's two bytes wait in the
encoder until it is dropped, where the error is ignored. `step64` returns `Finished(Yes)`; nothing
was written. -/
theorem C73_drop_false : ¬ Spec.Whole64 ∧
    ∃ ses', Spec.Over64 External.client env64 { st := (), rng := fun _ => 0 } none
      [.fail (.other 5)] ⟨.ok (.finished .yes), []⟩ ses' := by
  have h : ∃ ses', Spec.Over64 External.client env64 { st := (), rng := fun _ => 0 } none
      [.fail (.other 5)] ⟨.ok (.finished .yes), []⟩ ses' :=
    over64_of [b!"me"] (by simp) (by decide +kernel) (by decide +kernel) (by decide +kernel)
  refine ⟨fun hw => ?_, h⟩
  obtain ⟨ses', h⟩ := h
  have := hw toyDeps ⟨External.client, ()⟩ (.inr ⟨.external, rfl⟩) env64 _ _ none _ _ _ h rfl
  have := congrArg Reply.out this
  revert this
  decide +kernel

/-- C73 is false over an outer writer that takes one byte of the first call and everything
afterwards. The encoder then answers `Ok(0)` once, which the vectored writer takes for success:
the XOAUTH2 client returns `Running` and has sent `uset\x01\x01`. -/
theorem C73_short_false : ¬ Spec.Whole64 ∧
    ∃ ses', Spec.Over64 XOAuth2.client env64 { st := .initial, rng := fun _ => 0 } none
      [.accept 1] ⟨.ok .running, Base64.encode (b!"uset\x01\x01")⟩ ses' := by
  have h : ∃ ses', Spec.Over64 XOAuth2.client env64 { st := .initial, rng := fun _ => 0 } none
      [.accept 1] ⟨.ok .running, Base64.encode (b!"uset\x01\x01")⟩ ses' :=
    over64_of [b!"user=", b!"r=", b!"t", [1, 1]] (by decide) (by decide +kernel)
      (by decide +kernel) (by decide +kernel)
  refine ⟨fun hw => ?_, h⟩
  obtain ⟨ses', h⟩ := h
  have := hw toyDeps ⟨XOAuth2.client, .initial⟩ (.inr ⟨.xoauth2, rfl⟩) env64 _ _ none _ _ _ h rfl
  have := congrArg Reply.out this
  revert this
  decide +kernel

/-- The XOAUTH2 client's first write over that writer. -/
def short64 : IoRes × VectoredWriter × Encoder :=
  (VectoredWriter.new [b!"user=", b!"u", b!"\x01auth=Bearer "]).writeAllOver 9
    (Encoder.new ⟨[], [.accept 1]⟩)

/-- The buffers in `C73_short_false` are the ones the vectored writer hands over: of the first
message part three bytes are taken, and it reports success. -/
example : short64.1 = .ok 3 ∧ short64.2.1.data = [b!"r=", b!"u", b!"\x01auth=Bearer "] ∧
    short64.2.2.pending = [] ∧ short64.2.2.extra = [] ∧ short64.2.2.outer.out = b!"dXNl" := by
  decide +kernel

/-- A mechanism that uses `write_all` gets `WriteZero` over the same writer. -/
example : ((Encoder.new ⟨[], [.accept 1]⟩).writeAll 9 (b!"user=")).1 = .err .writeZero := by
  decide +kernel

/-! ## Examples -/

/-- An outer writer as in `C73_whole`, and a step over it. -/
example : Roomy (fun _ => False) [.accept 1024, .accept 4096] ∧
    ∃ ses', Spec.Over64 XOAuth2.client env64 { st := .initial, rng := fun _ => 0 } none
      [.accept 1024, .accept 4096]
      ⟨.ok .running, Base64.encode (b!"user=u\x01auth=Bearer t\x01\x01")⟩ ses' := by
  refine ⟨?_, over64_of [b!"user=", b!"r=", b!"u", b!"\x01auth=Bearer ", b!" ", b!"t",
    [1, 1], [1]]
    (by decide) (by decide +kernel) (by decide +kernel) (by decide +kernel)⟩
  intro r hr
  simp only [List.mem_cons, List.not_mem_nil, or_false] at hr
  rcases hr with rfl | rfl
  · exact .inl ⟨1024, by omega, rfl⟩
  · exact .inl ⟨4096, by omega, rfl⟩

end Rsasl

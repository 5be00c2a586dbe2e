/-
C76: what a SCRAM client and a SCRAM server say to a message they do not like.
-/
import Verif.Spec.ScramAnswers
import Verif.Props.ScramGrammar
import Verif.Props.ScramServer
import Verif.Props.ScramClient
import Verif.Proofs.ScramExchange

namespace Rsasl

open Scram Spec

/-! ## The client -/

theorem decode_none {t : Bytes} (h : ∀ b, t ≠ Base64.encode b) : Base64.decode t = none := by
  cases hd : Base64.decode t with
  | none => rfl
  | some b => exact absurd (Base64.decode_eq_some_iff.1 hd) (h b)

theorem parseU32_none {t : Str} (h : ∀ n : UInt32, ¬ Decimal t n.toNat) : parseU32 t = none := by
  cases hd : parseU32 t with
  | none => rfl
  | some n => exact absurd (parseU32_iff.1 hd) (h n)

theorem fromUtf8_eq_none {b : Bytes} (h : ∀ s, b ≠ Str.bytes s) : fromUtf8 b = none := by
  cases hu : fromUtf8 b with
  | none => rfl
  | some s => exact absurd (bytes_of_fromUtf8 _ _ hu).symm (h s)

theorem checkServerFirst_fault {cn nonce salt64 count : Bytes} {e : SessionError}
    (hc : 44 ∉ nonce ∧ 44 ∉ salt64 ∧ 44 ∉ count) (h : FirstFault cn nonce salt64 count e) :
    checkServerFirst cn (serverFirst nonce salt64 count) = .err e := by
  have hp := (C53_server_first_partial (serverFirst nonce salt64 count) nonce salt64 count).2
    ⟨hc.1, hc.2.1, hc.2.2, rfl⟩
  unfold checkServerFirst
  rw [hp]
  show (match stripPrefix cn nonce with
    | none => Outcome.err (protoErr .invalidNonce)
    | some serverNonce => _) = _
  have hstrip : ∀ {sn}, nonce = cn ++ sn → stripPrefix cn nonce = some sn := stripPrefix_eq_some.2
  have hne : ∀ {sn : Bytes}, sn ≠ [] → sn.isEmpty = false := by simp
  cases h with
  | nonce h =>
    cases hs : stripPrefix cn nonce with
    | none => rfl
    | some sn =>
      have : sn = [] := Classical.byContradiction fun hsn => h sn hsn (stripPrefix_eq_some.1 hs)
      subst this
      rfl
  | text hn hs h =>
    simp only [hstrip hn, hne hs, Bool.false_eq_true, if_false]
    unfold utf8
    rw [fromUtf8_eq_none h]
    rfl
  | format hn hs ht h =>
    simp only [hstrip hn, hne hs, Bool.false_eq_true, if_false]
    unfold utf8
    rw [ht, fromUtf8_bytes]
    show (match parseU32 _ with | none => _ | some _ => _) = _
    rw [parseU32_none h]
    rfl
  | zero hn hs ht h =>
    simp only [hstrip hn, hne hs, Bool.false_eq_true, if_false]
    unfold utf8
    rw [ht, fromUtf8_bytes]
    show (match parseU32 _ with | none => _ | some _ => _) = _
    rw [(parseU32_iff (it := 0)).2 h]
    rfl
  | salt hn hs ht h0 hd h =>
    simp only [hstrip hn, hne hs, Bool.false_eq_true, if_false]
    unfold utf8
    rw [ht, fromUtf8_bytes]
    show (match parseU32 _ with | none => _ | some _ => _) = _
    rw [parseU32_iff.2 hd]
    simp only [if_neg h0, decode_none h]
    rfl

/-- C76: a client answers a server-first message with a fault by that fault's error; nothing is
written and nobody is asked. -/
theorem C76_client_first (d : Digest) (env : Env) (cb cn : Bytes) (user : Str) (w : World)
    (nonce salt64 count : Bytes) (hc : 44 ∉ nonce ∧ 44 ∉ salt64 ∧ 44 ∉ count) (e : SessionError)
    (h : FirstFault cn nonce salt64 count e) :
    (client d).step env (some (serverFirst nonce salt64 count)) (some (.clientFirst cb cn user)) w =
      (.err e, none, w) := by
  show M.bind (M.bind (M.liftOutcome (checkServerFirst _ _)) _) _ _ _ = _
  rw [checkServerFirst_fault hc h]
  rfl

/-- C76: a server-first message has a fault, or the client goes on to ask for the keys (`C28`). -/
theorem C76_client_first_total (cn nonce salt64 count : Bytes)
    (hc : 44 ∉ nonce ∧ 44 ∉ salt64 ∧ 44 ∉ count) :
    (∃ e, FirstFault cn nonce salt64 count e) ∨
    ∃ sn salt n, nonce = cn ++ sn ∧
      ServerParams cn (serverFirst nonce salt64 count) sn salt64 count salt n := by
  by_cases hn : ∃ sn, sn ≠ [] ∧ nonce = cn ++ sn
  · obtain ⟨sn, hs, hn⟩ := hn
    by_cases ht : ∃ t, count = Str.bytes t
    · obtain ⟨t, ht⟩ := ht
      by_cases hd : ∃ n : UInt32, Decimal t n.toNat
      · obtain ⟨n, hd⟩ := hd
        by_cases h0 : n = 0
        · subst h0
          exact .inl ⟨_, .zero hn hs ht hd⟩
        · by_cases h64 : ∃ s, salt64 = Base64.encode s
          · obtain ⟨s, h64⟩ := h64
            exact .inr ⟨sn, s, n, hn, by rw [hn], hs, by rw [← hn]; exact hc, h64, ⟨t, ht, hd⟩, h0⟩
          · exact .inl ⟨_, .salt hn hs ht h0 hd fun s h => h64 ⟨s, h⟩⟩
      · exact .inl ⟨_, .format hn hs ht fun n h => hd ⟨n, h⟩⟩
    · exact .inl ⟨_, .text hn hs fun t h => ht ⟨t, h⟩⟩
  · exact .inl ⟨_, .nonce fun sn hs h => hn ⟨sn, hs, h⟩⟩

/-- C76: a client answers a server-final message with a fault by that fault's error, and takes the
right one. -/
theorem C76_client_final (d : Digest) (env : Env) (sig ck sk salt : Bytes) (it : UInt32) (w : World)
    (input : Bytes) (e : SessionError) (h : FinalFault sig input e) :
    (client d).step env (some input) (some (.serverFirst sig ck sk salt it)) w = (.err e, none, w) := by
  show M.bind (M.bind (M.liftOutcome (ServerFinal.parse _)) _) _ _ _ = _
  cases h with
  | text hi h =>
    rw [(C53_server_final_partial _ _).2 (.inl ⟨_, rfl, hi⟩)]
    show M.bind (match Base64.decode _ with | none => _ | some _ => _) _ _ _ = _
    rw [decode_none h]
    rfl
  | wrong hi h =>
    rw [(C53_server_final_partial _ _).2 (.inl ⟨_, rfl, hi⟩)]
    show M.bind (match Base64.decode _ with | none => _ | some _ => _) _ _ _ = _
    rw [Base64.decode_encode]
    show M.bind (if sig = _ then _ else _) _ _ _ = _
    rw [if_neg (fun he => h he.symm)]
    rfl

/-! ## The server -/

/-- `judge` in the terms of the specification. -/
def told : Except SessionError (Except ServerErrorValue (FinalInner × Bytes)) → Judgement
  | .error e => .fail e
  | .ok (.error e) => .refuse (b!"e=" ++ e.bytes)
  | .ok (.ok (_, sig)) => .accept (b!"v=" ++ Base64.encode sig)

theorem judged_told {d : Digest} {data : Option FinalInner} {cb64 nonce proof64 : Bytes} {j : Judgement}
    (h : Judged d data cb64 nonce proof64 j) : told (judge d data ⟨cb64, nonce, proof64⟩) = j := by
  cases h with
  | unknown => rfl
  | cbText h =>
    unfold judge
    simp only [decode_none h]
    rfl
  | binding h =>
    unfold judge
    simp only [Base64.decode_encode, ne_eq, if_pos (Ne.symm h)]
    rfl
  | @nonce f nonce _ h =>
    unfold judge
    simp only [Base64.decode_encode, ne_eq, not_true_eq_false, if_false]
    cases hs : stripPrefix f.clientNonce nonce with
    | none => rfl
    | some r =>
      have hr : ¬ r = f.serverNonce := by
        rintro rfl
        exact h (stripPrefix_eq_some.1 hs)
      simp only [hr, false_and, if_false]
      rfl
  | @long f _ h =>
    unfold judge
    simp only [Base64.decode_encode, ne_eq, not_true_eq_false, if_false, stripPrefix_append,
      Nat.not_le.2 h, and_false]
    rfl
  | @proofText f proof64 h hb =>
    unfold judge
    have hd : Base64.decodeSlice d.outLen proof64 = none := by
      unfold Base64.decodeSlice
      cases hd : Base64.decode proof64 with
      | none => rfl
      | some b => exact if_neg fun hl => hb b hl (Base64.decode_eq_some_iff.1 hd)
    simp only [Base64.decode_encode, ne_eq, not_true_eq_false, if_false, stripPrefix_append, h, and_self,
      if_true, hd]
    rfl
  | @wrong f given h hl hp =>
    unfold judge
    have hd : Base64.decodeSlice d.outLen (Base64.encode given) =
        some (given ++ List.replicate (d.outLen - given.length) 0) := by
      unfold Base64.decodeSlice
      rw [Base64.decode_encode]
      exact if_pos h
    simp only [Base64.decode_encode, ne_eq, not_true_eq_false, if_false, stripPrefix_append, hl, and_self,
      if_true, hd, computeSignatures, authMessage_eq]
    rw [if_neg]
    · rfl
    · exact fun he => hp he.symm
  | @right f given h hl hp =>
    unfold judge
    have hd : Base64.decodeSlice d.outLen (Base64.encode given) =
        some (given ++ List.replicate (d.outLen - given.length) 0) := by
      unfold Base64.decodeSlice
      rw [Base64.decode_encode]
      exact if_pos h
    simp only [Base64.decode_encode, ne_eq, not_true_eq_false, if_false, stripPrefix_append, hl, and_self,
      if_true, hd, computeSignatures, authMessage_eq]
    rw [if_pos]
    · rfl
    · exact hp.symm

/-- C76: every client-final message is judged in exactly one way. -/
theorem C76_server_total (d : Digest) (data : Option FinalInner) (cb64 nonce proof64 : Bytes) :
    ∃ j, Judged d data cb64 nonce proof64 j ∧ ∀ j', Judged d data cb64 nonce proof64 j' → j' = j := by
  suffices h : ∃ j, Judged d data cb64 nonce proof64 j by
    obtain ⟨j, h⟩ := h
    exact ⟨j, h, fun j' h' => (judged_told h').symm.trans (judged_told h)⟩
  cases data with
  | none => exact ⟨_, .unknown⟩
  | some f =>
    by_cases h1 : ∃ b, cb64 = Base64.encode b
    · obtain ⟨b, rfl⟩ := h1
      by_cases h2 : b = f.gs2Header
      · subst h2
        by_cases h3 : nonce = f.clientNonce ++ f.serverNonce
        · subst h3
          by_cases h4 : proof64.length ≤ d.outLen * 4 / 3 + 3
          · by_cases h5 : ∃ given : Bytes, given.length ≤ d.outLen ∧ proof64 = Base64.encode given
            · obtain ⟨given, h5, rfl⟩ := h5
              by_cases h6 : Proves d f given
              · exact ⟨_, .right h5 h4 h6⟩
              · exact ⟨_, .wrong h5 h4 h6⟩
            · exact ⟨_, .proofText h4 fun b hb h => h5 ⟨b, hb, h⟩⟩
          · exact ⟨_, .long (by omega)⟩
        · exact ⟨_, .nonce h3⟩
      · exact ⟨_, .binding h2⟩
    · exact ⟨_, .cbText fun b h => h1 ⟨b, h⟩⟩

/-- C76: a server fails with the error, or finishes saying the text, or says the text and validates the
client's names, by the judgement on the client-final message. Without validation the callbacks are
not called. -/
theorem C76_server_final (d : Digest) (env : Env) (ses : Session SS) (data : Option FinalInner)
    (hst : ses.st = some (.waitingClientFinal data)) (cb64 nonce proof64 : Bytes) (exts : List Bytes)
    (hc : 44 ∉ cb64 ∧ 44 ∉ nonce ∧ 44 ∉ proof64) (hx : ∀ e ∈ exts, Skipped e) (sched : List WResp)
    (hw : Cooperative sched) (j : Judgement) (hj : Judged d data cb64 nonce proof64 j) :
    let r := ses.step (server d) env ⟨some (clientFinalBare cb64 nonce ++ tail exts ++ b!",p=" ++ proof64),
      sched⟩
    match j with
    | .fail e => r = (⟨.err e, []⟩, { ses with st := none })
    | .refuse text => r = (⟨.ok (.finished .yes), text⟩, { ses with st := some .finished })
    | .accept text => ∃ f, data = some f ∧
        EndsValidated env ses (serverProvider f.username f.authzid) (.finished .yes) text r := by
  have hp := (C53_client_final_partial _ cb64 nonce proof64).2 ⟨hc.1, hc.2.1, hc.2.2, exts, hx, rfl⟩
  generalize clientFinalBare cb64 nonce ++ tail exts ++ b!",p=" ++ proof64 = b at hp
  have htold := judged_told hj
  obtain ⟨st, slot, rng, log⟩ := ses
  cases hst
  rcases hr : judge d data ⟨cb64, nonce, proof64⟩ with e | (e | ⟨f, sig⟩)
  · rw [hr] at htold
    subst htold
    refine step_of (m := server d) (ses := ⟨some (.waitingClientFinal data), slot, rng, log⟩)
      (c := ⟨some b, sched⟩) (w' := ⟨⟨[], sched⟩, rng, slot, log⟩) ?_
    show M.bind (M.bind (M.liftOutcome (ClientFinal.parse _)) _) _ _ _ = _
    rw [hp]
    show M.bind (M.bind (M.lift (judge _ _ _)) _) _ _ _ = _
    rw [hr]
    rfl
  · rw [hr] at htold
    subst htold
    obtain ⟨sc, hsc, hw⟩ := M.writeVectored_cooperative (ServerFinal.ioslices (.error e)) (none : SS)
      ⟨⟨[], sched⟩, rng, slot, log⟩ hw
    refine (step_of (m := server d) (ses := ⟨some (.waitingClientFinal data), slot, rng, log⟩)
      (c := ⟨some b, sched⟩) (o := .ok (.finished .yes)) (s' := some .finished)
      (w' := ⟨⟨b!"e=" ++ e.bytes, sc⟩, rng, slot, log⟩) ?_)
    show M.bind (M.bind (M.liftOutcome (ClientFinal.parse _)) _) _ _ _ = _
    rw [hp]
    show M.bind (M.bind (M.lift (judge _ _ _)) _) _ _ _ = _
    rw [hr]
    show M.bind (M.writeVectored (ServerFinal.ioslices (.error e))) _ _ _ = _
    refine (M.bind_ok hw).trans ?_
    simp only [ServerFinal.ioslices, List.flatten_cons, List.flatten_nil, List.append_nil, List.nil_append]
    rfl
  · rw [hr] at htold
    subst htold
    obtain ⟨rfl, -⟩ := judge_ok hr
    exact ⟨f, rfl, (server_second_right rfl hp hr hw).1⟩

/-! ## Examples -/

/-- Faults of a server-first message: a nonce that is the client's, a count of zero. -/
example : FirstFault (b!"abc") (b!"abc") (b!"AAAA") (b!"4096")
    (.mechanismError (.scramProtocol .invalidNonce)) :=
  .nonce fun sn hs h => hs (List.append_right_eq_self.1 h.symm)

example : FirstFault (b!"abc") (b!"abcd") (b!"AAAA") (b!"0")
    (.mechanismError (.scramProtocol .iterationCountZero)) :=
  .zero (sn := b!"d") rfl (by decide) (t := c!"0") (by decide +kernel)
    ⟨c!"0", .inl rfl, by decide, by decide, by decide⟩

example : FinalFault (b!"xyz") (b!"v=AA==") .mutualAuthenticationFailed :=
  .wrong (b := [0]) (by decide +kernel) (by decide)

/-- What a server keeps of a first message. -/
def exampleKept : FinalInner :=
  { clientNonce := b!"abc", serverNonce := b!"def", gs2Header := b!"n,,", username := c!"user",
    authzid := none, salt := b!"AAAA", iterations := b!"4096", storedKey := [1], serverKey := [2] }

example : Judged toyDigest (some exampleKept) (b!"biws") (b!"abcxyz") (b!"AA==")
    (.refuse (b!"e=invalid-proof")) := by
  have : b!"biws" = Base64.encode exampleKept.gs2Header := by decide +kernel
  rw [this]
  exact .nonce (by decide)

end Rsasl

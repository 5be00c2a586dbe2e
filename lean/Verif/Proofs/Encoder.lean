/-
The base64 encoder as a writer: what it has handed on, holds back and still owes.
-/
import Verif.Model.Encoder
import Verif.Proofs.Io
import Verif.Spec.Io
import Verif.Proofs.Base64

namespace Rsasl

namespace Base64

/-- Whole triples are encoded on their own. -/
theorem encode_append {a : Bytes} (h : a.length % 3 = 0) (b : Bytes) :
    encode (a ++ b) = encode a ++ encode b := by
  induction a using encode.induct with
  | case1 => simp [encode]
  | case2 x => simp at h
  | case3 x y => simp at h
  | case4 x y z rest ih =>
    simp only [List.length_cons] at h
    simp only [List.cons_append, encode]
    rw [ih (by omega)]

end Base64

/-- What the encoder has taken: whole triples, which are written or pending, and up to two more
bytes. -/
structure Encoder.Holds (e : Encoder) (base d : Bytes) : Prop where
  few : e.extra.length < 3
  owes : ∃ a, d = a ++ e.extra ∧ a.length % 3 = 0 ∧
    e.outer.out ++ e.pending = base ++ Base64.encode a

theorem Encoder.holds_new (w : Writer) : (Encoder.new w).Holds w.out [] :=
  ⟨by simp [Encoder.new], [], by simp [Encoder.new], rfl, by simp [Encoder.new, Base64.encode]⟩

/-- What a writer has after one call. -/
theorem Writer.write_out (w : Writer) (b : Bytes) :
    (∃ n, n ≤ b.length ∧ (w.write b).1 = .ok n ∧ (w.write b).2.out = w.out ++ b.take n) ∨
      (∃ e, (w.write b).1 = .error e ∧ (w.write b).2.out = w.out) := by
  rcases w with ⟨out, _ | ⟨⟨n⟩ | ⟨e⟩, s⟩⟩
  · exact .inl ⟨b.length, Nat.le_refl _, rfl, by simp [Writer.write]⟩
  · exact .inl ⟨min n b.length, Nat.min_le_right .., rfl, by
      simp [Writer.write, List.take_eq_take_min]⟩
  · exact .inr ⟨e, rfl, rfl⟩

/-- What a call to the encoder took. -/
def takenBy (b : Bytes) : Except IoErr Nat → Bytes
  | .ok n => b.take n
  | .error _ => []

theorem Encoder.write_holds {e : Encoder} {base d : Bytes} (h : e.Holds base d) (b : Bytes) :
    (e.write b).2.Holds base (d ++ takenBy b (e.write b).1) ∧
      ∀ n, (e.write b).1 = .ok n → n ≤ b.length := by
  obtain ⟨hf, a, hd, ha, ho⟩ := h
  unfold Encoder.write
  by_cases h1 : b = []
  · rw [if_pos h1]
    exact ⟨⟨hf, a, by simp [takenBy, hd], ha, ho⟩, fun n hn => by cases hn; omega⟩
  rw [if_neg h1]
  by_cases h2 : e.pending ≠ []
  · rw [if_pos h2]
    rcases e.outer.write_out e.pending with ⟨n, hn, h3, h4⟩ | ⟨er, h3, h4⟩
    · rcases hw : e.outer.write e.pending with ⟨r, w⟩
      rw [hw] at h3 h4
      dsimp only at h3 h4 ⊢
      subst h3
      refine ⟨⟨hf, a, by simp [takenBy, hd], ha, ?_⟩, fun n hn => by cases hn; omega⟩
      rw [h4]
      simpa using ho
    · rcases hw : e.outer.write e.pending with ⟨r, w⟩
      rw [hw] at h3 h4
      dsimp only at h3 h4 ⊢
      subst h3
      refine ⟨⟨hf, a, by simp [takenBy, hd], ha, ?_⟩, fun n hn => by cases hn⟩
      rw [h4]
      exact ho
  rw [if_neg h2]
  have hp : e.pending = [] := Classical.not_not.mp h2
  by_cases h3 : e.extra.length + b.length < 3
  · rw [if_pos h3]
    refine ⟨⟨by simp; omega, a, ?_, ha, ho⟩, fun n hn => by cases hn; omega⟩
    simp [takenBy, hd]
  rw [if_neg h3]
  dsimp only
  generalize hfill : (if e.extra = [] then 0 else 3 - e.extra.length) = fill
  generalize hroom : (if e.extra = [] then 768 else 765) = room
  have hroom3 : room % 3 = 0 := by subst hroom; split <;> rfl
  have hfl : fill ≤ b.length := by subst hfill; split <;> omega
  have hfe : (e.extra ++ b.take fill).length % 3 = 0 := by
    rw [List.length_append, List.length_take, Nat.min_eq_left hfl]
    subst hfill
    split
    · rename_i h; simp [h]
    · rw [show e.extra.length + (3 - e.extra.length) = 3 by omega]
  generalize hn : min ((b.drop fill).length / 3 * 3) room = n
  have hnl : n ≤ b.length - fill := by
    rw [List.length_drop] at hn
    omega
  have hn3 : n % 3 = 0 := by
    rw [Nat.min_def] at hn
    split at hn <;> omega
  have hx : (e.extra ++ b.take fill ++ (b.drop fill).take n).length % 3 = 0 := by
    rw [List.length_append, List.length_take, List.length_drop]
    omega
  have ht : b.take (fill + n) = b.take fill ++ (b.drop fill).take n := by
    rw [List.take_add]
  generalize hbuf : Base64.encode (e.extra ++ b.take fill ++ (b.drop fill).take n) = buf
  rcases e.outer.write_out buf with ⟨k, hk, h4, h5⟩ | ⟨er, h4, h5⟩
  · rcases hw : e.outer.write buf with ⟨r, w⟩
    rw [hw] at h4 h5
    dsimp only at h4 h5 ⊢
    subst h4
    refine ⟨⟨by simp, a ++ (e.extra ++ b.take fill ++ (b.drop fill).take n), ?_, ?_, ?_⟩,
      fun m hm => by cases hm; omega⟩
    · simp [takenBy, hd, ht]
    · rw [List.length_append]; omega
    · dsimp only
      rw [h5, Base64.encode_append ha, hbuf, List.append_assoc, List.take_append_drop]
      rw [hp, List.append_nil] at ho
      rw [ho, List.append_assoc]
  · rcases hw : e.outer.write buf with ⟨r, w⟩
    rw [hw] at h4 h5
    dsimp only at h4 h5 ⊢
    subst h4
    refine ⟨⟨hf, a, by simp [takenBy, hd], ha, ?_⟩, fun n hn => by cases hn⟩
    dsimp only
    rw [h5]
    exact ho

theorem Encoder.serve_holds (bs : List Bytes) {e : Encoder} {base d : Bytes} (h : e.Holds base d) :
    (e.serve bs).2.2.Holds base (d ++ (e.serve bs).2.1) := by
  induction bs generalizing e d with
  | nil => simpa [Encoder.serve] using h
  | cons b bs ih =>
    have h1 := (e.write_holds h b).1
    unfold Encoder.serve
    rcases hw : e.write b with ⟨r, e'⟩
    rw [hw] at h1
    have h2 := ih h1
    dsimp only at h2 ⊢
    rcases hs : e'.serve bs with ⟨rs, t, e''⟩
    rw [hs] at h2
    dsimp only at h2 ⊢
    rw [List.append_assoc] at h2
    cases r <;> exact h2

/-! ## Dropping the encoder -/

/-- Flushing writes a prefix. -/
theorem flushGo_out (s : List WResp) (out p : Bytes) :
    (flushGo s out p).2.out ++ (flushGo s out p).1 = out ++ p := by
  induction s, out, p using flushGo.induct with
  | case1 => simp [flushGo]
  | case2 => simp [flushGo]
  | case3 out n s b buf ih =>
    rw [flushGo, ih, List.append_assoc, List.take_append_drop]
  | case4 out s b buf ih => rw [flushGo, ih]
  | case5 => simp [flushGo]

/-- A writer that does not fail is flushed completely. -/
def Unfailing (sched : List WResp) : Prop := ∀ r ∈ sched, ∀ e, r = .fail e → e = .interrupted

theorem flushGo_all (s : List WResp) (out p : Bytes) (h : Unfailing s) :
    (flushGo s out p).1 = [] ∧ Unfailing (flushGo s out p).2.sched := by
  induction s, out, p using flushGo.induct with
  | case1 s => exact ⟨by simp [flushGo], by simpa [flushGo] using h⟩
  | case2 => exact ⟨rfl, fun r hr => nomatch hr⟩
  | case3 out n s b buf ih =>
    rw [flushGo]
    exact ih fun r hr => h r (.tail _ hr)
  | case4 out s b buf ih =>
    rw [flushGo]
    exact ih fun r hr => h r (.tail _ hr)
  | case5 e s out b buf hne => exact absurd (h _ (.head _) _ rfl) hne

/-- After the drop the outer writer has a prefix of the encoding of what was taken. -/
theorem Encoder.drop_prefix {e : Encoder} {base d : Bytes} (h : e.Holds base d) :
    e.drop.out <+: base ++ Base64.encode d := by
  obtain ⟨hf, a, hd, ha, ho⟩ := h
  have h1 := flushGo_out e.outer.sched e.outer.out e.pending
  rw [hd, Base64.encode_append ha, ← List.append_assoc, ← ho]
  unfold Encoder.drop
  rcases hw : flushGo e.outer.sched e.outer.out e.pending with ⟨p, w⟩
  rw [hw] at h1
  dsimp only at h1 ⊢
  cases p with
  | nil =>
    dsimp only
    rw [← h1, List.append_nil]
    exact ⟨_, flushGo_out w.sched w.out (Base64.encode e.extra)⟩
  | cons x p =>
    dsimp only
    rw [← h1, List.append_assoc]
    exact List.prefix_append _ _

/-- All of it, if the writer does not fail any more. -/
theorem Encoder.drop_all {e : Encoder} {base d : Bytes} (h : e.Holds base d)
    (hu : Unfailing e.outer.sched) : e.drop.out = base ++ Base64.encode d := by
  obtain ⟨hf, a, hd, ha, ho⟩ := h
  have h1 := flushGo_out e.outer.sched e.outer.out e.pending
  obtain ⟨h2, h3⟩ := flushGo_all e.outer.sched e.outer.out e.pending hu
  rw [hd, Base64.encode_append ha, ← List.append_assoc, ← ho]
  unfold Encoder.drop
  rcases hw : flushGo e.outer.sched e.outer.out e.pending with ⟨p, w⟩
  rw [hw] at h1 h2 h3
  dsimp only at h1 h2 h3 ⊢
  subst h2
  dsimp only
  have h4 := flushGo_out w.sched w.out (Base64.encode e.extra)
  rw [(flushGo_all _ w.out (Base64.encode e.extra) h3).1, List.append_nil] at h4
  rw [h4, ← h1, List.append_nil]

/-! ## Outer writers that take a whole buffer of the encoder -/

/-- Each call takes at least 1024 bytes, the size of the encoder's buffer, if it is offered as
many, or fails with an error in `F`. -/
def Roomy (F : IoErr → Prop) (sched : List WResp) : Prop :=
  ∀ r ∈ sched, (∃ n, 1024 ≤ n ∧ r = .accept n) ∨ ∃ e, F e ∧ r = .fail e

theorem Writer.write_roomy {F : IoErr → Prop} (w : Writer) (h : Roomy F w.sched) (b : Bytes)
    (hb : b.length ≤ 1024) :
    Roomy F (w.write b).2.sched ∧
      ((w.write b).1 = .ok b.length ∨ ∃ e, F e ∧ (w.write b).1 = .error e) := by
  rcases w with ⟨out, _ | ⟨r, s⟩⟩
  · exact ⟨h, .inl rfl⟩
  · have hs : Roomy F s := fun r hr => h r (.tail _ hr)
    unfold Writer.write
    rcases h r (.head _) with ⟨n, hn, rfl⟩ | ⟨e, he, rfl⟩
    · exact ⟨hs, .inl (by dsimp only; rw [Nat.min_eq_right (by omega)])⟩
    · exact ⟨hs, .inr ⟨e, he, rfl⟩⟩

theorem Encoder.write_roomy {F : IoErr → Prop} {e : Encoder} (hf : e.extra.length < 3)
    (hp : e.pending = []) (h : Roomy F e.outer.sched) {b : Bytes} (hb : b ≠ []) :
    (e.write b).2.extra.length < 3 ∧ (e.write b).2.pending = [] ∧
      Roomy F (e.write b).2.outer.sched ∧
      ((∃ n, (e.write b).1 = .ok (n + 1)) ∨ ∃ er, F er ∧ (e.write b).1 = .error er) := by
  have hbl : 0 < b.length := List.length_pos_iff.mpr hb
  unfold Encoder.write
  rw [if_neg hb, if_neg (fun h => h hp)]
  by_cases h3 : e.extra.length + b.length < 3
  · rw [if_pos h3]
    exact ⟨by simp; omega, hp, h, .inl ⟨b.length - 1, by
      dsimp only; rw [Nat.sub_add_cancel hbl]⟩⟩
  rw [if_neg h3]
  dsimp only
  generalize hfill : (if e.extra = [] then 0 else 3 - e.extra.length) = fill
  generalize hroom : (if e.extra = [] then 768 else 765) = room
  have hfl : fill ≤ b.length := by subst hfill; split <;> omega
  generalize hn : min ((b.drop fill).length / 3 * 3) room = n
  have hnp : 0 < fill + n := by
    rw [List.length_drop] at hn
    subst hfill hroom
    split at hn
    · rename_i h0
      simp only [h0, List.length_nil, ite_true] at *
      omega
    · rename_i h0
      rw [if_neg h0]
      omega
  have hlen : (e.extra ++ b.take fill ++ (b.drop fill).take n).length ≤ 768 := by
    simp only [List.length_append, List.length_take, List.length_drop]
    rw [List.length_drop] at hn
    subst hfill hroom
    split at hn
    · rename_i h0
      simp only [h0, List.length_nil, ite_true] at *
      omega
    · rename_i h0
      rw [if_neg h0]
      omega
  have hbuf : (Base64.encode (e.extra ++ b.take fill ++ (b.drop fill).take n)).length ≤ 1024 := by
    rw [Base64.length_encode]
    omega
  obtain ⟨h5, h6⟩ := e.outer.write_roomy h _ hbuf
  rcases hw : e.outer.write (Base64.encode (e.extra ++ b.take fill ++ (b.drop fill).take n))
    with ⟨r, w⟩
  rw [hw] at h5 h6
  dsimp only at h5 h6
  rcases h6 with rfl | ⟨er, her, rfl⟩
  · exact ⟨by simp, by simp, h5, .inl ⟨fill + n - 1, by dsimp only; rw [Nat.sub_add_cancel hnp]⟩⟩
  · exact ⟨hf, hp, h5, .inr ⟨er, her, rfl⟩⟩

/-- Over such a writer the encoder never answers `Ok(0)`. -/
theorem Encoder.serve_roomy {F : IoErr → Prop} (bs : List Bytes) {e : Encoder}
    (hf : e.extra.length < 3) (hp : e.pending = []) (h : Roomy F e.outer.sched)
    (hb : ∀ b ∈ bs, b ≠ []) :
    (∀ r ∈ (e.serve bs).1, (∃ n, r = .accept (n + 1)) ∨ ∃ er, F er ∧ r = .fail er) ∧
      Roomy F (e.serve bs).2.2.outer.sched := by
  induction bs generalizing e with
  | nil => exact ⟨fun r hr => (nomatch hr), h⟩
  | cons b bs ih =>
    obtain ⟨h1, h2, h3, h4⟩ := e.write_roomy hf hp h (hb b (.head _))
    unfold Encoder.serve
    rcases hw : e.write b with ⟨r, e'⟩
    rw [hw] at h1 h2 h3 h4
    dsimp only at h1 h2 h3 h4 ⊢
    obtain ⟨h5, h6⟩ := ih h1 h2 h3 fun b hb' => hb b (.tail _ hb')
    refine ⟨fun x hx => ?_, h6⟩
    rcases List.mem_cons.mp hx with rfl | hx
    · rcases h4 with ⟨n, rfl⟩ | ⟨er, her, rfl⟩
      · exact .inl ⟨n, rfl⟩
      · exact .inr ⟨er, her, rfl⟩
    · exact h5 x hx

/-! ## The loops of the mechanisms over the encoder -/

/-- `write_all` over the encoder is `write_all` over a writer that answers what the encoder
answers. -/
theorem Encoder.writeAll_serves (fuel : Nat) (e : Encoder) (buf : Bytes) {base d : Bytes}
    (h : e.Holds base d) (hd : (e.writeAll fuel buf).1 ≠ .diverge) :
    ∃ offered, (∀ b ∈ offered, b ≠ []) ∧ (e.serve offered).2.2 = (e.writeAll fuel buf).2 ∧
      ∀ out rest, writeAllGo ((e.serve offered).1 ++ rest) out buf =
        ((match (e.writeAll fuel buf).1 with
          | .err er => .error er
          | _ => .ok ()), ⟨out ++ (e.serve offered).2.1, rest⟩) := by
  induction fuel generalizing e buf d with
  | zero => exact absurd rfl hd
  | succ fuel ih =>
    rw [Encoder.writeAll] at hd ⊢
    by_cases hb : buf = []
    · subst hb
      rw [if_pos rfl] at hd ⊢
      exact ⟨[], fun _ h => (nomatch h), rfl, fun out rest => by simp [Encoder.serve, writeAllGo]⟩
    rw [if_neg hb] at hd ⊢
    obtain ⟨x, xs, rfl⟩ := List.exists_cons_of_ne_nil hb
    obtain ⟨h1, h2⟩ := e.write_holds h (x :: xs)
    rcases hw : e.write (x :: xs) with ⟨r, e'⟩
    rw [hw] at hd h1 h2
    dsimp only at h1 h2
    rcases r with er | n
    · by_cases hi : er = .interrupted
      · subst hi
        dsimp only at hd ⊢
        obtain ⟨off, h3, h4, h5⟩ := ih e' (x :: xs) h1 hd
        refine ⟨(x :: xs) :: off, ?_, ?_, fun out rest => ?_⟩
        · intro b hb'
          rcases List.mem_cons.mp hb' with rfl | hb'
          · exact hb
          · exact h3 b hb'
        · rw [Encoder.serve, hw]; exact h4
        · rw [Encoder.serve, hw]
          simp only [WResp.of, List.cons_append, writeAllGo, List.nil_append]
          exact h5 out rest
      · refine ⟨[x :: xs], by simp, ?_, fun out rest => ?_⟩
        · rw [Encoder.serve, hw]
          cases er <;> first | rfl | exact absurd rfl hi
        · rw [Encoder.serve, hw]
          simp only [WResp.of, Encoder.serve, List.append_nil, List.cons_append, List.nil_append]
          cases er <;> first | rfl | exact absurd rfl hi
    · cases n with
      | zero =>
        refine ⟨[x :: xs], by simp, by rw [Encoder.serve, hw]; rfl, fun out rest => ?_⟩
        rw [Encoder.serve, hw]
        simp [WResp.of, Encoder.serve, writeAllGo]
      | succ n =>
        dsimp only at hd ⊢
        obtain ⟨off, h3, h4, h5⟩ := ih e' _ h1 hd
        refine ⟨(x :: xs) :: off, ?_, ?_, fun out rest => ?_⟩
        · intro b hb'
          rcases List.mem_cons.mp hb' with rfl | hb'
          · exact hb
          · exact h3 b hb'
        · rw [Encoder.serve, hw]; exact h4
        · rw [Encoder.serve, hw]
          simp only [WResp.of, List.cons_append, writeAllGo]
          rw [h5]
          simp

/-- A call only uses up answers of the outer writer, and one that fails uses one up. -/
theorem Encoder.write_sched (e : Encoder) (b : Bytes) :
    (e.write b).2.outer.sched.length ≤ e.outer.sched.length ∧
      ∀ er, (e.write b).1 = .error er → (e.write b).2.outer.sched.length < e.outer.sched.length := by
  have key : ∀ c : Bytes, ∀ r w, e.outer.write c = (r, w) → w.sched.length ≤ e.outer.sched.length ∧
      ∀ er, r = .error er → w.sched.length < e.outer.sched.length := by
    intro c r w h
    cases r with
    | error er =>
      have := Writer.write_error h
      exact ⟨by omega, fun _ _ => by omega⟩
    | ok n => exact ⟨(Writer.write_ok h).2.2.1.length_le, fun _ h => nomatch h⟩
  unfold Encoder.write
  split
  · exact ⟨Nat.le_refl _, fun _ h => nomatch h⟩
  split
  · rcases h : e.outer.write e.pending with ⟨_ | _, w⟩
    · exact ⟨(key _ _ _ h).1, fun _ _ => (key _ _ _ h).2 _ rfl⟩
    · exact ⟨(key _ _ _ h).1, fun _ h => nomatch h⟩
  split
  · exact ⟨Nat.le_refl _, fun _ h => nomatch h⟩
  · dsimp only
    generalize Base64.encode _ = buf
    rcases h : e.outer.write buf with ⟨_ | _, w⟩
    · exact ⟨(key _ _ _ h).1, fun _ _ => (key _ _ _ h).2 _ rfl⟩
    · exact ⟨(key _ _ _ h).1, fun _ h => nomatch h⟩

/-- `write_all` over the encoder ends. -/
theorem Encoder.writeAll_ends (fuel : Nat) (e : Encoder) (buf : Bytes)
    (h : buf.length + e.outer.sched.length < fuel) : (e.writeAll fuel buf).1 ≠ .diverge := by
  induction fuel generalizing e buf with
  | zero => omega
  | succ fuel ih =>
    rw [Encoder.writeAll]
    split
    · exact nofun
    next hb =>
    obtain ⟨h1, h2⟩ := e.write_sched buf
    rcases hw : e.write buf with ⟨r, e'⟩
    rw [hw] at h1 h2
    dsimp only at h1 h2
    rcases r with er | n
    · have := h2 er rfl
      cases er <;> first | exact ih e' buf (by omega) | exact fun h => nomatch h
    · cases n with
      | zero => exact nofun
      | succ n =>
        refine ih e' _ ?_
        have := List.length_pos_iff.mpr hb
        rw [List.length_drop]
        omega

theorem take_first (bufs : List Bytes) {n : Nat}
    (h : n ≤ ((bufs.find? (· ≠ [])).getD []).length) :
    bufs.flatten.take n = ((bufs.find? (· ≠ [])).getD []).take n ∧ n ≤ bufs.flatten.length := by
  induction bufs with
  | nil => simpa using h
  | cons b bufs ih =>
    by_cases hb : b = []
    · subst hb
      simpa using ih (by simpa using h)
    · rw [List.find?_cons_of_pos (by simpa using hb)] at h ⊢
      simp only [Option.getD_some] at h ⊢
      simp only [List.flatten_cons, List.length_append]
      exact ⟨by rw [List.take_append_of_le_length h], by omega⟩

theorem first_ne_nil {bufs : List Bytes} (h : bufs.flatten ≠ []) :
    (bufs.find? (· ≠ [])).getD [] ≠ [] := by
  induction bufs with
  | nil => exact absurd rfl h
  | cons b bufs ih =>
    by_cases hb : b = []
    · subst hb
      simpa using ih (by simpa using h)
    · rw [List.find?_cons_of_pos (by simpa using hb)]
      exact hb

/-- One call of the vectored writer. -/
theorem VectoredWriter.inner_serves (vw : VectoredWriter) (bufs : List Bytes) (e e' : Encoder)
    {base d : Bytes} (h : e.Holds base d) (hs : vw.skip < vw.data.length) (out b : Bytes)
    (r : Except IoErr Nat) (rs : List WResp)
    (hb : ((bufs.drop vw.skip).find? (· ≠ [])).getD [] = b) (hw : e.write b = (r, e')) :
    vw.writeVectoredInner bufs ⟨out, WResp.of r :: rs⟩ =
      ((vw.innerOver bufs e).1, (vw.innerOver bufs e).2.1, (vw.innerOver bufs e).2.2.1,
        ⟨out ++ takenBy b r, rs⟩) ∧
      (vw.innerOver bufs e).2.2.2 = e' := by
  have h2 := (e.write_holds h b).2
  rw [hw] at h2
  unfold VectoredWriter.writeVectoredInner VectoredWriter.innerOver Encoder.writeVectored
  rw [if_neg (by omega), if_neg (by omega), hb, hw]
  rcases r with er | n
  · simp [WResp.of, Writer.write, takenBy]
  · have hn := h2 n rfl
    rw [← hb] at hn
    obtain ⟨h3, h4⟩ := take_first (bufs.drop vw.skip) hn
    rw [hb] at h3
    simp only [WResp.of, Writer.write, takenBy]
    rw [Nat.min_eq_left h4, h3]
    rcases countRemove n (vw.data.drop vw.skip) 0 0 with ⟨rem, acc⟩
    dsimp only
    split
    · split <;> exact ⟨rfl, rfl⟩
    · exact ⟨rfl, rfl⟩

/-- The loop. -/
theorem VectoredWriter.loop_serves (fuel : Nat) (vw : VectoredWriter) (bufs : List Bytes)
    (written : Nat) (e : Encoder) {base d : Bytes} (h : e.Holds base d)
    (hs : vw.skip < vw.data.length) (hbufs : bufs.drop vw.skip = vw.data.drop vw.skip)
    (hlen : bufs.length = vw.data.length) (hr : vw.rest ≠ []) (hf : vw.rest.length < fuel) :
    ∃ offered, (∀ b ∈ offered, b ≠ []) ∧
      (e.serve offered).2.2 = (vw.loopOver fuel bufs written e).2.2 ∧
      ∀ out more rest, vw.loop ((e.serve offered).1.length + more + 1) bufs written
          ⟨out, (e.serve offered).1 ++ rest⟩ =
        ((vw.loopOver fuel bufs written e).1, (vw.loopOver fuel bufs written e).2.1,
          ⟨out ++ (e.serve offered).2.1, rest⟩) := by
  induction fuel generalizing vw bufs written e d with
  | zero => omega
  | succ fuel ih =>
    rw [VectoredWriter.loopOver]
    generalize hb : ((bufs.drop vw.skip).find? (· ≠ [])).getD [] = b
    have hbn : b ≠ [] := by
      rw [← hb]
      exact first_ne_nil (by rw [hbufs]; exact hr)
    rcases hw : e.write b with ⟨r, e'⟩
    have h1 := (e.write_holds h b).1
    rw [hw] at h1
    have key := fun out rs => vw.inner_serves bufs e e' h hs out b r rs hb hw
    have spec := writeVectoredInner_spec vw bufs ⟨[], [WResp.of r]⟩ hs hbufs hlen
    rw [(key [] []).1] at spec
    rcases hi : vw.innerOver bufs e with ⟨res, vw', bufs', e''⟩
    simp only [hi] at key spec
    have he : e'' = e' := (key [] []).2
    subst he
    have stop : ∀ bs, e.serve (b :: bs) =
        (WResp.of r :: (e''.serve bs).1, takenBy b r ++ (e''.serve bs).2.1, (e''.serve bs).2.2) := by
      intro bs
      rw [Encoder.serve, hw]
      cases r <;> rfl
    rcases spec with ⟨er, w', heq, -⟩ | ⟨n, vw2, bufs2, w', heq, hn, -, hrest, -, -, -, hne, hb', hl', hd'⟩
    · cases heq
      refine ⟨[b], by simpa using hbn, by rw [stop]; rfl, fun out more rest => ?_⟩
      rw [stop, VectoredWriter.loop, List.cons_append, (key out _).1]
      simp [Encoder.serve]
    · simp only [Prod.mk.injEq] at heq
      obtain ⟨rfl, rfl, rfl, -⟩ := heq
      dsimp only
      by_cases hl : n = 0
      · rw [if_pos hl]
        refine ⟨[b], by simpa using hbn, by rw [stop]; rfl, fun out more rest => ?_⟩
        rw [stop, VectoredWriter.loop, List.cons_append, (key out _).1]
        simp [Encoder.serve, hl]
      · rw [if_neg hl]
        by_cases hk : vw'.skip < vw'.data.length
        · rw [if_pos hk]
          obtain ⟨off, h3, h4, h5⟩ := ih vw' bufs' (written + n) e'' h1 hk hb' hl' (hne hk)
            (by rw [hrest, List.length_drop]; omega)
          refine ⟨b :: off, ?_, by rw [stop]; exact h4, fun out more rest => ?_⟩
          · intro c hc
            rcases List.mem_cons.mp hc with rfl | hc
            · exact hbn
            · exact h3 c hc
          rw [stop, VectoredWriter.loop, List.cons_append, (key out _).1]
          dsimp only
          rw [if_neg hl, if_pos hk]
          have := h5 (out ++ takenBy b r) more rest
          rw [List.length_cons, show (e''.serve off).1.length + 1 + more
            = (e''.serve off).1.length + more + 1 by omega, this, List.append_assoc]
        · rw [if_neg hk]
          refine ⟨[b], by simpa using hbn, by rw [stop]; rfl, fun out more rest => ?_⟩
          rw [stop, VectoredWriter.loop, List.cons_append, (key out _).1]
          simp [Encoder.serve, hl, hk]

/-- `write_all_vectored` over the encoder is `write_all_vectored` over a writer that answers what
the encoder answers. -/
theorem VectoredWriter.writeAll_serves (fuel : Nat) (vw : VectoredWriter) (e : Encoder)
    {base d : Bytes} (h : e.Holds base d) (hr : vw.rest ≠ []) (hf : vw.rest.length < fuel) :
    ∃ offered, (∀ b ∈ offered, b ≠ []) ∧
      (e.serve offered).2.2 = (vw.writeAllOver fuel e).2.2 ∧
      ∀ out rest, vw.writeAllVectored ⟨out, (e.serve offered).1 ++ rest⟩ =
        ((vw.writeAllOver fuel e).1, (vw.writeAllOver fuel e).2.1,
          ⟨out ++ (e.serve offered).2.1, rest⟩) := by
  have hs : vw.skip < vw.data.length := by
    refine Nat.lt_of_not_le fun hs => hr ?_
    rw [VectoredWriter.rest, List.drop_eq_nil_of_le hs]
    rfl
  unfold VectoredWriter.writeAllOver
  rw [if_neg (by omega)]
  obtain ⟨off, h1, h2, h3⟩ := vw.loop_serves fuel vw.data 0 e h hs rfl rfl hr hf
  refine ⟨off, h1, h2, fun out rest => ?_⟩
  unfold VectoredWriter.writeAllVectored
  rw [if_neg (by omega)]
  have := h3 out rest.length rest
  rwa [← List.length_append] at this

end Rsasl

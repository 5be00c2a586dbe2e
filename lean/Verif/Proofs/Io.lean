/-
Lemmas on writers.
-/
import Verif.Spec.Io

namespace Rsasl

/-! ## `write_all` -/

theorem writeAllGo_out (s : List WResp) (out buf : Bytes) :
    ∃ n, n ≤ buf.length ∧ (writeAllGo s out buf).2.out = out ++ buf.take n ∧
      ((writeAllGo s out buf).1 = .ok () → n = buf.length) ∧
      (writeAllGo s out buf).2.sched <:+ s ∧
      (Patient s → (writeAllGo s out buf).1 = .ok ()) := by
  fun_induction writeAllGo s out buf with
  | case1 s out => exact ⟨0, by simp⟩
  | case2 out b buf => exact ⟨(b :: buf).length, by simp⟩
  | case3 s out b buf =>
    refine ⟨0, by simp, by simp, by simp, List.suffix_cons _ _, fun h => ?_⟩
    rcases h _ (List.mem_cons_self ..) with ⟨n, h⟩ | h <;> simp at h
  | case4 n s out b buf ih =>
    obtain ⟨k, hk, ho, hok, hs, hp⟩ := ih
    refine ⟨min (n + 1) (b :: buf).length + k, ?_, ?_, ?_, ?_, ?_⟩
    · simp only [List.length_drop] at hk; omega
    · rw [ho, List.append_assoc]
      congr 1
      by_cases hl : n + 1 ≤ (b :: buf).length
      · rw [Nat.min_eq_left hl, List.take_add (i := n + 1)]
      · have hl' : (b :: buf).length ≤ n + 1 := by omega
        rw [List.drop_eq_nil_of_le hl', List.take_of_length_le hl', List.take_nil,
          List.append_nil, List.take_of_length_le (by omega)]
    · intro h
      have := hok h
      simp only [List.length_drop] at this; omega
    · exact hs.trans (List.suffix_cons _ _)
    · exact fun h => hp (fun r hr => h r (List.mem_cons_of_mem _ hr))
  | case5 s out b buf ih =>
    obtain ⟨k, hk, ho, hok, hs, hp⟩ := ih
    exact ⟨k, hk, ho, hok, hs.trans (List.suffix_cons _ _),
      fun h => hp (fun r hr => h r (List.mem_cons_of_mem _ hr))⟩
  | case6 e s out b buf hne =>
    refine ⟨0, by simp, by simp, by simp, List.suffix_cons _ _, fun h => ?_⟩
    rcases h _ (List.mem_cons_self ..) with ⟨n, h⟩ | h
    · simp at h
    · simp at h; exact (hne h).elim

theorem Writer.writeAll_ok {w w' : Writer} {buf : Bytes} (h : w.writeAll buf = (.ok (), w')) :
    w'.out = w.out ++ buf := by
  obtain ⟨n, hn, ho, hok, hs, hp⟩ := writeAllGo_out w.sched w.out buf
  rw [Writer.writeAll] at h
  rw [h] at ho hok
  rw [ho, hok rfl, List.take_length]

theorem Writer.writeAll_prefix (w : Writer) (buf : Bytes) :
    ∃ n, n ≤ buf.length ∧ (w.writeAll buf).2.out = w.out ++ buf.take n := by
  obtain ⟨n, hn, ho, _⟩ := writeAllGo_out w.sched w.out buf
  exact ⟨n, hn, ho⟩

theorem Writer.writeAll_sched (w : Writer) (buf : Bytes) :
    (w.writeAll buf).2.sched <:+ w.sched := by
  obtain ⟨n, hn, ho, hok, hs, hp⟩ := writeAllGo_out w.sched w.out buf
  exact hs

theorem Writer.writeAll_patient {w : Writer} (h : Patient w.sched) (buf : Bytes) :
    ∃ s, s <:+ w.sched ∧ w.writeAll buf = (.ok (), ⟨w.out ++ buf, s⟩) := by
  obtain ⟨n, hn, ho, hok, hs, hp⟩ := writeAllGo_out w.sched w.out buf
  have hp := hp h
  have := hok hp
  subst this
  rw [List.take_length] at ho
  refine ⟨_, hs, ?_⟩
  rw [Writer.writeAll, ← hp, ← ho]

theorem Patient.suffix {s s' : List WResp} (h : Patient s) (hs : s' <:+ s) : Patient s' :=
  fun r hr => h r (hs.mem hr)

theorem Cooperative.suffix {s s' : List WResp} (h : Cooperative s) (hs : s' <:+ s) :
    Cooperative s' := fun r hr => h r (hs.mem hr)

/-! ## The vectored writer -/

theorem Writer.write_error {w w' : Writer} {b : Bytes} {e : IoErr}
    (h : w.write b = (.error e, w')) :
    w'.out = w.out ∧ w'.sched.length + 1 = w.sched.length ∧ w'.sched <:+ w.sched ∧
      ¬ Cooperative w.sched := by
  obtain ⟨out, sched⟩ := w
  cases sched with
  | nil => simp [Writer.write] at h
  | cons r s =>
    cases r with
    | accept n => simp [Writer.write] at h
    | fail e' =>
      simp only [Writer.write, Prod.mk.injEq] at h
      obtain ⟨_, rfl⟩ := h
      refine ⟨rfl, rfl, List.suffix_cons _ _, fun hc => ?_⟩
      obtain ⟨n, hn⟩ := hc _ (List.mem_cons_self ..)
      cases hn

theorem Writer.write_ok {w w' : Writer} {b : Bytes} {n : Nat}
    (h : w.write b = (.ok n, w')) :
    n ≤ b.length ∧ w'.out = w.out ++ b.take n ∧ w'.sched <:+ w.sched ∧
      (w'.sched.length + 1 = w.sched.length ∨ n = b.length) ∧
      (NeverZero w.sched → b ≠ [] → 0 < n) := by
  obtain ⟨out, sched⟩ := w
  cases sched with
  | nil =>
    simp only [Writer.write, Prod.mk.injEq, Except.ok.injEq] at h
    obtain ⟨rfl, rfl⟩ := h
    refine ⟨Nat.le_refl _, by simp, List.suffix_refl _, .inr rfl, fun _ hb => ?_⟩
    cases b with
    | nil => exact absurd rfl hb
    | cons => simp
  | cons r s =>
    cases r with
    | fail e' => simp [Writer.write] at h
    | accept k =>
      simp only [Writer.write, Prod.mk.injEq, Except.ok.injEq] at h
      obtain ⟨rfl, rfl⟩ := h
      refine ⟨Nat.min_le_right _ _, ?_, List.suffix_cons _ _, .inl rfl, fun hc hb => ?_⟩
      · congr 1
        by_cases hk : k ≤ b.length
        · rw [Nat.min_eq_left hk]
        · rw [Nat.min_eq_right (by omega), List.take_of_length_le (by omega), List.take_length]
      · have hn := hc _ (List.mem_cons_self ..)
        cases k with
        | zero => exact absurd rfl hn
        | succ k =>
          cases b with
          | nil => exact absurd rfl hb
          | cons => simp

/-- Which buffers the `for` loop counts: those that end at or before `len`. -/
theorem countRemove_spec (len : Nat) (bufs : List Bytes) (r a : Nat) (ha : a ≤ len) :
    ∃ k, k ≤ bufs.length ∧
      countRemove len bufs r a = (r + k, a + (bufs.take k).flatten.length) ∧
      a + (bufs.take k).flatten.length ≤ len ∧
      ∀ h : k < bufs.length, len < a + (bufs.take k).flatten.length + (bufs[k]).length := by
  induction bufs generalizing r a with
  | nil => exact ⟨0, by simp, by simp [countRemove], by simpa, fun h => by simp at h⟩
  | cons b bs ih =>
    by_cases hlt : a + b.length > len
    · exact ⟨0, by simp, by simp [countRemove, hlt], by simpa, fun h => by simpa using hlt⟩
    · obtain ⟨k, hk, he, hle, hgt⟩ := ih (r + 1) (a + b.length) (by omega)
      refine ⟨k + 1, by simpa using hk, ?_, ?_, ?_⟩
      · simp only [countRemove, if_neg hlt, he, List.take_succ_cons, List.flatten_cons,
          List.length_append]
        rw [Nat.add_right_comm r 1 k, Nat.add_assoc r k 1, Nat.add_assoc]
      · simp only [List.take_succ_cons, List.flatten_cons, List.length_append]; omega
      · intro h
        have := hgt (by simpa using h)
        simp only [List.take_succ_cons, List.flatten_cons, List.length_append,
          List.getElem_cons_succ]
        omega

/-- One inner call: either an error with nothing changed, or `n` bytes of the rest delivered. -/
theorem writeVectoredInner_spec (vw : VectoredWriter) (bufs : List Bytes) (w : Writer)
    (hskip : vw.skip < vw.data.length) (hbufs : bufs.drop vw.skip = vw.data.drop vw.skip)
    (hlen : bufs.length = vw.data.length) :
    (∃ e w', vw.writeVectoredInner bufs w = (.err e, vw, bufs, w') ∧
      w'.out = w.out ∧ w'.sched <:+ w.sched ∧ ¬ Cooperative w.sched) ∨
    (∃ n vw' bufs' w', vw.writeVectoredInner bufs w = (.ok n, vw', bufs', w') ∧
      n ≤ vw.rest.length ∧ w'.out = w.out ++ vw.rest.take n ∧ vw'.rest = vw.rest.drop n ∧
      w'.sched <:+ w.sched ∧ (w'.sched.length + 1 = w.sched.length ∨ n = vw.rest.length) ∧
      (NeverZero w.sched → vw.rest ≠ [] → 0 < n) ∧
      (vw'.skip < vw'.data.length → vw'.rest ≠ []) ∧
      bufs'.drop vw'.skip = vw'.data.drop vw'.skip ∧ bufs'.length = vw'.data.length ∧
      vw'.data.length = vw.data.length) := by
  obtain ⟨skip, data⟩ := vw
  simp only at hskip hbufs hlen
  have hr : (bufs.drop skip).flatten = VectoredWriter.rest ⟨skip, data⟩ := by
    simp [VectoredWriter.rest, hbufs]
  unfold VectoredWriter.writeVectoredInner
  simp only
  rw [if_neg (by omega), hr]
  rcases hw : w.write (VectoredWriter.rest ⟨skip, data⟩) with ⟨_ | n, w'⟩
  · left
    obtain ⟨h1, h2, h3, h4⟩ := Writer.write_error hw
    exact ⟨_, _, rfl, h1, h3, h4⟩
  · right
    obtain ⟨h1, h2, h3, h4, h5⟩ := Writer.write_ok hw
    obtain ⟨k, hk, he, hle, hgt⟩ := countRemove_spec n (data.drop skip) 0 0 (by omega)
    simp only [Nat.zero_add] at he hle hgt
    simp only [he]
    have hrest : VectoredWriter.rest ⟨skip, data⟩ =
        ((data.drop skip).take k).flatten ++ (data.drop (skip + k)).flatten := by
      rw [VectoredWriter.rest, ← List.flatten_append, ← List.drop_drop, List.take_append_drop]
    by_cases hlt : skip + k < data.length
    · rw [dif_pos hlt]
      have hkl : k < (data.drop skip).length := by simp; omega
      have hget : (data.drop skip)[k] = data[skip + k] := by simp
      have hgt := hgt hkl
      rw [hget] at hgt
      have hle' : n - ((data.drop skip).take k).flatten.length ≤ (data[skip + k]).length := by
        omega
      rw [if_pos hle']
      refine ⟨n, _, _, w', rfl, h1, h2, ?_, h3, h4, h5, ?_, ?_, ?_, ?_⟩
      · rw [hrest]
        rw [List.drop_append, List.drop_eq_nil_of_le hle, List.nil_append]
        simp only [VectoredWriter.rest]
        rw [List.drop_eq_getElem_cons (by simpa using hlt), List.getElem_set_self]
        rw [List.drop_eq_getElem_cons hlt]
        simp only [List.flatten_cons]
        rw [List.drop_append_of_le_length hle', List.drop_set_of_lt (by omega)]
      · intro _
        simp only [VectoredWriter.rest]
        rw [List.drop_eq_getElem_cons (by simpa using hlt), List.getElem_set_self]
        simp only [List.flatten_cons]
        intro h
        have := congrArg List.length h
        simp only [List.length_append, List.length_drop, List.length_nil] at this
        omega
      · have : bufs.drop (skip + k) = data.drop (skip + k) := by
          rw [← List.drop_drop, hbufs, List.drop_drop]
        generalize (data[skip + k]).drop _ = cur
        simp only
        rw [List.drop_set, List.drop_set, if_neg (by omega), if_neg (by omega), this]
      · simp [hlen]
      · simp
    · rw [dif_neg hlt]
      refine ⟨n, _, _, w', rfl, h1, h2, ?_, h3, h4, h5, ?_, ?_, hlen, rfl⟩
      · rw [hrest]
        have : data.drop (skip + k) = [] := List.drop_eq_nil_of_le (by omega)
        rw [this, List.flatten_nil, List.append_nil]
        rw [List.drop_eq_nil_of_le hle]
        simp [VectoredWriter.rest, this]
      · exact fun h => absurd h hlt
      · simp only
        rw [List.drop_eq_nil_of_le (by omega), List.drop_eq_nil_of_le (by omega)]

/-- What the loop does, for every schedule. -/
theorem vloop_spec (fuel : Nat) (vw : VectoredWriter) (bufs : List Bytes) (written : Nat)
    (w : Writer) (hfuel : w.sched.length < fuel)
    (hskip : vw.skip < vw.data.length) (hbufs : bufs.drop vw.skip = vw.data.drop vw.skip)
    (hlen : bufs.length = vw.data.length) :
    ∃ n, n ≤ vw.rest.length ∧
      (VectoredWriter.loop fuel vw bufs written w).2.2.out = w.out ++ vw.rest.take n ∧
      (VectoredWriter.loop fuel vw bufs written w).2.1.rest = vw.rest.drop n ∧
      (VectoredWriter.loop fuel vw bufs written w).2.2.sched <:+ w.sched ∧
      ((VectoredWriter.loop fuel vw bufs written w).1 = .ok (written + n) ∨
        ∃ e, (VectoredWriter.loop fuel vw bufs written w).1 = .err e) ∧
      (Cooperative w.sched →
        (VectoredWriter.loop fuel vw bufs written w).1 = .ok (written + n) ∧
          n = vw.rest.length) := by
  induction fuel generalizing vw bufs written w with
  | zero => omega
  | succ fuel ih =>
    rcases writeVectoredInner_spec vw bufs w hskip hbufs hlen with
      ⟨e, w', heq, ho, hs, hc⟩ | ⟨n, vw', bufs', w', heq, hn, ho, hrest, hs, hdec, hcoop, hne, hb', hl', hd'⟩
    · simp only [VectoredWriter.loop, heq]
      exact ⟨0, by omega, by simp [ho], by simp, hs, .inr ⟨e, rfl⟩, fun h => absurd h hc⟩
    · simp only [VectoredWriter.loop, heq]
      by_cases hn0 : n = 0
      · subst hn0
        rw [if_pos rfl]
        refine ⟨0, by omega, by simpa using ho, by simpa using hrest, hs, .inl rfl, fun h => ⟨rfl, ?_⟩⟩
        by_cases hr : vw.rest = []
        · simp [hr]
        · exact absurd (hcoop h.neverZero hr) (by omega)
      · rw [if_neg hn0]
        by_cases hlt : vw'.skip < vw'.data.length
        · rw [if_pos hlt]
          have hnr : vw'.rest ≠ [] := hne hlt
          have hdec : w'.sched.length + 1 = w.sched.length := by
            rcases hdec with h | h
            · exact h
            · rw [h, List.drop_length] at hrest
              exact absurd hrest hnr
          obtain ⟨m, hm, ho2, hr2, hs2, hres, hc2⟩ :=
            ih vw' bufs' (written + n) w' (by omega) hlt hb' hl'
          have hrl : vw'.rest.length = vw.rest.length - n := by rw [hrest, List.length_drop]
          refine ⟨n + m, by omega, ?_, ?_, hs2.trans hs, ?_, fun h => ?_⟩
          · rw [ho2, ho, hrest, List.append_assoc, List.take_add]
          · rw [hr2, hrest, List.drop_drop]
          · rcases hres with h | h
            · left; rw [h, Nat.add_assoc]
            · exact .inr h
          · obtain ⟨h1, h2⟩ := hc2 (h.suffix hs)
            exact ⟨by rw [h1, Nat.add_assoc], by omega⟩
        · rw [if_neg hlt]
          have hz : vw'.rest = [] := by
            simp only [VectoredWriter.rest]
            rw [List.drop_eq_nil_of_le (by omega)]; rfl
          have : n = vw.rest.length := by
            rw [hz] at hrest
            have := congrArg List.length hrest
            simp only [List.length_nil, List.length_drop] at this
            omega
          exact ⟨n, hn, ho, hrest, hs, .inl rfl, fun _ => ⟨rfl, this⟩⟩

theorem NeverZero.suffix {s s' : List WResp} (h : NeverZero s) (hs : s' <:+ s) : NeverZero s' :=
  fun r hr => h r (hs.mem hr)

/-- If the writer never answers `Ok(0)`, the loop delivers everything or fails. -/
theorem vloop_full (fuel : Nat) (vw : VectoredWriter) (bufs : List Bytes) (written : Nat)
    (w : Writer) (hz : NeverZero w.sched) (hfuel : w.sched.length < fuel)
    (hskip : vw.skip < vw.data.length) (hbufs : bufs.drop vw.skip = vw.data.drop vw.skip)
    (hlen : bufs.length = vw.data.length) :
    (VectoredWriter.loop fuel vw bufs written w).1 = .ok (written + vw.rest.length) ∨
      ∃ e, (VectoredWriter.loop fuel vw bufs written w).1 = .err e := by
  induction fuel generalizing vw bufs written w with
  | zero => omega
  | succ fuel ih =>
    rcases writeVectoredInner_spec vw bufs w hskip hbufs hlen with
      ⟨e, w', heq, ho, hs, hc⟩ | ⟨n, vw', bufs', w', heq, hn, ho, hrest, hs, hdec, hpos, hne, hb', hl', hd'⟩
    · simp only [VectoredWriter.loop, heq]
      exact .inr ⟨e, rfl⟩
    · simp only [VectoredWriter.loop, heq]
      have hrl : vw'.rest.length = vw.rest.length - n := by rw [hrest, List.length_drop]
      by_cases hn0 : n = 0
      · subst hn0
        rw [if_pos rfl]
        left
        by_cases hr : vw.rest = []
        · simp [hr]
        · exact absurd (hpos hz hr) (by omega)
      · rw [if_neg hn0]
        by_cases hlt : vw'.skip < vw'.data.length
        · rw [if_pos hlt]
          have hnr : vw'.rest ≠ [] := hne hlt
          have hdec : w'.sched.length + 1 = w.sched.length := by
            rcases hdec with h | h
            · exact h
            · rw [h, List.drop_length] at hrest
              exact absurd hrest hnr
          have hle : vw.rest.length = n + vw'.rest.length := by omega
          rcases ih vw' bufs' (written + n) w' (hz.suffix hs) (by omega) hlt hb' hl' with h | h
          · left; rw [h, hle, Nat.add_assoc]
          · exact .inr h
        · rw [if_neg hlt]
          have hz : vw'.rest = [] := by
            simp only [VectoredWriter.rest]
            rw [List.drop_eq_nil_of_le (by omega)]; rfl
          have : n = vw.rest.length := by
            rw [hz] at hrl
            simp only [List.length_nil] at hrl
            omega
          left; rw [this]

theorem writeAllVectored_full (vw : VectoredWriter) (w : Writer) (hz : NeverZero w.sched) :
    (vw.writeAllVectored w).1 = .ok vw.rest.length ∨ ∃ e, (vw.writeAllVectored w).1 = .err e := by
  unfold VectoredWriter.writeAllVectored
  by_cases h : vw.skip ≥ vw.data.length
  · rw [if_pos h]
    have : vw.rest = [] := by
      simp only [VectoredWriter.rest]; rw [List.drop_eq_nil_of_le h]; rfl
    left; rw [this]; rfl
  · rw [if_neg h]
    have := vloop_full (w.sched.length + 1) vw vw.data 0 w hz (by omega) (by omega) rfl rfl
    simpa using this

/-- The whole of `write_all_vectored`, from any state of the vectored writer. -/
theorem writeAllVectored_spec (vw : VectoredWriter) (w : Writer) :
    ∃ n, n ≤ vw.rest.length ∧
      (vw.writeAllVectored w).2.2.out = w.out ++ vw.rest.take n ∧
      (vw.writeAllVectored w).2.1.rest = vw.rest.drop n ∧
      (vw.writeAllVectored w).2.2.sched <:+ w.sched ∧
      ((vw.writeAllVectored w).1 = .ok n ∨ ∃ e, (vw.writeAllVectored w).1 = .err e) ∧
      (Cooperative w.sched →
        (vw.writeAllVectored w).1 = .ok n ∧ n = vw.rest.length) := by
  unfold VectoredWriter.writeAllVectored
  by_cases h : vw.skip ≥ vw.data.length
  · rw [if_pos h]
    have : vw.rest = [] := by
      simp only [VectoredWriter.rest]; rw [List.drop_eq_nil_of_le h]; rfl
    exact ⟨0, by omega, by simp, by simp, List.suffix_refl _, .inl rfl,
      fun _ => ⟨rfl, by rw [this]; rfl⟩⟩
  · rw [if_neg h]
    obtain ⟨n, h1, h2, h3, h4, h5, h6⟩ :=
      vloop_spec (w.sched.length + 1) vw vw.data 0 w (by omega) (by omega) rfl rfl
    simp only [Nat.zero_add] at h5 h6
    exact ⟨n, h1, h2, h3, h4, h5, h6⟩

end Rsasl

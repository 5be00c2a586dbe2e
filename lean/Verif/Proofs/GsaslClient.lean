/-
How the client of GNU SASL for the interop tests finds the lines of the server.
-/
import Verif.Spec.GsaslClient

namespace Rsasl

open Spec GsaslClient

/-! ## Finding lines -/

theorem takeWhile_without {b : Bytes} {x : UInt8} (h : x ∉ b) :
    b.takeWhile (fun y => decide (y ≠ x)) = b := by
  induction b with
  | nil => rfl
  | cons y b ih =>
    have hy : y ≠ x := fun e => h (by simp [e])
    rw [List.takeWhile_cons_of_pos (by simpa using hy), ih (fun hm => h (by simp [hm]))]

theorem takeWhile_line {l : Bytes} (t : Bytes) (h : (10 : UInt8) ∉ l) :
    (l ++ 10 :: t).takeWhile (fun x => decide (x ≠ 10)) = l := by
  induction l with
  | nil => simp
  | cons x l ih =>
    have hx : x ≠ 10 := fun e => h (by simp [e])
    rw [List.cons_append, List.takeWhile_cons_of_pos (by simpa using hx), ih (fun hm => h (by simp [hm]))]

theorem scan_line {l : Bytes} (t : Bytes) (h : (10 : UInt8) ∉ l) {i : Nat} (hi : i ≤ l.length) :
    scan (l ++ 10 :: t) i = l.length := by
  unfold scan
  rw [List.drop_append_of_le_length hi, takeWhile_line t (fun hm => h (List.mem_of_mem_drop hm))]
  simp; omega

theorem scan_none {b : Bytes} (h : (10 : UInt8) ∉ b) {i : Nat} (hi : i ≤ b.length) : scan b i = b.length := by
  unfold scan
  rw [takeWhile_without (fun hm => h (List.mem_of_mem_drop hm))]
  simp; omega

/-- A beginning of the stream has the whole first line, or only a part of it. -/
theorem beginning {b c l t : Bytes} (hs : b ++ c = l ++ 10 :: t) (hl : (10 : UInt8) ∉ l) :
    (∃ t₁, b = l ++ 10 :: t₁ ∧ t = t₁ ++ c) ∨ (10 ∉ b ∧ b.length ≤ l.length ∧ c ≠ []) := by
  by_cases h : l.length < b.length
  · left
    have hb : b = l ++ (b.drop l.length) := by
      have : b.take l.length = l := by
        have := congrArg (List.take l.length) hs
        rw [List.take_append_of_le_length (by omega), List.take_left'] at this
        · exact this
        · rfl
      exact ((List.take_append_drop l.length b).symm.trans (by rw [this]))
    have hs : l ++ (b.drop l.length ++ c) = l ++ 10 :: t := by rw [← List.append_assoc, ← hb, hs]
    have hs := List.append_cancel_left hs
    cases hd : b.drop l.length with
    | nil => simp at hd; omega
    | cons x t₁ =>
      rw [hd] at hs
      obtain ⟨rfl, ht⟩ := List.cons.inj hs
      exact ⟨t₁, hb.trans (by rw [hd]), ht.symm⟩
  · right
    have hb : b = l.take b.length := by
      have := congrArg (List.take b.length) hs
      rw [List.take_left' rfl, List.take_append_of_le_length (by omega)] at this
      exact this
    refine ⟨fun hm => hl (List.mem_of_mem_take (hb ▸ hm)), by omega, ?_⟩
    rintro rfl
    have := congrArg List.length hs
    simp at this
    omega

def pieces (ps : List Bytes) : List Recv := ps.map .data

theorem unread_pieces (b : Bytes) (ps : List Bytes) (hps : ∀ p ∈ ps, p ≠ []) :
    ∃ ps', unread b (pieces ps) = pieces ps' ∧ b ++ ps.flatten = ps'.flatten ∧ (∀ p ∈ ps', p ≠ []) ∧
      toCome (pieces ps') ≤ b.length + 1 + toCome (pieces ps) := by
  cases b with
  | nil => exact ⟨ps, rfl, rfl, hps, by omega⟩
  | cons x b =>
    refine ⟨(x :: b) :: ps, rfl, rfl, ?_, ?_⟩
    · simpa using hps
    · simp [pieces, toCome]

theorem recvMessage_line (cap : Nat) {l : Bytes} (hl : (10 : UInt8) ∉ l) (hlen : l.length < cap) (t : Bytes) :
    ∀ (ps : List Bytes) (buf : Bytes) (nl : Nat), (∀ p ∈ ps, p ≠ []) → buf ++ ps.flatten = l ++ 10 :: t →
      buf.length < cap → ps ≠ [] → nl ≤ buf.length → nl ≤ l.length →
      ∃ t₁ ps', recvMessage cap (pieces ps) buf nl = .line (l ++ 10 :: t₁) l.length (pieces ps') ∧
        t = t₁ ++ ps'.flatten ∧ (∀ p ∈ ps', p ≠ []) ∧ (l ++ 10 :: t₁).length ≤ cap ∧
        toCome (pieces ps') < toCome (pieces ps)
  | [], _, _, _, _, _, h, _, _ => absurd rfl h
  | p :: ps, buf, nl, hne, hs, hb, _, hnl, hnl' => by
    have hp : p ≠ [] := hne p (by simp)
    have hps : ∀ q ∈ ps, q ≠ [] := fun q hq => hne q (by simp [hq])
    have hroom : 0 < cap - buf.length := by omega
    have hgot : p.take (cap - buf.length) ≠ [] := by
      cases p with
      | nil => exact absurd rfl hp
      | cons x p => intro e; simp at e; omega
    have hs' : (buf ++ p.take (cap - buf.length)) ++ (p.drop (cap - buf.length) ++ ps.flatten) =
        l ++ 10 :: t := by
      rw [← hs]
      simp only [List.flatten_cons, List.append_assoc]
      rw [← List.append_assoc (p.take _), List.take_append_drop]
    show ∃ t₁ ps', recvMessage cap (.data p :: pieces ps) buf nl = _ ∧ _
    unfold recvMessage
    simp only [hgot, if_false]
    rcases beginning hs' hl with ⟨t₁, e, ht⟩ | ⟨hn, hle, _⟩
    · obtain ⟨ps', hu, hf, hne', hc⟩ := unread_pieces (p.drop (cap - buf.length)) ps hps
      refine ⟨t₁, ps', ?_, ?_, hne', ?_, ?_⟩
      · rw [e, scan_line t₁ hl hnl', hu]
        simp only [List.length_append, List.length_cons]
        rw [if_neg (by omega), if_neg (by omega)]
      · rw [ht, hf]
      · rw [← e]; simp; omega
      · have : (p.drop (cap - buf.length)).length + 1 < p.length + 1 := by
          have := List.length_pos_iff.mpr hp
          simp; omega
        simp only [pieces, List.map_cons, toCome, List.sum_cons] at hc ⊢
        omega
    · have hlt : (buf ++ p.take (cap - buf.length)).length < cap := by omega
      have hall : p.take (cap - buf.length) = p := by
        apply List.take_of_length_le
        simp at hlt
        omega
      rw [hall] at hn hle hlt hs' ⊢
      have hnl2 : nl ≤ (buf ++ p).length := by simp; omega
      rw [scan_none hn hnl2, if_neg (by omega), if_pos rfl]
      have hs2 : (buf ++ p) ++ ps.flatten = l ++ 10 :: t := by rw [← hs]; simp
      have hps0 : ps ≠ [] := by
        rintro rfl
        rw [List.flatten_nil, List.append_nil] at hs2
        have := congrArg List.length hs2
        simp at this hle
        omega
      obtain ⟨t₁, ps', e, ht, hn', hc, hd⟩ := recvMessage_line cap hl hlen t ps (buf ++ p) _ hps hs2 hlt hps0
        (Nat.le_refl _) hle
      refine ⟨t₁, ps', e, ht, hn', hc, ?_⟩
      simp only [pieces, List.map_cons, toCome, List.sum_cons] at hd ⊢
      omega

theorem recvLine_line (cap : Nat) {l : Bytes} (hl : (10 : UInt8) ∉ l) (hlen : l.length < cap) (t : Bytes) :
    ∀ (ps : List Bytes) (buf : Bytes), (∀ p ∈ ps, p ≠ []) → buf ++ ps.flatten = l ++ 10 :: t →
      10 ∉ buf →
      ∃ t₁ ps', recvLine cap (pieces ps) buf = .line (l ++ 10 :: t₁) l.length (pieces ps') ∧
        t = t₁ ++ ps'.flatten ∧ (∀ p ∈ ps', p ≠ [])
  | [], buf, _, hs, hn => by
    simp only [List.flatten_nil, List.append_nil] at hs
    exact absurd (by rw [hs]; simp) hn
  | p :: ps, buf, hne, hs, hnb => by
    have hp : p ≠ [] := hne p (by simp)
    have hps : ∀ q ∈ ps, q ≠ [] := fun q hq => hne q (by simp [hq])
    have hb : buf.length ≤ l.length := by
      rcases beginning hs hl with ⟨t₁, e, _⟩ | ⟨_, h, _⟩
      · exact absurd (by rw [e]; simp) hnb
      · exact h
    have hgot : p.take (cap - buf.length) ≠ [] := by
      cases p with
      | nil => exact absurd rfl hp
      | cons x p => intro e; simp at e; omega
    have hs' : (buf ++ p.take (cap - buf.length)) ++ (p.drop (cap - buf.length) ++ ps.flatten) =
        l ++ 10 :: t := by
      rw [← hs]
      simp only [List.flatten_cons, List.append_assoc]
      rw [← List.append_assoc (p.take _), List.take_append_drop]
    show ∃ t₁ ps', recvLine cap (.data p :: pieces ps) buf = _ ∧ _
    unfold recvLine
    simp only [hgot, if_false]
    rw [if_neg (by omega)]
    rcases beginning hs' hl with ⟨t₁, e, ht⟩ | ⟨hn, hle, _⟩
    · obtain ⟨ps', hu, hf, hne', _⟩ := unread_pieces (p.drop (cap - buf.length)) ps hps
      refine ⟨t₁, ps', ?_, ?_, hne'⟩
      · rw [e, scan_line t₁ hl hb, hu]
        simp only [List.length_append, List.length_cons]
        rw [if_neg (by omega)]
      · rw [ht, hf]
    · have hlt : (buf ++ p.take (cap - buf.length)).length < cap := by omega
      have hall : p.take (cap - buf.length) = p := by
        apply List.take_of_length_le
        simp at hlt
        omega
      rw [hall] at hn ⊢
      rw [scan_none hn (by simp), if_pos rfl]
      exact recvLine_line cap hl hlen t ps (buf ++ p) hps (by rw [← hs]; simp) hn

/-! ## What is read of a line -/

theorem lineEnd_wire {w l : Bytes} (h : OnWire w l) (t : Bytes) :
    lineEnd (w ++ 10 :: t) w.length = l.length := by
  unfold lineEnd
  rcases h with ⟨_, _, rfl | ⟨rfl, hl⟩⟩
  · rw [if_pos] <;> simp
  · rw [if_neg]
    rintro ⟨h1, h2⟩
    rw [List.getElem?_append_left (by omega)] at h2
    rw [List.getLast?_eq_getElem?] at hl
    exact hl h2

theorem take_wire {w l : Bytes} (h : OnWire w l) (t : Bytes) : (w ++ 10 :: t).take l.length = l := by
  rcases h with ⟨_, _, rfl | ⟨rfl, _⟩⟩ <;> simp

theorem zero_wire {w l : Bytes} (h : OnWire w l) : (0 : UInt8) ∉ l := by
  rcases h with ⟨_, h0, rfl | ⟨rfl, _⟩⟩
  · exact fun hm => h0 (by simp [hm])
  · exact h0

theorem length_wire {w l : Bytes} (h : OnWire w l) : l.length ≤ w.length := by
  rcases h with ⟨_, _, rfl | ⟨rfl, _⟩⟩ <;> simp

theorem cString_wire {w l : Bytes} (h : OnWire w l) (t : Bytes) :
    cString (w ++ 10 :: t) (lineEnd (w ++ 10 :: t) w.length) = l := by
  unfold cString
  rw [lineEnd_wire h, take_wire h, takeWhile_without (zero_wire h)]

theorem set_drop_wire {w l : Bytes} (h : OnWire w l) (t : Bytes) :
    ((w ++ 10 :: t).set (lineEnd (w ++ 10 :: t) w.length) 0).drop (w.length + 1) = t := by
  rw [lineEnd_wire h, List.drop_set_of_lt (by have := length_wire h; omega)]
  simp [List.drop_append]

theorem verdict_wire {w l : Bytes} (h : OnWire w l) (t : Bytes) :
    verdict ((w ++ 10 :: t).set (lineEnd (w ++ 10 :: t) w.length) 0) = outcomeOf l := by
  have key : ∃ t', (w ++ 10 :: t).set (lineEnd (w ++ 10 :: t) w.length) 0 = l ++ 0 :: t' := by
    rw [lineEnd_wire h]
    rcases h with ⟨_, _, rfl | ⟨rfl, _⟩⟩
    · exact ⟨10 :: t, by simp⟩
    · exact ⟨t, by simp⟩
  obtain ⟨t', e⟩ := key
  rw [e]
  have e1 : (b!"OK" : Bytes) = [79, 75] := rfl
  have e2 : (b!"ERR" : Bytes) = [69, 82, 82] := rfl
  unfold verdict outcomeOf
  rw [e1, e2]
  match l with
  | [] => simp
  | [a] => simp
  | [a, b] => simp [List.cons_prefix_cons, eq_comm]
  | a :: b :: c :: l => simp [List.cons_prefix_cons, eq_comm]

end Rsasl

/-
C114: the client of GNU SASL for the interop tests reads the server's lines, whatever pieces they arrive in, and
sends its messages whole.
-/
import Verif.Proofs.GsaslClient
import Verif.Model.Interop

namespace Rsasl

open Spec GsaslClient

theorem recvMessage_mono {cap : Nat} (x : List Recv) :
    ∀ (rs : List Recv) (buf : Bytes) (nl : Nat) (b : Bytes) (i : Nat) (r : List Recv),
      recvMessage cap rs buf nl = .line b i r → recvMessage cap (rs ++ x) buf nl = .line b i (r ++ x)
  | [], _, _, _, _, _, h => nomatch h
  | .failed :: _, _, _, _, _, _, h => nomatch h
  | .data p :: rs, buf, nl, b, i, r, h => by
    show recvMessage cap (.data p :: (rs ++ x)) buf nl = _
    unfold recvMessage at h ⊢
    dsimp only at h ⊢
    by_cases h1 : p.take (cap - buf.length) = []
    · rw [if_pos h1] at h; cases h
    rw [if_neg h1] at h ⊢
    by_cases h2 : cap ≤ scan (buf ++ p.take (cap - buf.length)) nl
    · rw [if_pos h2] at h; cases h
    rw [if_neg h2] at h ⊢
    by_cases h3 : scan (buf ++ p.take (cap - buf.length)) nl = (buf ++ p.take (cap - buf.length)).length
    · rw [if_pos h3] at h ⊢
      exact recvMessage_mono x rs _ _ b i r h
    · rw [if_neg h3] at h ⊢
      injection h with hb hi hr
      subst hb hi hr
      cases hd : p.drop (cap - buf.length) <;> rfl

theorem recvLine_mono {cap : Nat} (x : List Recv) :
    ∀ (rs : List Recv) (buf : Bytes) (b : Bytes) (i : Nat) (r : List Recv),
      recvLine cap rs buf = .line b i r → recvLine cap (rs ++ x) buf = .line b i (r ++ x)
  | [], _, _, _, _, h => nomatch h
  | .failed :: _, buf, _, _, _, h => by
    unfold recvLine at h
    by_cases h1 : cap ≤ buf.length
    · rw [if_pos h1] at h; cases h
    · rw [if_neg h1] at h
      by_cases h2 : buf = []
      · rw [if_pos h2] at h; cases h
      · rw [if_neg h2] at h; cases h
  | .data p :: rs, buf, b, i, r, h => by
    show recvLine cap (.data p :: (rs ++ x)) buf = _
    unfold recvLine at h ⊢
    dsimp only at h ⊢
    by_cases h1 : cap ≤ buf.length
    · rw [if_pos h1] at h; cases h
    rw [if_neg h1] at h ⊢
    by_cases h2 : p.take (cap - buf.length) = []
    · rw [if_pos h2] at h; cases h
    rw [if_neg h2] at h ⊢
    by_cases h3 : scan (buf ++ p.take (cap - buf.length)) buf.length = (buf ++ p.take (cap - buf.length)).length
    · rw [if_pos h3] at h ⊢
      exact recvLine_mono x rs _ b i r h
    · rw [if_neg h3] at h ⊢
      injection h with hb hi hr
      subst hb hi hr
      cases hd : p.drop (cap - buf.length) <;> rfl

theorem pieces_append (a b : List Bytes) : pieces (a ++ b) = pieces a ++ pieces b := by
  simp [pieces]

theorem nothing_left {t : Bytes} {ps : List Bytes} (h : [] = t ++ ps.flatten) (hne : ∀ p ∈ ps, p ≠ []) :
    t = [] ∧ ps = [] := by
  obtain ⟨ht, hp⟩ := List.append_eq_nil_iff.mp h.symm
  refine ⟨ht, ?_⟩
  cases ps with
  | nil => rfl
  | cons p ps =>
    rw [List.flatten_cons, List.append_eq_nil_iff] at hp
    exact absurd hp.1 (hne p (by simp))

theorem recvMessage_group {cap : Nat} {w : Bytes} (hw : (10 : UInt8) ∉ w) (hlen : w.length < cap)
    {g : List Bytes} (hg : g.flatten = w ++ [10]) (hne : ∀ p ∈ g, p ≠ []) (rest : List Recv) :
    recvMessage cap (pieces g ++ rest) [] 0 = .line (w ++ [10]) w.length rest := by
  obtain ⟨t₁, ps', e, ht, hn', _⟩ := recvMessage_line cap hw hlen [] g [] 0 hne hg (by simp; omega)
    (by rintro rfl; simp at hg) (Nat.zero_le _) (Nat.zero_le _)
  obtain ⟨rfl, rfl⟩ := nothing_left ht hn'
  exact recvMessage_mono rest _ _ _ _ _ _ e

theorem recvLine_group {cap : Nat} {w : Bytes} (hw : (10 : UInt8) ∉ w) (hlen : w.length < cap)
    {g : List Bytes} (hg : g.flatten = w ++ [10]) (hne : ∀ p ∈ g, p ≠ []) (rest : List Recv) :
    recvLine cap (pieces g ++ rest) [] = .line (w ++ [10]) w.length rest := by
  obtain ⟨t₁, ps', e, ht, hn'⟩ := recvLine_line cap hw hlen [] g [] hne hg (by simp)
  obtain ⟨rfl, rfl⟩ := nothing_left ht hn'
  exact recvLine_mono rest _ _ _ _ _ e

theorem finish_line {cap : Nat} {w l : Bytes} (hw : OnWire w l) (hlen : w.length < cap) (t buf : Bytes)
    (ps : List Bytes) (hne : ∀ p ∈ ps, p ≠ []) (hs : buf ++ ps.flatten = w ++ 10 :: t) (rest : List Recv) :
    finish cap (pieces ps ++ rest) buf = .outcome (outcomeOf l) := by
  unfold finish
  dsimp only
  rcases beginning hs hw.1 with ⟨t₁, rfl, _⟩ | ⟨hn, _, _⟩
  · rw [scan_line t₁ hw.1 (Nat.zero_le _), if_neg (by simp)]
    dsimp only
    rw [verdict_wire hw]
  · rw [scan_none hn (Nat.zero_le _), if_pos rfl]
    obtain ⟨t₁, ps', e, _⟩ := recvLine_line cap hw.1 hlen t ps buf hne hs hn
    rw [recvLine_mono rest _ _ _ _ _ e]
    dsimp only
    rw [verdict_wire hw]

/-- One step after a line was read, if all that is sent is taken. -/
theorem authenticate_line (lib : Lib) (cap junk fuel : Nat) (hfit : Fits lib cap) {w l : Bytes} (hw : OnWire w l)
    (buf t : Bytes) (ses : lib.S) (recvs recvs' : List Recv) (out : Bytes)
    (h : recvMessage cap recvs buf 0 = .line (w ++ 10 :: t) w.length recvs') :
    authenticate lib cap junk (fuel + 1) false buf ses recvs [] out =
      match (lib.step64 ses l).1 with
      | .error => ⟨out, .code (-1)⟩
      | .ok => ⟨out ++ ((lib.step64 ses l).2.1.getD [] ++ [10]), finish cap recvs' t⟩
      | .needsMore => authenticate lib cap junk fuel false t (lib.step64 ses l).2.2 recvs' []
          (out ++ ((lib.step64 ses l).2.1.getD [] ++ [10])) := by
  have hf := hfit ses l
  rw [authenticate]
  simp only [Bool.false_eq_true, if_false, h, cString_wire hw, set_drop_wire hw]
  rcases hr : lib.step64 ses l with ⟨rc, o, s⟩
  rw [hr] at hf
  have e : sendLoop (o.getD []) [] 0 (min (o.getD []).length cap) [] = ⟨o.getD [], some []⟩ := by
    unfold sendLoop
    rw [Nat.min_eq_left hf]
    simp
  have hn : sendSigned (b!"\n") [] = ⟨[10], some []⟩ := rfl
  cases rc
  · simp only [e, hn, List.append_assoc]
    rw [if_neg (by simp)]
  · simp only [e, hn, List.append_assoc]
    rw [if_neg (by simp)]
  · rfl

/-- The first step: the library is given nothing. -/
theorem authenticate_first (lib : Lib) (cap fuel : Nat) (hfit : Fits lib cap)
    (ses : lib.S) (recvs : List Recv) (out : Bytes) :
    authenticate lib cap 0 (fuel + 1) true [] ses recvs [] out =
      match (lib.step64 ses []).1 with
      | .error => ⟨out, .code (-1)⟩
      | .ok => ⟨out ++ ((lib.step64 ses []).2.1.getD [] ++ [10]), finish cap recvs []⟩
      | .needsMore => authenticate lib cap 0 fuel false [] (lib.step64 ses []).2.2 recvs []
          (out ++ ((lib.step64 ses []).2.1.getD [] ++ [10])) := by
  have hf := hfit ses []
  rw [authenticate]
  have e0 : cString [] (lineEnd [] 0) = [] := rfl
  simp only [if_true, e0]
  rcases hr : lib.step64 ses [] with ⟨rc, o, s⟩
  rw [hr] at hf
  have e : sendLoop (o.getD []) [] 0 (min (o.getD []).length cap) [] = ⟨o.getD [], some []⟩ := by
    unfold sendLoop
    rw [Nat.min_eq_left hf]
    simp
  have hn : sendSigned (b!"\n") [] = ⟨[10], some []⟩ := rfl
  cases rc
  · simp only [e, hn, List.append_assoc]
    rw [if_neg (by simp)]
    rfl
  · simp only [e, hn, List.append_assoc]
    rw [if_neg (by simp)]
    rfl
  · rfl

/-- What is done with the lines if the library wants one. -/
def goOn (lib : Lib) (ses : lib.S) : List Bytes → Run
  | [] => ⟨[], .waiting⟩
  | l :: ls => lineTalk lib ses l ls

/-- How a run compares with what it should do after `out`. -/
def Agrees (r : Run) (out : Bytes) (s : Run) : Prop :=
  r = ⟨out ++ s.sent, s.res⟩ ∨ r.res = .waiting ∧ r.sent <+: out ++ s.sent

theorem stream_cons (w : Bytes) (ws : List Bytes) : stream (w :: ws) = w ++ 10 :: stream ws := by
  simp [stream]

theorem finish_nothing {cap : Nat} (hc : 0 < cap) : finish cap [] [] = .waiting := by
  have h : recvLine cap [] [] = .fail .waiting := by
    unfold recvLine
    rw [if_neg (by simp; omega)]
  unfold finish
  dsimp only
  rw [scan_none (by simp) (Nat.zero_le _), if_pos rfl, h]

theorem lineTalk_needsMore {lib : Lib} {ses : lib.S} {l : Bytes} (h : (lib.step64 ses l).1 = .needsMore)
    (ls : List Bytes) : lineTalk lib ses l ls =
      ⟨(lib.step64 ses l).2.1.getD [] ++ [10] ++ (goOn lib (lib.step64 ses l).2.2 ls).sent,
        (goOn lib (lib.step64 ses l).2.2 ls).res⟩ := by
  unfold lineTalk
  rw [h]
  cases ls with
  | nil => simp [goOn]
  | cons l ls => rfl

theorem lineTalk_ok {lib : Lib} {ses : lib.S} {l : Bytes} (h : (lib.step64 ses l).1 = .ok)
    (ls : List Bytes) : lineTalk lib ses l ls =
      ⟨(lib.step64 ses l).2.1.getD [] ++ [10],
        match ls with | [] => .waiting | l :: _ => .outcome (outcomeOf l)⟩ := by
  unfold lineTalk
  rw [h]
  cases ls <;> rfl

theorem lineTalk_error {lib : Lib} {ses : lib.S} {l : Bytes} (h : (lib.step64 ses l).1 = .error)
    (ls : List Bytes) : lineTalk lib ses l ls = ⟨[], .code (-1)⟩ := by
  unfold lineTalk
  rw [h]

theorem authenticate_safe (lib : Lib) (cap junk : Nat) (hfit : Fits lib cap) :
    ∀ (fuel : Nat) (wl : List (Bytes × Bytes)) (ps : List Bytes) (buf : Bytes) (ses : lib.S) (out : Bytes),
      (∀ p ∈ ps, p ≠ []) → (∀ x ∈ wl, OnWire x.1 x.2 ∧ x.1.length < cap) →
      buf ++ ps.flatten = stream (wl.map Prod.fst) → buf.length < cap → toCome (pieces ps) < fuel →
      Agrees (authenticate lib cap junk fuel false buf ses (pieces ps) [] out) out
        (goOn lib ses (wl.map Prod.snd))
  | 0, _, _, _, _, _, _, _, _, _, h => absurd h (by omega)
  | fuel + 1, wl, ps, buf, ses, out, hne, hw, hs, hb, hfu => by
    by_cases hps : ps = []
    · subst hps
      right
      refine ⟨rfl, ?_⟩
      exact List.prefix_append _ _
    cases wl with
    | nil =>
      have h : buf ++ ps.flatten = [] := hs
      rw [List.append_eq_nil_iff] at h
      exact absurd (nothing_left (t := []) (by simpa using h.2.symm) hne).2 hps
    | cons x wl =>
      obtain ⟨w, l⟩ := x
      obtain ⟨hwl, hlen⟩ := hw (w, l) (by simp)
      have hw' : ∀ x ∈ wl, OnWire x.1 x.2 ∧ x.1.length < cap := fun x hx => hw x (by simp [hx])
      rw [List.map_cons, stream_cons] at hs
      obtain ⟨t₁, ps', e, ht, hn', hc, hd⟩ := recvMessage_line cap hwl.1 hlen _ ps buf 0 hne hs hb hps
        (Nat.zero_le _) (Nat.zero_le _)
      rw [authenticate_line lib cap junk fuel hfit hwl buf t₁ ses _ _ out e]
      show Agrees _ out (lineTalk lib ses l (wl.map Prod.snd))
      rcases hr : (lib.step64 ses l).1 with _ | _ | _
      · left
        rw [lineTalk_ok hr]
        dsimp only
        congr 1
        cases wl with
        | nil =>
          obtain ⟨rfl, rfl⟩ := nothing_left ht hn'
          exact finish_nothing (by omega)
        | cons y wl =>
          obtain ⟨w', l'⟩ := y
          obtain ⟨hwl', hlen'⟩ := hw' (w', l') (by simp)
          rw [List.map_cons, stream_cons] at ht
          have := finish_line hwl' hlen' _ t₁ ps' hn' ht.symm []
          rw [List.append_nil] at this
          exact this
      · have ih := authenticate_safe lib cap junk hfit fuel wl ps' t₁ (lib.step64 ses l).2.2
          (out ++ ((lib.step64 ses l).2.1.getD [] ++ [10])) hn' hw' ht.symm (by simp at hc; omega) (by omega)
        rw [lineTalk_needsMore hr]
        simpa only [Agrees, List.append_assoc] using ih
      · left
        rw [lineTalk_error hr]
        simp

theorem authenticate_groups (lib : Lib) (cap junk : Nat) (hc : 0 < cap) (hfit : Fits lib cap) :
    ∀ (as : List Arriving) (fuel : Nat) (ses : lib.S) (out : Bytes), (∀ a ∈ as, a.Good cap) → as.length < fuel →
      authenticate lib cap junk fuel false [] ses (pieces (as.map (·.pieces)).flatten) [] out =
        ⟨out ++ (goOn lib ses (as.map (·.line))).sent, (goOn lib ses (as.map (·.line))).res⟩
  | _, 0, _, _, _, h => absurd h (by omega)
  | [], fuel + 1, ses, out, _, _ => by
    show (⟨out, .waiting⟩ : Run) = ⟨out ++ [], .waiting⟩
    simp
  | a :: as, fuel + 1, ses, out, hg, hf => by
    have ha := hg a (by simp)
    have has : ∀ a ∈ as, a.Good cap := fun b hb => hg b (by simp [hb])
    have e : recvMessage cap (pieces ((a :: as).map (·.pieces)).flatten) [] 0 =
        .line (a.wire ++ [10]) a.wire.length (pieces (as.map (·.pieces)).flatten) := by
      rw [List.map_cons, List.flatten_cons, pieces_append]
      exact recvMessage_group ha.wire.1 ha.short ha.whole ha.pieces _
    rw [authenticate_line lib cap junk fuel hfit ha.wire [] [] ses _ _ out e]
    show _ = (⟨out ++ (lineTalk lib ses a.line (as.map (·.line))).sent, _⟩ : Run)
    rcases hr : (lib.step64 ses a.line).1 with _ | _ | _
    · show _ = (⟨_, (lineTalk lib ses a.line (as.map (·.line))).res⟩ : Run)
      rw [lineTalk_ok hr]
      dsimp only
      congr 1
      cases as with
      | nil => exact finish_nothing hc
      | cons b as =>
        have hb := has b (by simp)
        rw [List.map_cons, List.flatten_cons, pieces_append]
        exact finish_line hb.wire hb.short [] [] b.pieces hb.pieces hb.whole _
    · show _ = (⟨_, (lineTalk lib ses a.line (as.map (·.line))).res⟩ : Run)
      rw [lineTalk_needsMore hr]
      have ih := authenticate_groups lib cap junk hc hfit as fuel (lib.step64 ses a.line).2.2
          (out ++ ((lib.step64 ses a.line).2.1.getD [] ++ [10])) has (by simp at hf; omega)
      simpa only [List.append_assoc] using ih
    · show _ = (⟨_, (lineTalk lib ses a.line (as.map (·.line))).res⟩ : Run)
      rw [lineTalk_error hr]
      simp

theorem authenticate_last (lib : Lib) (cap junk : Nat) (hfit : Fits lib cap) {w l w' o : Bytes}
    (hw : OnWire w l) (hlen : w.length < cap) (hw' : OnWire w' o) (hlen' : w'.length < cap) (t : Bytes)
    (ps : List Bytes) (hne : ∀ p ∈ ps, p ≠ []) (hps : ps.flatten = w ++ 10 :: (w' ++ 10 :: t)) :
    ∀ (as : List Arriving) (fuel : Nat) (ses : lib.S) (out : Bytes), (∀ a ∈ as, a.Good cap) →
      as.length + 1 < fuel → (goOn lib ses (as.map (·.line) ++ [l])).res = .waiting →
      (goOn lib ses (as.map (·.line) ++ [l, o])).res = .outcome (outcomeOf o) →
      authenticate lib cap junk fuel false [] ses (pieces ((as.map (·.pieces)).flatten ++ ps)) [] out =
        ⟨out ++ (goOn lib ses (as.map (·.line) ++ [l, o])).sent, .outcome (outcomeOf o)⟩
  | _, 0, _, _, _, h, _, _ => absurd h (by omega)
  | [], fuel + 1, ses, out, _, _, _, h2 => by
    obtain ⟨t₁, ps', e, ht, hn', _⟩ := recvMessage_line cap hw.1 hlen _ ps [] 0 hne hps (by simp; omega)
      (by rintro rfl; simp at hps) (Nat.zero_le _) (Nat.zero_le _)
    show authenticate lib cap junk (fuel + 1) false [] ses (pieces ps) [] out = _
    rw [authenticate_line lib cap junk fuel hfit hw [] t₁ ses _ _ out e]
    change (lineTalk lib ses l [o]).res = _ at h2
    show _ = (⟨out ++ (lineTalk lib ses l [o]).sent, _⟩ : Run)
    rcases hr : (lib.step64 ses l).1 with _ | _ | _
    · rw [lineTalk_ok hr]
      dsimp only
      congr 1
      have := finish_line hw' hlen' t t₁ ps' hn' ht.symm []
      rw [List.append_nil] at this
      exact this
    · rw [lineTalk_needsMore hr] at h2
      simp only [goOn] at h2
      rcases hr' : (lib.step64 (lib.step64 ses l).2.2 o).1 with _ | _ | _
      · rw [lineTalk_ok hr'] at h2; cases h2
      · rw [lineTalk_needsMore hr'] at h2; cases h2
      · rw [lineTalk_error hr'] at h2; cases h2
    · rw [lineTalk_error hr] at h2
      cases h2
  | a :: as, fuel + 1, ses, out, hg, hf, h1, h2 => by
    have ha := hg a (by simp)
    have has : ∀ a ∈ as, a.Good cap := fun b hb => hg b (by simp [hb])
    have e : recvMessage cap (pieces (((a :: as).map (·.pieces)).flatten ++ ps)) [] 0 =
        .line (a.wire ++ [10]) a.wire.length (pieces ((as.map (·.pieces)).flatten ++ ps)) := by
      rw [List.map_cons, List.flatten_cons, List.append_assoc, pieces_append]
      exact recvMessage_group ha.wire.1 ha.short ha.whole ha.pieces _
    rw [authenticate_line lib cap junk fuel hfit ha.wire [] [] ses _ _ out e]
    change (lineTalk lib ses a.line (as.map (·.line) ++ [l])).res = _ at h1
    change (lineTalk lib ses a.line (as.map (·.line) ++ [l, o])).res = _ at h2
    show _ = (⟨out ++ (lineTalk lib ses a.line (as.map (·.line) ++ [l, o])).sent, _⟩ : Run)
    rcases hr : (lib.step64 ses a.line).1 with _ | _ | _
    · rw [lineTalk_ok hr] at h1
      cases hl : as.map (·.line) ++ [l] with
      | nil => simp at hl
      | cons x xs => rw [hl] at h1; cases h1
    · rw [lineTalk_needsMore hr] at h1 h2 ⊢
      have ih := authenticate_last lib cap junk hfit hw hlen hw' hlen' t ps hne hps as fuel
        (lib.step64 ses a.line).2.2 (out ++ ((lib.step64 ses a.line).2.1.getD [] ++ [10])) has
        (by simp at hf; omega) h1 h2
      simpa only [List.append_assoc] using ih
    · rw [lineTalk_error hr] at h1
      cases h1

/-! ## The list of mechanisms -/

theorem parts_ne (s : Bytes) : parts s ≠ [] := by
  cases s with
  | nil => simp [parts]
  | cons c s =>
    unfold parts
    split
    · simp
    · split <;> simp

theorem parts_begun {name : Bytes} (hn : (32 : UInt8) ∉ name) (s : Bytes) :
    (∀ n : Bytes, 32 ∉ n → (n <+: (parts s).headD [] ↔ n <+: s)) ∧
    ((∃ w ∈ (parts s).tail, name <+: w) ↔ ∃ pre post, s = pre ++ 32 :: (name ++ post)) := by
  induction s with
  | nil =>
    refine ⟨fun n _ => Iff.rfl, ?_⟩
    simp [parts]
  | cons c s ih =>
    obtain ⟨ih1, ih2⟩ := ih
    by_cases hc : c = 32
    · subst hc
      have e : parts (32 :: s) = [] :: parts s := by rw [parts]; rfl
      rw [e]
      constructor
      · intro n hn
        cases n with
        | nil => simp
        | cons x n =>
          simp only [List.headD_cons, List.prefix_nil, reduceCtorEq, false_iff]
          rintro ⟨r, hr⟩
          exact hn (by simp [(List.cons.inj hr).1])
      · rw [List.tail_cons]
        have hsplit : (∃ w ∈ parts s, name <+: w) ↔
            name <+: (parts s).headD [] ∨ ∃ w ∈ (parts s).tail, name <+: w := by
          cases hp : parts s with
          | nil => exact absurd hp (parts_ne s)
          | cons w ws => simp
        rw [hsplit, ih1 name hn, ih2]
        constructor
        · rintro (⟨r, rfl⟩ | ⟨pre, post, rfl⟩)
          · exact ⟨[], r, rfl⟩
          · exact ⟨32 :: pre, post, rfl⟩
        · rintro ⟨pre, post, h⟩
          cases pre with
          | nil => exact .inl ⟨post, (List.cons.inj h).2.symm⟩
          | cons x pre => exact .inr ⟨pre, post, (List.cons.inj h).2⟩
    · cases hp : parts s with
      | nil => exact absurd hp (parts_ne s)
      | cons w ws =>
        have e : parts (c :: s) = (c :: w) :: ws := by
          rw [parts, if_neg hc, hp]
        rw [e]
        rw [hp] at ih1 ih2
        constructor
        · intro n hn
          cases n with
          | nil => simp
          | cons x n =>
            have := ih1 n (fun hm => hn (by simp [hm]))
            simp only [List.headD_cons, List.cons_prefix_cons] at this ⊢
            rw [this]
        · rw [List.tail_cons] at ih2 ⊢
          rw [ih2]
          constructor
          · rintro ⟨pre, post, rfl⟩
            exact ⟨c :: pre, post, rfl⟩
          · rintro ⟨pre, post, h⟩
            cases pre with
            | nil => exact absurd (List.cons.inj h).1 hc
            | cons x pre => exact ⟨pre, post, (List.cons.inj h).2⟩

theorem tokens_begun {name : Bytes} (h0 : name ≠ []) (hn : (32 : UInt8) ∉ name) (s : Bytes) :
    (tokens s).any (fun w => name.isPrefixOf w) = true ↔ Begun name s := by
  have h := parts_begun hn s
  have e : (tokens s).any (fun w => name.isPrefixOf w) = true ↔ ∃ w ∈ parts s, name <+: w := by
    simp only [tokens, List.any_eq_true, List.mem_filter, List.isPrefixOf_iff_prefix]
    constructor
    · rintro ⟨w, ⟨hw, _⟩, hp⟩
      exact ⟨w, hw, hp⟩
    · rintro ⟨w, hw, hp⟩
      refine ⟨w, ⟨hw, ?_⟩, hp⟩
      cases w with
      | nil => exact absurd (List.prefix_nil.mp hp) h0
      | cons _ _ => rfl
  rw [e]
  have hsplit : (∃ w ∈ parts s, name <+: w) ↔
      name <+: (parts s).headD [] ∨ ∃ w ∈ (parts s).tail, name <+: w := by
    cases hp : parts s with
    | nil => exact absurd hp (parts_ne s)
    | cons w ws => simp
  rw [hsplit, h.1 name hn, h.2]
  constructor
  · rintro (⟨r, rfl⟩ | ⟨pre, post, rfl⟩)
    · exact ⟨[], r, rfl, .inl rfl⟩
    · exact ⟨pre ++ [32], post, by simp, .inr (by simp)⟩
  · rintro ⟨pre, post, rfl, rfl | hl⟩
    · exact .inl ⟨post, by simp⟩
    · obtain ⟨ys, rfl⟩ := List.getLast?_eq_some_iff.mp hl
      exact .inr ⟨ys, post, by simp⟩

theorem client_start (lib : Lib) (cap : Nat) (name : Bytes) {w offer : Bytes} (hw : OnWire w offer)
    (hlen : w.length < cap) (h0 : name.take 30 ≠ []) (hn : (32 : UInt8) ∉ name.take 30) {g : List Bytes}
    (hg : g.flatten = w ++ [10]) (hne : ∀ p ∈ g, p ≠ []) (junk : Nat) (recvs : List Recv) :
    (Begun (name.take 30) offer → client lib cap junk name (pieces g ++ recvs) [] =
      match lib.start name with
      | none => ⟨name.take 30 ++ [32], .code (-1)⟩
      | some ses => authenticate lib cap junk (toCome recvs + 2) true [] ses recvs [] (name.take 30 ++ [32])) ∧
    (¬ Begun (name.take 30) offer → client lib cap junk name (pieces g ++ recvs) [] = ⟨[], .code (-1)⟩) := by
  have e := recvLine_group hw.1 hlen hg hne recvs
  have hs := cString_wire hw []
  have hd : (w ++ [10]).drop (w.length + 1) = [] := by simp
  have ht := tokens_begun h0 hn offer
  unfold client
  rw [e]
  dsimp only
  rw [hs, hd]
  constructor
  · intro h
    rw [if_pos (ht.mpr h)]
    cases lib.start name with
    | none => rfl
    | some ses => simp [sendUnsigned]
  · intro h
    rw [if_neg (fun hb => h (ht.mp hb))]

theorem toCome_append (a b : List Recv) : toCome (a ++ b) = toCome a + toCome b := by
  simp [toCome]

theorem toCome_pos {ps : List Bytes} (h : ps ≠ []) : 0 < toCome (pieces ps) := by
  cases ps with
  | nil => exact absurd rfl h
  | cons p ps => simp only [pieces, List.map_cons, toCome, List.sum_cons]; omega

theorem arriving_toCome {cap : Nat} (as : List Arriving) (h : ∀ a ∈ as, a.Good cap) :
    as.length ≤ toCome (pieces (as.map (·.pieces)).flatten) := by
  induction as with
  | nil => simp
  | cons a as ih =>
    have ha := h a (by simp)
    have : 0 < toCome (pieces a.pieces) := toCome_pos (by intro e; have := ha.whole; rw [e] at this; simp at this)
    have := ih (fun b hb => h b (by simp [hb]))
    rw [List.map_cons, List.flatten_cons, pieces_append, toCome_append, List.length_cons]
    omega

theorem authenticate_extends (lib : Lib) (cap junk : Nat) :
    ∀ (fuel : Nat) (first : Bool) (buf : Bytes) (ses : lib.S) (recvs : List Recv) (sends : Sends) (out : Bytes),
      out <+: (authenticate lib cap junk fuel first buf ses recvs sends out).sent
  | 0, _, _, _, _, _, out => List.prefix_refl out
  | fuel + 1, first, buf, ses, recvs, sends, out => by
    rw [authenticate]
    have go : ∀ (fresh : Nat) (buf : Bytes) (idx : Nat) (recvs : List Recv),
        out <+: (match lib.step64 ses (cString buf (lineEnd buf idx)) with
          | (.error, _, _) => (⟨out, .code (-1)⟩ : Run)
          | (rc, output, ses) =>
            if buf.length < fresh then ⟨out, .undefined⟩
            else
              match (sendLoop (output.getD []) sends 0 (min (output.getD []).length cap) []).rest with
              | none => ⟨out ++ (sendLoop (output.getD []) sends 0 (min (output.getD []).length cap) []).out, .code (-2)⟩
              | some sends' =>
                match (sendSigned (b!"\n") sends').rest with
                | none => ⟨out ++ (sendLoop (output.getD []) sends 0 (min (output.getD []).length cap) []).out,
                    .code (-2)⟩
                | some sends'' =>
                  match rc with
                  | .needsMore => authenticate lib cap junk fuel false ((buf.set (lineEnd buf idx) 0).drop fresh) ses
                      recvs sends'' (out ++ (sendLoop (output.getD []) sends 0 (min (output.getD []).length cap) []).out
                        ++ (sendSigned (b!"\n") sends').out)
                  | _ => ⟨out ++ (sendLoop (output.getD []) sends 0 (min (output.getD []).length cap) []).out
                        ++ (sendSigned (b!"\n") sends').out,
                      finish cap recvs ((buf.set (lineEnd buf idx) 0).drop fresh)⟩).sent := by
      intro fresh buf idx recvs
      split
      · exact List.prefix_refl out
      · split
        · exact List.prefix_refl out
        · split
          · exact List.prefix_append _ _
          · split
            · exact List.prefix_append _ _
            · split
              · refine List.IsPrefix.trans ?_ (authenticate_extends lib cap junk fuel _ _ _ _ _ _)
                rw [List.append_assoc]
                exact List.prefix_append _ _
              · simp only [List.append_assoc]
                exact List.prefix_append _ _
    split
    · exact List.prefix_refl out
    · exact List.prefix_refl out
    · exact go _ _ _ _

theorem name_ne {name : Bytes} (h0 : name ≠ []) : name.take 30 ≠ [] := by
  cases name with
  | nil => exact absurd rfl h0
  | cons x n => simp

/-! ## C114 -/

/-- C114: the client goes on exactly if a word of the server's list begins with the name (of which it
looks at 30 bytes); else it sends nothing. -/
theorem C114_offer (lib : Lib) (cap junk : Nat) (name : Bytes) (hn : (32 : UInt8) ∉ name.take 30)
    (h0 : name ≠ []) (a : Arriving) (ha : a.Good cap) (recvs : List Recv) :
    (client lib cap junk name (a.pieces.map .data ++ recvs) []).sent ≠ [] ↔ Begun (name.take 30) a.line := by
  have h := client_start lib cap name ha.wire ha.short (name_ne h0) hn ha.whole ha.pieces junk recvs
  constructor
  · intro hs
    by_cases hb : Begun (name.take 30) a.line
    · exact hb
    · exact absurd (congrArg Run.sent (h.2 hb)) hs
  · intro hb
    show (client lib cap junk name (pieces a.pieces ++ recvs) []).sent ≠ []
    rw [h.1 hb]
    cases lib.start name with
    | none => simp
    | some ses =>
      intro e
      have := authenticate_extends lib cap junk (toCome recvs + 2) true [] ses recvs [] (name.take 30 ++ [32])
      dsimp only at e
      rw [e] at this
      simp at this

/-- C114: whatever pieces the lines of the server arrive in, one line after the other, the client does with them what it
should: the library is given the lines without their ends, its texts are sent as lines, and the line after the last
one is the outcome. Partial: for `fresh` being 0 when it is first read (`C114_fresh_false`), if `send` takes all it is
given (`C114_send_false`), and `recv` does not fail (`C114_recv_false`). -/
theorem C114_pieces_partial (lib : Lib) (cap : Nat) (hfit : Fits lib cap) (name : Bytes)
    (hn : (32 : UInt8) ∉ name.take 30) (h0 : name ≠ []) (offer : Arriving) (ho : offer.Good cap)
    (hb : Begun (name.take 30) offer.line) (ses : lib.S) (hs : lib.start name = some ses) (as : List Arriving)
    (ha : ∀ a ∈ as, a.Good cap) :
    client lib cap 0 name ((((offer :: as).map (·.pieces)).flatten).map .data) [] =
      ⟨name.take 30 ++ 32 :: (lineTalk lib ses [] (as.map (·.line))).sent,
        (lineTalk lib ses [] (as.map (·.line))).res⟩ := by
  have hc : 0 < cap := by have := ho.short; omega
  have h := (client_start lib cap name ho.wire ho.short (name_ne h0) hn ho.whole ho.pieces 0
    (pieces (as.map (·.pieces)).flatten)).1 hb
  have e : ((((offer :: as).map (·.pieces)).flatten).map Recv.data) =
      pieces offer.pieces ++ pieces (as.map (·.pieces)).flatten := by
    rw [← pieces_append]; rfl
  rw [e, h, hs]
  dsimp only
  rw [authenticate_first lib cap _ hfit]
  rcases hr : (lib.step64 ses []).1 with _ | _ | _
  · rw [lineTalk_ok hr]
    dsimp only
    congr 1
    · simp
    · cases as with
      | nil => exact finish_nothing hc
      | cons b as =>
        have hb := ha b (by simp)
        rw [List.map_cons, List.flatten_cons, pieces_append]
        exact finish_line hb.wire hb.short [] [] b.pieces hb.pieces hb.whole _
  · have hl := arriving_toCome (cap := cap) as ha
    rw [lineTalk_needsMore hr]
    dsimp only
    rw [authenticate_groups lib cap 0 hc hfit as _ _ _ ha (by omega)]
    simp
  · rw [lineTalk_error hr]

/-- C114: so it does if the last line for the library and the outcome arrive together. Partial as
`C114_pieces_partial`. -/
theorem C114_outcome_partial (lib : Lib) (cap : Nat) (hfit : Fits lib cap) (name : Bytes)
    (hn : (32 : UInt8) ∉ name.take 30) (h0 : name ≠ []) (offer : Arriving) (ho : offer.Good cap)
    (hb : Begun (name.take 30) offer.line) (ses : lib.S) (hs : lib.start name = some ses) (as : List Arriving)
    (ha : ∀ a ∈ as, a.Good cap) (l w o w' t : Bytes) (hw : OnWire w l) (hlen : w.length < cap) (hw' : OnWire w' o)
    (hlen' : w'.length < cap) (ps : List Bytes) (hne : ∀ p ∈ ps, p ≠ [])
    (hps : ps.flatten = w ++ 10 :: (w' ++ 10 :: t))
    (h1 : (lineTalk lib ses [] (as.map (·.line) ++ [l])).res = .waiting)
    (h2 : (lineTalk lib ses [] (as.map (·.line) ++ [l, o])).res = .outcome (outcomeOf o)) :
    client lib cap 0 name ((((offer :: as).map (·.pieces)).flatten ++ ps).map .data) [] =
      ⟨name.take 30 ++ 32 :: (lineTalk lib ses [] (as.map (·.line) ++ [l, o])).sent, .outcome (outcomeOf o)⟩ := by
  have h := (client_start lib cap name ho.wire ho.short (name_ne h0) hn ho.whole ho.pieces 0
    (pieces ((as.map (·.pieces)).flatten ++ ps))).1 hb
  have e : ((((offer :: as).map (·.pieces)).flatten ++ ps).map Recv.data) =
      pieces offer.pieces ++ pieces ((as.map (·.pieces)).flatten ++ ps) := by
    rw [← pieces_append, ← List.append_assoc]; rfl
  rw [e, h, hs]
  dsimp only
  rw [authenticate_first lib cap _ hfit]
  have hp : 0 < toCome (pieces ps) := toCome_pos (by rintro rfl; simp at hps)
  rcases hr : (lib.step64 ses []).1 with _ | _ | _
  · rw [lineTalk_ok hr] at h1
    cases hl : as.map (·.line) ++ [l] with
    | nil => simp at hl
    | cons x xs => rw [hl] at h1; cases h1
  · have hl := arriving_toCome (cap := cap) as ha
    rw [lineTalk_needsMore hr] at h1 h2 ⊢
    dsimp only
    rw [authenticate_last lib cap 0 hfit hw hlen hw' hlen' t ps hne hps as _ _ _ ha
      (by rw [pieces_append, toCome_append]; omega) h1 h2]
    simp
  · rw [lineTalk_error hr] at h1
    cases h1

/-- C114: and whatever the pieces, also if the server sends lines too early: the client does what it should with the lines,
or is left waiting on the way. Partial as `C114_pieces_partial`. -/
theorem C114_early_partial (lib : Lib) (cap : Nat) (hfit : Fits lib cap) (name : Bytes)
    (hn : (32 : UInt8) ∉ name.take 30) (h0 : name ≠ []) (offer : Arriving) (ho : offer.Good cap)
    (hb : Begun (name.take 30) offer.line) (ses : lib.S) (hs : lib.start name = some ses)
    (wl : List (Bytes × Bytes)) (hw : ∀ x ∈ wl, OnWire x.1 x.2 ∧ x.1.length < cap) (ps : List Bytes)
    (hne : ∀ p ∈ ps, p ≠ []) (hps : ps.flatten = stream (wl.map Prod.fst)) :
    let r := client lib cap 0 name ((offer.pieces ++ ps).map .data) []
    let s := lineTalk lib ses [] (wl.map Prod.snd)
    r = ⟨name.take 30 ++ 32 :: s.sent, s.res⟩ ∨ r.res = .waiting ∧ r.sent <+: name.take 30 ++ 32 :: s.sent := by
  intro r s
  have hc : 0 < cap := by have := ho.short; omega
  have h := (client_start lib cap name ho.wire ho.short (name_ne h0) hn ho.whole ho.pieces 0 (pieces ps)).1 hb
  have er : r = authenticate lib cap 0 (toCome (pieces ps) + 2) true [] ses (pieces ps) []
      (name.take 30 ++ [32]) := by
    show client lib cap 0 name ((offer.pieces ++ ps).map .data) [] = _
    have e : ((offer.pieces ++ ps).map Recv.data) = pieces offer.pieces ++ pieces ps := by
      rw [← pieces_append]; rfl
    rw [e, h, hs]
  rw [er, authenticate_first lib cap _ hfit]
  rcases hr : (lib.step64 ses []).1 with _ | _ | _
  · left
    show _ = (⟨_ ++ 32 :: (lineTalk lib ses [] (wl.map Prod.snd)).sent, (lineTalk lib ses [] (wl.map Prod.snd)).res⟩ : Run)
    rw [lineTalk_ok hr]
    dsimp only
    congr 1
    · simp
    · cases wl with
      | nil =>
        obtain ⟨_, rfl⟩ := nothing_left (t := []) (ps := ps) (by simpa [stream] using hps.symm) hne
        exact finish_nothing hc
      | cons y wl =>
        obtain ⟨w', l'⟩ := y
        obtain ⟨hwl', hlen'⟩ := hw (w', l') (by simp)
        rw [List.map_cons, stream_cons] at hps
        have := finish_line hwl' hlen' _ [] ps hne hps []
        rw [List.append_nil] at this
        exact this
  · have hsafe := authenticate_safe lib cap 0 hfit (toCome (pieces ps) + 1) wl ps [] (lib.step64 ses []).2.2
      (name.take 30 ++ [32] ++ ((lib.step64 ses []).2.1.getD [] ++ [10])) hne hw hps (by simp; omega) (by omega)
    show _ = (⟨_ ++ 32 :: (lineTalk lib ses [] (wl.map Prod.snd)).sent, (lineTalk lib ses [] (wl.map Prod.snd)).res⟩ : Run)
      ∨ _ ∧ _ <+: _ ++ 32 :: (lineTalk lib ses [] (wl.map Prod.snd)).sent
    rw [lineTalk_needsMore hr]
    simpa only [Agrees, List.append_assoc, List.singleton_append, List.cons_append, List.nil_append] using hsafe
  · left
    show _ = (⟨_ ++ 32 :: (lineTalk lib ses [] (wl.map Prod.snd)).sent, (lineTalk lib ses [] (wl.map Prod.snd)).res⟩ : Run)
    rw [lineTalk_error hr]

/-- C114 is false without the condition on `fresh`: it is read before anything was written to it, and whenever it does not
happen to hold 0 then `memmove` is told to move nearly 2^64 bytes, after the library's first step. -/
theorem C114_fresh_false (lib : Lib) (cap junk : Nat) (hj : 0 < junk) (name : Bytes)
    (hn : (32 : UInt8) ∉ name.take 30) (h0 : name ≠ []) (offer : Arriving) (ho : offer.Good cap)
    (hb : Begun (name.take 30) offer.line) (ses : lib.S) (hs : lib.start name = some ses)
    (hstep : (lib.step64 ses []).1 ≠ .error) (recvs : List Recv) :
    client lib cap junk name (offer.pieces.map .data ++ recvs) [] = ⟨name.take 30 ++ [32], .undefined⟩ := by
  have h := (client_start lib cap name ho.wire ho.short (name_ne h0) hn ho.whole ho.pieces junk recvs).1 hb
  show client lib cap junk name (pieces offer.pieces ++ recvs) [] = _
  rw [h, hs]
  dsimp only
  rw [authenticate]
  have e0 : cString [] (lineEnd [] 0) = [] := rfl
  simp only [if_true, e0]
  rcases hr : lib.step64 ses [] with ⟨rc, o, s⟩
  rw [hr] at hstep
  cases rc
  · rw [if_pos (by simpa using hj)]
  · rw [if_pos (by simpa using hj)]
  · exact absurd rfl hstep

/-- C114: a message is sent whole if `send` takes it in at most two parts. Partial: see `C114_send_false`. -/
theorem C114_send_partial (output : Bytes) (n : Nat) (h : 0 < n) :
    sendLoop output [] 0 output.length [] = ⟨output, some []⟩ ∧
    (sendLoop output [.took n] 0 output.length []).out = output ∧
    ∀ sends, output.length ≤ n → (sendLoop output (.took n :: sends) 0 output.length []).out = output := by
  refine ⟨by simp [sendLoop], ?_, ?_⟩
  · unfold sendLoop
    by_cases ho : output.length = 0
    · rw [if_pos ho]; exact (List.length_eq_zero_iff.mp ho).symm
    · rw [if_neg ho]
      dsimp only
      rw [if_neg (by omega)]
      unfold sendLoop
      dsimp only
      rw [List.drop_zero, List.nil_append]
      rw [show (output.drop (min n output.length)).take (output.length - min n output.length) =
        output.drop (min n output.length) from List.take_of_length_le (by simp), List.take_append_drop]
  · intro sends hle
    unfold sendLoop
    by_cases ho : output.length = 0
    · rw [if_pos ho]; exact (List.length_eq_zero_iff.mp ho).symm
    · rw [if_neg ho]
      dsimp only
      rw [if_neg (by omega), Nat.min_eq_right hle, Nat.sub_self]
      cases sends <;> simp [sendLoop]

/-- C114 is false of messages that take three calls of `send` or more: the third sends from the wrong place. With
calls that take `a`, `b` and the rest, what arrives is the message only if the bytes from `b` are those from
`a + b`. -/
theorem C114_send_false (output : Bytes) (a b : Nat) (ha : 0 < a) (hb : 0 < b) (hab : a + b < output.length) :
    (sendLoop output [.took a, .took b] 0 output.length []).out = output ↔
      (output.drop b).take (output.length - a - b) = output.drop (a + b) := by
  have h1 : min a output.length = a := by omega
  have h2 : min b (output.length - a) = b := by omega
  have e : (sendLoop output [.took a, .took b] 0 output.length []).out =
      output.take (a + b) ++ (output.drop b).take (output.length - a - b) := by
    unfold sendLoop
    rw [if_neg (by omega)]
    dsimp only
    rw [if_neg (by omega), h1]
    unfold sendLoop
    rw [if_neg (by omega)]
    dsimp only
    rw [if_neg (by omega), h2]
    unfold sendLoop
    simp [List.take_add]
  rw [e]
  constructor
  · intro h
    have : output.take (a + b) ++ (output.drop b).take (output.length - a - b) =
        output.take (a + b) ++ output.drop (a + b) := by rw [h, List.take_append_drop]
    exact List.append_cancel_left this
  · intro h
    rw [h, List.take_append_drop]

example : (sendLoop (b!"abcd") [.took 1, .took 1] 0 4 []).out = b!"abbc" := rfl

/-- C114 is false where `recv` fails: an error at the beginning leads out of the buffer, one after the first bytes of
the outcome counts as the end of the line, so that three bytes make a success. -/
theorem C114_recv_false (lib : Lib) (cap junk : Nat) (hc : 3 < cap) (name : Bytes) (rest : List Recv)
    (sends : Sends) :
    client lib cap junk name (.failed :: rest) sends = ⟨[], .undefined⟩ ∧
    finish cap (.data (b!"OK!") :: .failed :: rest) [] = .outcome (some true) := by
  constructor
  · unfold client recvLine
    rw [if_neg (by simp; omega), if_pos rfl]
  · have h : recvLine cap (.data (b!"OK!") :: .failed :: rest) [] = .torn (b!"OK!") rest := by
      unfold recvLine
      have ht : (b!"OK!" : Bytes).take (cap - ([] : Bytes).length) = b!"OK!" :=
        List.take_of_length_le (by simp; omega)
      simp only [ht]
      rw [if_neg (by simp; omega), if_neg (by decide), if_pos (by rfl)]
      unfold recvLine
      rw [if_neg (by simp; omega), if_neg (by decide)]
      rfl
    unfold finish
    dsimp only
    rw [if_pos (by rfl), h]
    rfl

/-- C114: the client may go on with a mechanism it was not offered: a longer name is enough. -/
theorem C114_offer_false : ∃ offer, Begun (b!"SCRAM-SHA-256") offer ∧ ¬ Offered (b!"SCRAM-SHA-256") offer := by
  refine ⟨b!"SCRAM-SHA-256-PLUS", ⟨[], b!"-PLUS", rfl, .inl rfl⟩, ?_⟩
  rintro ⟨pre, post, h, hpre, hpost⟩
  have h32 : (32 : UInt8) ∉ (b!"SCRAM-SHA-256-PLUS" : Bytes) := by decide
  have e : pre = [] := by
    rcases hpre with rfl | hl
    · rfl
    · obtain ⟨ys, rfl⟩ := List.getLast?_eq_some_iff.mp hl
      exact absurd (by rw [h]; simp) h32
  subst e
  have hp : post = b!"-PLUS" :=
    (List.append_cancel_left (as := b!"SCRAM-SHA-256") (bs := b!"-PLUS") (cs := post) h).symm
  subst hp
  rcases hpost with hpost | hpost <;> cases hpost

/-- C114: the interop server's list does offer its mechanisms, fits on a line, and before the client has
said something the server sends nothing else: nothing is in the buffer when the dialogue starts. -/
theorem C114_server (deps : Deps) (cfg : Config) (vars : Interop.Vars) (errText : SessionError → Bytes)
    (rng : Nat → Nat) (name : Bytes) (h : name ∈ cfg.getAvailable.map (·.name)) :
    ∃ offer, (Interop.handleClient deps cfg vars errText rng []).out = offer ++ [10] ∧ Offered name offer := by
  refine ⟨((cfg.getAvailable.map (·.name)).map (· ++ b!" ")).flatten, rfl, ?_⟩
  obtain ⟨as, bs, e⟩ := List.append_of_mem h
  rw [e]
  refine ⟨(as.map (· ++ b!" ")).flatten, b!" " ++ (bs.map (· ++ b!" ")).flatten, by simp, ?_, .inr rfl⟩
  rcases List.eq_nil_or_concat as with rfl | ⟨as, a, rfl⟩
  · exact .inl rfl
  · right
    simp

/-- A library that answers the first question with a text, and the second with none. -/
def toyLib : Lib where
  S := Nat
  start _ := some 0
  step64
    | 0, _ => (.needsMore, some (b!"biws"), 1)
    | 1, input => if input = b!"cj0x" then (.needsMore, some (b!"Yz1i"), 2) else (.error, none, 1)
    | n, _ => (.ok, none, n)

example : Fits toyLib bufsiz := by
  intro (ses : Nat) input
  match ses with
  | 0 => show 4 ≤ bufsiz; decide
  | 1 =>
    show ((if input = b!"cj0x" then ((.needsMore, some (b!"Yz1i"), 2) : Rc × Option Bytes × Nat)
      else (.error, none, 1)).2.1.getD []).length ≤ bufsiz
    split <;> decide
  | n + 2 => exact Nat.zero_le _

set_option maxRecDepth 20000 in
example : main toyLib 0 ([b!"PLAIN SCRAM-", b!"SHA-256 ", b!"\n", b!"cj0", b!"x\r\n", b!"dj", b!"0x\nOK VA", b!"LID\n"].map .data) [] =
    ⟨b!"SCRAM-SHA-256 biws\nYz1i\n\n", .outcome (some true)⟩ := rfl

set_option maxRecDepth 20000 in
/-- What C114 says is left waiting: the server's lines come all at once. -/
example : main toyLib 0 ([b!"SCRAM-SHA-256\n", b!"cj0x\ndj0x\nOK\n"].map .data) [] =
    ⟨b!"SCRAM-SHA-256 biws\nYz1i\n", .waiting⟩ := rfl

example : (⟨b!"cj0x", b!"cj0x\r", [b!"cj0", b!"x\r\n"]⟩ : Arriving).Good bufsiz :=
  ⟨⟨by decide, by decide, .inl rfl⟩, by decide, rfl, by decide⟩

end Rsasl

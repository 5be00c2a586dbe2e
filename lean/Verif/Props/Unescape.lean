/-
C75: `SaslName::unescape`.
-/
import Verif.Props.ScramMsgs

namespace Rsasl

open Scram Spec

/-- An escaped comma or an escaped equals sign. -/
def Spec.Escape (b : Bytes) : Prop := b!"2C" <+: b ∨ b!"3D" <+: b

/-- The full claim: unescaping gives back the name that was escaped. -/
def C75_claim : Prop :=
  ∀ name text, name ≠ [] → Escapes name text → ∃ fuel, unescape fuel (Str.bytes text) = .ok name

theorem find_equals {a b : Bytes} (ha : (61 : UInt8) ∉ a) :
    (a ++ 61 :: b).findIdx? (· == 61) = some a.length := by
  induction a with
  | nil => rfl
  | cons x a ih =>
    simp only [List.mem_cons, not_or] at ha
    have hx : (x == 61) = false := by simpa using fun h => ha.1 (Eq.symm h)
    rw [List.cons_append, List.findIdx?_cons, hx, ih ha.2]
    rfl

theorem find_equals_none {a : Bytes} (ha : (61 : UInt8) ∉ a) : a.findIdx? (· == 61) = none := by
  rw [List.findIdx?_eq_none_iff]
  intro x hx
  simpa using fun h : x = 61 => ha (h ▸ hx)

theorem fromUtf8_none {b : Bytes} (h : ∀ s, b ≠ Str.bytes s) : fromUtf8 b = none := by
  cases hu : fromUtf8 b with
  | none => rfl
  | some s => exact absurd (bytes_of_fromUtf8 _ _ hu).symm (h s)

theorem escape_cons {b : Bytes} (h : Escape b) : ∃ x y r, b = x :: y :: r ∧
    ([x, y] = b!"2C" ∨ [x, y] = b!"3D") := by
  rcases h with ⟨r, rfl⟩ | ⟨r, rfl⟩
  · exact ⟨_, _, r, rfl, .inl rfl⟩
  · exact ⟨_, _, r, rfl, .inr rfl⟩

/-- The loop stays at a valid escape. -/
theorem unescapeLoop_stays (fuel : Nat) (out : Str) {b : Bytes} (h : Escape b) :
    unescapeLoop fuel out (61 :: b) = .running := by
  obtain ⟨x, y, r, rfl, hxy⟩ := escape_cons h
  induction fuel generalizing out with
  | zero => rfl
  | succ n ih =>
    have hf : (61 :: x :: y :: r : Bytes).findIdx? (· == 61) = some 0 := rfl
    rw [unescapeLoop]
    simp only [hf, List.take_zero, show fromUtf8 [] = some [] from rfl, List.drop_succ_cons, List.drop_zero]
    rcases hxy with hxy | hxy
    · rw [if_pos hxy]; exact ih _
    · rw [if_neg (by rw [hxy]; decide), if_pos hxy]; exact ih _

theorem unescape_checked {fuel : Nat} {input : Bytes} (hne : input ≠ []) (h0 : (0 : UInt8) ∉ input)
    (h44 : (44 : UInt8) ∉ input) :
    unescape fuel input = match input.findIdx? (· == 61) with
      | some bad =>
        match fromUtf8 (input.take bad) with
        | none => .err .invalidUtf8
        | some good => unescapeLoop fuel good (input.drop bad)
      | none =>
        match fromUtf8 input with
        | none => .err .invalidUtf8
        | some s => .ok s := by
  have hf : input.find? (fun b => b == 0 || b == 44) = none := by
    rw [List.find?_eq_none]
    intro x hx
    simp only [Bool.or_eq_true, beq_iff_eq, not_or]
    exact ⟨fun h => h0 (h ▸ hx), fun h => h44 (h ▸ hx)⟩
  unfold unescape
  rw [if_neg (by simpa using hne), hf]
  rfl

/-- C75: what unescaping does, for all inputs. It returns a name only if there is nothing to unescape;
at the first valid escape it goes on for ever; it panics at an equals sign with less than two bytes
after it. -/
theorem C75_exact (fuel : Nat) (input : Bytes) :
    (input = [] → unescape fuel input = .err .empty) ∧
    (∀ a c b, input = a ++ c :: b → c = 0 ∨ c = 44 → (0 : UInt8) ∉ a → (44 : UInt8) ∉ a →
      unescape fuel input = .err (.invalidChar c)) ∧
    (input ≠ [] → (0 : UInt8) ∉ input → (44 : UInt8) ∉ input →
      ((61 : UInt8) ∉ input →
        (∀ s, input = Str.bytes s → unescape fuel input = .ok s) ∧
        ((∀ s, input ≠ Str.bytes s) → unescape fuel input = .err .invalidUtf8)) ∧
      ∀ a b, input = a ++ 61 :: b → (61 : UInt8) ∉ a →
        ((∀ s, a ≠ Str.bytes s) → unescape fuel input = .err .invalidUtf8) ∧
        ∀ s, a = Str.bytes s →
          (Escape b → unescape fuel input = .running) ∧
          (0 < fuel → b.length < 2 → unescape fuel input = .panic) ∧
          (0 < fuel → 2 ≤ b.length → ¬ Escape b → unescape fuel input = .err .invalidEscape)) := by
  refine ⟨?_, ?_, ?_⟩
  · rintro rfl
    rfl
  · rintro a c b rfl hc h0 h44
    have hf : (a ++ c :: b).find? (fun b => b == 0 || b == 44) = some c := by
      rw [List.find?_append, List.find?_eq_none.2, Option.none_or, List.find?_cons_of_pos]
      · simpa using hc
      · intro x hx
        simp only [Bool.or_eq_true, beq_iff_eq, not_or]
        exact ⟨fun h => h0 (h ▸ hx), fun h => h44 (h ▸ hx)⟩
    unfold unescape
    rw [if_neg (by simp), hf]
  · intro hne h0 h44
    rw [unescape_checked hne h0 h44]
    refine ⟨?_, ?_⟩
    · intro h61
      rw [find_equals_none h61]
      refine ⟨?_, ?_⟩
      · rintro s rfl
        simp only [fromUtf8_bytes]
      · intro hs
        simp only [fromUtf8_none hs]
    · rintro a b rfl ha
      have hloop : (a ++ 61 :: b).drop a.length = 61 :: b := List.drop_left
      simp only [find_equals ha, List.take_left, hloop]
      refine ⟨?_, ?_⟩
      · intro hs
        simp only [fromUtf8_none hs]
      · rintro s rfl
        simp only [fromUtf8_bytes]
        have hf : (61 :: b : Bytes).findIdx? (· == 61) = some 0 := rfl
        refine ⟨unescapeLoop_stays fuel s, ?_, ?_⟩
        · intro hfuel hb
          obtain ⟨n, rfl⟩ : ∃ n, fuel = n + 1 := ⟨fuel - 1, by omega⟩
          rw [unescapeLoop]
          simp only [hf, List.take_zero, show fromUtf8 [] = some [] from rfl, List.drop_succ_cons,
            List.drop_zero]
          rcases b with _ | ⟨x, _ | ⟨y, r⟩⟩
          · rfl
          · rfl
          · simp only [List.length_cons] at hb
            omega
        · intro hfuel hb hno
          obtain ⟨n, rfl⟩ : ∃ n, fuel = n + 1 := ⟨fuel - 1, by omega⟩
          rw [unescapeLoop]
          simp only [hf, List.take_zero, show fromUtf8 [] = some [] from rfl, List.drop_succ_cons,
            List.drop_zero]
          rcases b with _ | ⟨x, _ | ⟨y, r⟩⟩
          · simp at hb
          · simp at hb
          · have h2 : [x, y] ≠ b!"2C" := fun h => hno (.inl ⟨r, by rw [← h]; rfl⟩)
            have h3 : [x, y] ≠ b!"3D" := fun h => hno (.inr ⟨r, by rw [← h]; rfl⟩)
            simp only [if_neg h2, if_neg h3]

/-- The bytes of an escaped name with something to unescape. -/
theorem escapes_split {name text : Str} (h : Escapes name text) (hs : ',' ∈ name ∨ '=' ∈ name) :
    ∃ (s : Str) (b : Bytes), Str.bytes text = Str.bytes s ++ 61 :: b ∧ '=' ∉ s ∧ Escape b := by
  induction h with
  | nil => simp at hs
  | comma h _ => exact ⟨[], b!"2C" ++ Str.bytes _, rfl, by simp, .inl ⟨_, rfl⟩⟩
  | equals h _ => exact ⟨[], b!"3D" ++ Str.bytes _, rfl, by simp, .inr ⟨_, rfl⟩⟩
  | @other name text c h1 h2 h3 h ih =>
    simp only [List.mem_cons, Ne.symm h1, Ne.symm h2, false_or] at hs
    obtain ⟨s, b, he, hs, hb⟩ := ih hs
    refine ⟨c :: s, b, ?_, by simp [hs, Ne.symm h2], hb⟩
    rw [Str.bytes_cons, Str.bytes_cons, he, List.append_assoc]

/-- C75: for every name with a comma or an equals sign, unescaping the escaped name does not end. -/
theorem C75_diverges {name text : Str} (h : Escapes name text) (hs : ',' ∈ name ∨ '=' ∈ name)
    (fuel : Nat) : unescape fuel (Str.bytes text) = .running := by
  obtain ⟨s, b, he, h61, hb⟩ := escapes_split h hs
  have hn := h.saslName.notMem
  refine (((C75_exact fuel (Str.bytes text)).2.2 ?_ ?_ ?_).2 _ b he ?_).2 s rfl |>.1 hb
  · rw [he]; simp
  · rw [mem_bytes_ascii (by decide)]; exact hn.2
  · rw [mem_bytes_ascii (by decide)]; exact hn.1
  · rw [mem_bytes_ascii (by decide)]; exact h61

/-- C75, for the names without a comma or an equals sign. Missing: all others, for which it is false
(`C75_diverges`). -/
theorem C75_partial (name text : Str) (hne : name ≠ []) (h : Escapes name text) (h1 : ',' ∉ name)
    (h2 : '=' ∉ name) (fuel : Nat) : unescape fuel (Str.bytes text) = .ok name := by
  have ht : text = name := by
    clear hne
    induction h with
    | nil => rfl
    | comma _ _ => simp at h1
    | equals _ _ => simp at h2
    | other c _ _ _ _ ih =>
      simp only [List.mem_cons, not_or] at h1 h2
      rw [ih h1.2 h2.2]
  subst ht
  have hn := h.saslName.notMem
  refine (((C75_exact fuel (Str.bytes text)).2.2 ?_ ?_ ?_).1 ?_).1 text rfl
  · rw [ne_eq, Str.bytes_eq_nil]; exact hne
  · rw [mem_bytes_ascii (by decide)]; exact hn.2
  · rw [mem_bytes_ascii (by decide)]; exact hn.1
  · rw [mem_bytes_ascii (by decide)]; exact h2

/-- C75 does not hold: `a,b`. -/
theorem C75_false : ¬ C75_claim := by
  intro h
  have he : Escapes (c!"a,b") (c!"a=2Cb") :=
    .other 'a' (by decide) (by decide) (by decide) (.comma (.other 'b' (by decide) (by decide) (by decide) .nil))
  obtain ⟨fuel, hf⟩ := h _ _ (by decide) he
  rw [C75_diverges he (.inl (by decide))] at hf
  cases hf

/-- A name that needs no escapes. -/
example : unescape 0 (Str.bytes (c!"user")) = .ok (c!"user") :=
  C75_partial (c!"user") (c!"user") (by decide)
    (.other 'u' (by decide) (by decide) (by decide) (.other 's' (by decide) (by decide) (by decide)
      (.other 'e' (by decide) (by decide) (by decide) (.other 'r' (by decide) (by decide) (by decide) .nil))))
    (by decide) (by decide) 0

/-- The panic. -/
example : unescape 1 (b!"a=2") = .panic :=
  ((((C75_exact 1 (b!"a=2")).2.2 (by decide) (by decide) (by decide)).2 (b!"a") (b!"2") rfl
    (by decide)).2 (c!"a") (by decide +kernel)).2.1 (by decide) (by decide)

end Rsasl

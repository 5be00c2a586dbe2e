/-
The reader of `Model/Json` reads exactly the texts of `Spec/JsonText`.
-/
import Verif.Model.Json
import Verif.Spec.JsonText
import Verif.Proofs.Bytes
import Mathlib.Tactic.Tauto

namespace Rsasl.SerdeJson

open Spec

/-! ## White space -/

theorem isWs_iff (b : UInt8) : isWs b = true ↔ b = 32 ∨ b = 9 ∨ b = 10 ∨ b = 13 := by
  unfold isWs
  simp only [Bool.or_eq_true, beq_iff_eq]
  tauto

theorem skipWs_ws {w : Bytes} (h : Ws w) (r : Bytes) : skipWs (w ++ r) = skipWs r := by
  induction w with
  | nil => rfl
  | cons b w ih =>
    have hb := (isWs_iff b).2 (h b (by simp))
    rw [List.cons_append]
    unfold skipWs
    rw [List.dropWhile_cons, if_pos hb]
    exact ih fun x hx => h x (by simp [hx])

/-- The bytes skipped. -/
theorem skipWs_split (b : Bytes) : ∃ w, Ws w ∧ b = w ++ skipWs b := by
  refine ⟨b.takeWhile isWs, fun x hx => (isWs_iff x).1 ?_, List.takeWhile_append_dropWhile.symm⟩
  exact List.all_eq_true.1 List.all_takeWhile x hx

theorem skipWs_of {c : UInt8} (h : isWs c = false) (r : Bytes) : skipWs (c :: r) = c :: r := by
  unfold skipWs
  rw [List.dropWhile_cons, if_neg (by simp [h])]

theorem skipWs_eq_nil {b : Bytes} : skipWs b = [] ↔ Ws b := by
  constructor
  · intro h
    obtain ⟨w, hw, e⟩ := skipWs_split b
    rw [h, List.append_nil] at e
    exact e ▸ hw
  · intro h
    have := skipWs_ws h []
    rwa [List.append_nil] at this

theorem ws_nil : Ws [] := by intro b hb; simp at hb

/-! ## JsonEscape sequences -/

theorem hexVal_iff (b : UInt8) (n : Nat) : hexVal b = some n ↔ Hex b n := by
  have hb := b.toNat_lt
  constructor
  · intro h
    unfold hexVal at h
    simp only [UInt8.le_iff_toNat_le] at h
    split at h
    · next h1 =>
      obtain rfl := Option.some.inj h
      have := Hex.digit (b.toNat - 48) (by simp at h1; omega)
      rwa [show 48 + (b.toNat - 48) = b.toNat by simp at h1; omega, UInt8.ofNat_toNat] at this
    · split at h
      · next h1 =>
        obtain rfl := Option.some.inj h
        have := Hex.upper (b.toNat - 65) (by simp at h1; omega)
        rwa [show 65 + (b.toNat - 65) = b.toNat by simp at h1; omega, UInt8.ofNat_toNat,
          show 10 + (b.toNat - 65) = b.toNat - 55 by simp at h1; omega] at this
      · split at h
        · next h1 =>
          obtain rfl := Option.some.inj h
          have := Hex.lower (b.toNat - 97) (by simp at h1; omega)
          rwa [show 97 + (b.toNat - 97) = b.toNat by simp at h1; omega, UInt8.ofNat_toNat,
            show 10 + (b.toNat - 97) = b.toNat - 87 by simp at h1; omega] at this
        · cases h
  · have h1 : ∀ i < 10, hexVal (UInt8.ofNat (48 + i)) = some i := by decide
    have h2 : ∀ i < 6, hexVal (UInt8.ofNat (65 + i)) = some (10 + i) := by decide
    have h3 : ∀ i < 6, hexVal (UInt8.ofNat (97 + i)) = some (10 + i) := by decide
    rintro (⟨i, h⟩ | ⟨i, h⟩ | ⟨i, h⟩)
    · exact h1 _ h
    · exact h2 _ h
    · exact h3 _ h

theorem hex4_iff (b : Bytes) (n : Nat) (r : Bytes) : hex4 b = some (n, r) ↔ ∃ x, b = x ++ r ∧ Hex4 x n := by
  constructor
  · intro h
    unfold hex4 at h
    split at h
    · next x y z w t =>
      split at h
      · next i j k l hi hj hk hl =>
        obtain ⟨rfl, rfl⟩ := Prod.mk.inj (Option.some.inj h)
        refine ⟨[x, y, z, w], rfl, ?_⟩
        have := Hex4.mk ((hexVal_iff _ _).1 hi) ((hexVal_iff _ _).1 hj) ((hexVal_iff _ _).1 hk)
          ((hexVal_iff _ _).1 hl)
        rwa [show 4096 * i + 256 * j + 16 * k + l = ((i * 16 + j) * 16 + k) * 16 + l by omega] at this
      · cases h
    · cases h
  · rintro ⟨x, rfl, ⟨ha, hb, hc, hd⟩⟩
    unfold hex4
    simp only [List.cons_append, List.nil_append, (hexVal_iff _ _).2 ha, (hexVal_iff _ _).2 hb,
      (hexVal_iff _ _).2 hc, (hexVal_iff _ _).2 hd]
    congr 2
    omega

theorem hex4_lt {x : Bytes} {n : Nat} (h : Hex4 x n) : n < 65536 := by
  have hx : ∀ {b i}, Hex b i → i < 16 := by rintro b i (⟨i, h⟩ | ⟨i, h⟩ | ⟨i, h⟩) <;> omega
  obtain ⟨ha, hb, hc, hd⟩ := h
  have := hx ha; have := hx hb; have := hx hc; have := hx hd
  omega

theorem simpleEscape_iff (b : UInt8) (c : Char) : simpleEscape b = some c ↔ Letter b c := by
  constructor
  · intro h
    unfold simpleEscape at h
    repeat (split at h; · next e => subst e; obtain rfl := Option.some.inj h; constructor)
    cases h
  · rintro ⟨⟩ <;> rfl

theorem letter_ne {b : UInt8} {c : Char} (h : Letter b c) : b ≠ 117 := by cases h <;> decide

theorem toNat_ofNat {n : Nat} (h : n < 0xD800 ∨ 0xDFFF < n ∧ n < 0x110000) : (Char.ofNat n).toNat = n := by
  have hv : n.isValidChar := by unfold Nat.isValidChar; omega
  rw [Char.ofNat, dif_pos hv]
  rfl

theorem char_valid (c : Char) : c.toNat < 0xD800 ∨ 0xDFFF < c.toNat ∧ c.toNat < 0x110000 := by
  have := c.valid
  unfold UInt32.isValidChar Nat.isValidChar at this
  exact this

theorem escape_iff (b : Bytes) (c : Char) (r : Bytes) :
    escape b = some (c, r) ↔ ∃ x, b = x ++ r ∧ JsonEscape x c := by
  constructor
  · intro h
    unfold escape at h
    split at h
    · cases h
    next a t =>
    split at h
    · next ha =>
      subst ha
      unfold unicodeEscape at h
      split at h
      · cases h
      next n t' hn =>
      obtain ⟨x, rfl, hx⟩ := (hex4_iff ..).1 hn
      have hlt := hex4_lt hx
      split at h
      · cases h
      · split at h
        · next h1 h2 =>
          obtain ⟨rfl, rfl⟩ := Prod.mk.inj (Option.some.inj h)
          refine ⟨117 :: x, rfl, .plane ?_⟩
          rwa [toNat_ofNat (by omega)]
        · next h1 h2 =>
          split at h
          · cases h
          next t₂ hs =>
          obtain rfl := stripPrefix_eq_some.1 hs
          split at h
          · cases h
          next n₂ t₃ hn₂ =>
          obtain ⟨y, rfl, hy⟩ := (hex4_iff ..).1 hn₂
          split at h
          · cases h
          next h3 =>
          obtain ⟨rfl, rfl⟩ := Prod.mk.inj (Option.some.inj h)
          refine ⟨117 :: x ++ 92 :: 117 :: y, by simp, ?_⟩
          refine JsonEscape.pair (hi := n - 0xD800) (lo := n₂ - 0xDC00) ?_ ?_ (by omega) (by omega) ?_
          · rwa [show 0xD800 + (n - 0xD800) = n by omega]
          · rwa [show 0xDC00 + (n₂ - 0xDC00) = n₂ by omega]
          · rw [toNat_ofNat (by omega)]
            omega
    · cases hs : simpleEscape a with
      | none => rw [hs] at h; cases h
      | some c' =>
        rw [hs] at h
        obtain ⟨rfl, rfl⟩ := Prod.mk.inj (Option.some.inj h)
        exact ⟨[a], rfl, .letter ((simpleEscape_iff ..).1 hs)⟩
  · rintro ⟨x, rfl, h⟩
    cases h with
    | letter h =>
      unfold escape
      simp only [List.cons_append, List.nil_append, if_neg (letter_ne h), (simpleEscape_iff ..).2 h, Option.map_some]
    | @plane x _ h =>
      have hv := char_valid c
      have hlt := hex4_lt h
      unfold escape unicodeEscape
      simp only [List.cons_append, if_true, (hex4_iff ..).2 ⟨x, rfl, h⟩]
      rw [if_neg (by omega), if_pos (by omega), Char.ofNat_toNat]
    | @pair x y _ hi lo hx hy h1 h2 hc =>
      unfold escape unicodeEscape
      have e1 : hex4 (x ++ (92 :: 117 :: (y ++ r))) = some (0xD800 + hi, 92 :: 117 :: (y ++ r)) :=
        (hex4_iff ..).2 ⟨x, rfl, hx⟩
      have e2 : hex4 (y ++ r) = some (0xDC00 + lo, r) := (hex4_iff ..).2 ⟨y, rfl, hy⟩
      have e3 : stripPrefix [92, 117] (92 :: 117 :: (y ++ r)) = some (y ++ r) := stripPrefix_append [92, 117] _
      simp only [List.cons_append, List.append_assoc, if_true, e1, e2, e3]
      rw [if_neg (by omega), if_neg (by omega), if_neg (by omega)]
      rw [show (0xD800 + hi - 0xD800) * 1024 + (0xDC00 + lo - 0xDC00) + 0x10000 = c.toNat by omega,
        Char.ofNat_toNat]

/-! ## Strings -/

theorem plainByte_iff (b : UInt8) : PlainByte b ↔ b ≠ 34 ∧ b ≠ 92 ∧ ¬ b < 32 := by
  unfold PlainByte
  rw [UInt8.lt_iff_toNat_lt]
  simp only [UInt8.reduceToNat, Nat.not_lt]
  tauto

theorem strN_sound : ∀ (n : Nat) (b s : Bytes) (e : Bool) (r : Bytes), strN n b = some (s, e, r) →
    ∃ t, b = t ++ 34 :: r ∧ Content t s e := by
  intro n
  induction n with
  | zero => intro b s e r h; cases h
  | succ n ih =>
    intro b s e r h
    cases b with
    | nil => cases h
    | cons b t =>
      unfold strN at h
      split at h
      · next hb =>
        subst hb
        simp only [Option.some.injEq, Prod.mk.injEq] at h
        obtain ⟨rfl, rfl, rfl⟩ := h
        exact ⟨[], rfl, .nil⟩
      · next h34 =>
        split at h
        · next h92 =>
          subst h92
          split at h
          · cases h
          next c t' hc =>
          obtain ⟨x, rfl, hx⟩ := (escape_iff ..).1 hc
          split at h
          · cases h
          next s' e' r' hn =>
          obtain ⟨t'', rfl, ht⟩ := ih _ _ _ _ hn
          simp only [Option.some.injEq, Prod.mk.injEq] at h
          obtain ⟨rfl, rfl, rfl⟩ := h
          exact ⟨92 :: x ++ t'', by simp, .escape hx ht⟩
        · next h92 =>
          split at h
          · cases h
          next h32 =>
          split at h
          · cases h
          next s' e' r' hn =>
          obtain ⟨t'', rfl, ht⟩ := ih _ _ _ _ hn
          simp only [Option.some.injEq, Prod.mk.injEq] at h
          obtain ⟨rfl, rfl, rfl⟩ := h
          exact ⟨b :: t'', by simp, .plain ((plainByte_iff b).2 ⟨h34, h92, h32⟩) ht⟩

theorem strN_complete {t s : Bytes} {e : Bool} (h : Content t s e) (r : Bytes) :
    ∀ n, t.length < n → strN n (t ++ 34 :: r) = some (s, e, r) := by
  induction h with
  | nil =>
    intro n hn
    obtain ⟨n, rfl⟩ : ∃ m, n = m + 1 := ⟨n - 1, by simp at hn; omega⟩
    rfl
  | @plain b t s e hb ht ih =>
    intro n hn
    obtain ⟨n, rfl⟩ : ∃ m, n = m + 1 := ⟨n - 1, by omega⟩
    obtain ⟨h34, h92, h32⟩ := (plainByte_iff b).1 hb
    rw [List.cons_append, strN, if_neg h34, if_neg h92, if_neg h32, ih n (by simp at hn; omega)]
  | @escape x c t s e hx ht ih =>
    intro n hn
    obtain ⟨n, rfl⟩ : ∃ m, n = m + 1 := ⟨n - 1, by omega⟩
    have : escape (x ++ (t ++ 34 :: r)) = some (c, t ++ 34 :: r) := (escape_iff ..).2 ⟨x, rfl, hx⟩
    rw [List.append_assoc, List.cons_append, strN, if_neg (by decide), if_pos rfl, this]
    simp only []
    rw [ih n (by simp at hn; omega)]

theorem parseStr_iff (b : Bytes) (s : Str) (e : Bool) (r : Bytes) :
    parseStr b = some (s, e, r) ↔ ∃ t, b = t ++ 34 :: r ∧ Content t (Str.bytes s) e := by
  constructor
  · intro h
    unfold parseStr at h
    split at h
    · cases h
    next x e' r' hn =>
    obtain ⟨t, ht, hc⟩ := strN_sound _ _ _ _ _ hn
    split at h
    · cases h
    next s' hs =>
    simp only [Option.some.injEq, Prod.mk.injEq] at h
    obtain ⟨rfl, rfl, rfl⟩ := h
    rw [(fromUtf8_eq_some_iff _ _).1 hs] at hc
    exact ⟨t, ht, hc⟩
  · rintro ⟨t, rfl, hc⟩
    unfold parseStr
    rw [strN_complete hc r _ (by simp)]
    simp only [fromUtf8_bytes]

/-- A string without escape sequences is its own contents. -/
theorem content_false {t s : Bytes} : Content t s false ↔ t = s ∧ ∀ b ∈ t, PlainByte b := by
  constructor
  · intro h
    generalize he : false = e at h
    induction h with
    | nil => exact ⟨rfl, by simp⟩
    | plain hb _ ih =>
      obtain ⟨rfl, h⟩ := ih he
      exact ⟨rfl, by simpa using ⟨hb, h⟩⟩
    | escape => cases he
  · rintro ⟨rfl, h⟩
    induction t with
    | nil => exact .nil
    | cons b t ih => exact .plain (h b (by simp)) (ih fun x hx => h x (by simp [hx]))

/-! ## Strings that are ignored -/

theorem ignoreEscape_iff (b r : Bytes) : ignoreEscape b = some r ↔
    (∃ a c, Letter a c ∧ b = a :: r) ∨ ∃ x n, Hex4 x n ∧ b = 117 :: x ++ r := by
  constructor
  · intro h
    unfold ignoreEscape at h
    split at h
    · cases h
    next a t =>
    split at h
    · next ha =>
      subst ha
      cases hx : hex4 t with
      | none => rw [hx] at h; cases h
      | some y =>
        obtain ⟨n, t'⟩ := y
        rw [hx] at h
        obtain rfl := Option.some.inj h
        obtain ⟨x, rfl, hx'⟩ := (hex4_iff ..).1 hx
        exact .inr ⟨x, n, hx', rfl⟩
    · cases hs : simpleEscape a with
      | none => rw [hs] at h; cases h
      | some c =>
        rw [hs] at h
        obtain rfl := Option.some.inj h
        exact .inl ⟨a, c, (simpleEscape_iff ..).1 hs, rfl⟩
  · rintro (⟨a, c, h, rfl⟩ | ⟨x, n, h, rfl⟩)
    · unfold ignoreEscape
      simp only [if_neg (letter_ne h), (simpleEscape_iff ..).2 h, Option.map_some]
    · unfold ignoreEscape
      simp only [List.cons_append, if_true, (hex4_iff ..).2 ⟨x, rfl, h⟩, Option.map_some]

theorem ignoreStrN_sound : ∀ (n : Nat) (b r : Bytes), ignoreStrN n b = some r →
    ∃ t, b = t ++ 34 :: r ∧ Loose t := by
  intro n
  induction n with
  | zero => intro b r h; cases h
  | succ n ih =>
    intro b r h
    cases b with
    | nil => cases h
    | cons b t =>
      unfold ignoreStrN at h
      split at h
      · next hb =>
        subst hb
        obtain rfl := Option.some.inj h
        exact ⟨[], rfl, .nil⟩
      · next h34 =>
        split at h
        · next h92 =>
          subst h92
          split at h
          · cases h
          next t' hc =>
          obtain ⟨t'', rfl, ht⟩ := ih _ _ h
          obtain ⟨a, c, ha, rfl⟩ | ⟨x, m, hx, rfl⟩ := (ignoreEscape_iff ..).1 hc
          · exact ⟨92 :: a :: t'', rfl, .letter ha ht⟩
          · exact ⟨92 :: 117 :: x ++ t'', by simp, .hex hx ht⟩
        · next h92 =>
          split at h
          · cases h
          next h32 =>
          obtain ⟨t'', rfl, ht⟩ := ih _ _ h
          exact ⟨b :: t'', rfl, .plain ((plainByte_iff b).2 ⟨h34, h92, h32⟩) ht⟩

theorem ignoreStrN_complete {t : Bytes} (h : Loose t) (r : Bytes) :
    ∀ n, t.length < n → ignoreStrN n (t ++ 34 :: r) = some r := by
  induction h with
  | nil =>
    intro n hn
    obtain ⟨n, rfl⟩ : ∃ m, n = m + 1 := ⟨n - 1, by simp at hn; omega⟩
    rfl
  | @plain b t hb ht ih =>
    intro n hn
    obtain ⟨n, rfl⟩ : ∃ m, n = m + 1 := ⟨n - 1, by omega⟩
    obtain ⟨h34, h92, h32⟩ := (plainByte_iff b).1 hb
    rw [List.cons_append, ignoreStrN, if_neg h34, if_neg h92, if_neg h32, ih n (by simp at hn; omega)]
  | @letter b c t hb ht ih =>
    intro n hn
    obtain ⟨n, rfl⟩ : ∃ m, n = m + 1 := ⟨n - 1, by omega⟩
    have : ignoreEscape (b :: (t ++ 34 :: r)) = some (t ++ 34 :: r) := (ignoreEscape_iff ..).2 (.inl ⟨b, c, hb, rfl⟩)
    rw [List.cons_append, List.cons_append, ignoreStrN, if_neg (by decide), if_pos rfl, this]
    simp only []
    rw [ih n (by simp at hn; omega)]
  | @hex x m t hx ht ih =>
    intro n hn
    obtain ⟨n, rfl⟩ : ∃ m, n = m + 1 := ⟨n - 1, by omega⟩
    have : ignoreEscape (117 :: (x ++ (t ++ 34 :: r))) = some (t ++ 34 :: r) :=
      (ignoreEscape_iff ..).2 (.inr ⟨x, m, hx, by simp⟩)
    rw [List.append_assoc, List.cons_append, List.cons_append, ignoreStrN, if_neg (by decide), if_pos rfl, this]
    simp only []
    rw [ih n (by simp at hn; omega)]

theorem ignoreStr_sound {b r : Bytes} (h : ignoreStr b = some r) : ∃ t, b = t ++ 34 :: r ∧ Loose t :=
  ignoreStrN_sound _ _ _ h

theorem ignoreStr_complete {t : Bytes} (h : Loose t) (r : Bytes) : ignoreStr (t ++ 34 :: r) = some r :=
  ignoreStrN_complete h r _ (by simp)

/-! ## Numbers -/

theorem isDigit_iff (b : UInt8) : isDigit b = true ↔ 48 ≤ b.toNat ∧ b.toNat ≤ 57 := by
  unfold isDigit
  simp only [Bool.and_eq_true, decide_eq_true_eq, UInt8.le_iff_toNat_le, UInt8.reduceToNat]

/-- What may follow a number. -/
def Stops (r : Bytes) : Prop := ∀ c t, r = c :: t → isDigit c = false ∧ c ≠ 46 ∧ c ≠ 101 ∧ c ≠ 69

theorem digits_sound (b : Bytes) : ∃ ds, Digits ds ∧ b = ds ++ b.dropWhile isDigit := by
  refine ⟨b.takeWhile isDigit, fun x hx => (isDigit_iff x).1 ?_, List.takeWhile_append_dropWhile.symm⟩
  exact List.all_eq_true.1 List.all_takeWhile x hx

theorem digits_complete {ds : Bytes} (h : Digits ds) {r : Bytes} (hr : ∀ c t, r = c :: t → isDigit c = false) :
    (ds ++ r).dropWhile isDigit = r := by
  induction ds with
  | nil =>
    cases r with
    | nil => rfl
    | cons c t => simp [List.dropWhile_cons, hr c t rfl]
  | cons d ds ih =>
    rw [List.cons_append, List.dropWhile_cons, if_pos ((isDigit_iff d).2 (h d (by simp)))]
    exact ih fun x hx => h x (by simp [hx])

theorem someDigits_sound {b r : Bytes} (h : someDigits b = some r) :
    ∃ ds, b = ds ++ r ∧ Digits ds ∧ ds ≠ [] := by
  unfold someDigits at h
  split at h
  · cases h
  next d t =>
  split at h
  · next hd =>
    obtain rfl := Option.some.inj h
    obtain ⟨ds, hds, e⟩ := digits_sound t
    refine ⟨d :: ds, by rw [List.cons_append, ← e], ?_, by simp⟩
    intro x hx
    rcases List.mem_cons.1 hx with rfl | hx
    · exact (isDigit_iff _).1 hd
    · exact hds x hx
  · cases h

theorem someDigits_complete {ds : Bytes} (h : Digits ds) (hne : ds ≠ []) {r : Bytes}
    (hr : ∀ c t, r = c :: t → isDigit c = false) : someDigits (ds ++ r) = some r := by
  cases ds with
  | nil => exact absurd rfl hne
  | cons d ds =>
    rw [List.cons_append, someDigits, if_pos ((isDigit_iff d).2 (h d (by simp))),
      digits_complete (fun x hx => h x (by simp [hx])) hr]

/-- An exponent. -/
def Exp (exp : Bytes) : Prop :=
  exp = [] ∨ ∃ l s ds, exp = l :: s ++ ds ∧ (l = 101 ∨ l = 69) ∧ (s = [] ∨ s = [43] ∨ s = [45]) ∧
    Digits ds ∧ ds ≠ []

theorem exponent_sound {b r : Bytes} (h : exponent b = some r) :
    ∃ s ds, b = s ++ ds ++ r ∧ (s = [] ∨ s = [43] ∨ s = [45]) ∧ Digits ds ∧ ds ≠ [] := by
  unfold exponent at h
  split at h
  · cases h
  next a t =>
  split at h
  · next ha =>
    obtain ⟨ds, rfl, h1, h2⟩ := someDigits_sound h
    refine ⟨[a], ds, rfl, ?_, h1, h2⟩
    rcases ha with rfl | rfl <;> simp
  · obtain ⟨ds, e, h1, h2⟩ := someDigits_sound h
    exact ⟨[], ds, by simpa using e, .inl rfl, h1, h2⟩

theorem optExponent_sound {b r : Bytes} (h : optExponent b = some r) : ∃ exp, b = exp ++ r ∧ Exp exp := by
  unfold optExponent at h
  split at h
  · obtain rfl := Option.some.inj h
    exact ⟨[], rfl, .inl rfl⟩
  next a t =>
  split at h
  · next ha =>
    obtain ⟨s, ds, rfl, h1, h2, h3⟩ := exponent_sound h
    exact ⟨a :: s ++ ds, by simp, .inr ⟨a, s, ds, rfl, ha, h1, h2, h3⟩⟩
  · obtain rfl := Option.some.inj h
    exact ⟨[], rfl, .inl rfl⟩

theorem optExponent_complete {exp r : Bytes} (h : Exp exp) (hr : Stops r) : optExponent (exp ++ r) = some r := by
  have hd : ∀ c t, r = c :: t → isDigit c = false := fun c t e => (hr c t e).1
  rcases h with rfl | ⟨l, s, ds, rfl, hl, hs, h1, h2⟩
  · cases r with
    | nil => rfl
    | cons c t =>
      obtain ⟨_, _, h3, h4⟩ := hr c t rfl
      rw [List.nil_append, optExponent, if_neg (by tauto)]
  · rw [List.append_assoc, List.cons_append, optExponent, if_pos hl]
    have hsd := someDigits_complete h1 h2 hd
    rcases hs with rfl | rfl | rfl
    · cases ds with
      | nil => exact absurd rfl h2
      | cons d ds =>
        have := h1 d (by simp)
        rw [List.nil_append, List.cons_append, exponent, if_neg ?_]
        · exact hsd
        · rintro (rfl | rfl) <;> simp at this
    · exact hsd
    · exact hsd

/-- A fraction. -/
def Frac (frac : Bytes) : Prop := frac = [] ∨ ∃ ds, frac = 46 :: ds ∧ Digits ds ∧ ds ≠ []

theorem afterInteger_sound {b r : Bytes} (h : afterInteger b = some r) :
    ∃ frac exp, b = frac ++ exp ++ r ∧ Frac frac ∧ Exp exp := by
  unfold afterInteger at h
  split at h
  · obtain rfl := Option.some.inj h
    exact ⟨[], [], rfl, .inl rfl, .inl rfl⟩
  next a t =>
  split at h
  · next ha =>
    subst ha
    split at h
    · cases h
    next t' ht =>
    obtain ⟨ds, rfl, h1, h2⟩ := someDigits_sound ht
    obtain ⟨exp, rfl, he⟩ := optExponent_sound h
    exact ⟨46 :: ds, exp, by simp, .inr ⟨ds, rfl, h1, h2⟩, he⟩
  · obtain ⟨exp, e, he⟩ := optExponent_sound h
    exact ⟨[], exp, by simpa using e, .inl rfl, he⟩

theorem exp_stops {exp r : Bytes} (h : Exp exp) (hr : Stops r) :
    ∀ c t, exp ++ r = c :: t → isDigit c = false ∧ c ≠ 46 := by
  intro c t e
  rcases h with rfl | ⟨l, s, ds, rfl, hl, _⟩
  · exact ⟨(hr c t e).1, (hr c t e).2.1⟩
  · simp only [List.cons_append, List.cons.injEq] at e
    obtain ⟨rfl, _⟩ := e
    rcases hl with rfl | rfl <;> exact ⟨rfl, by decide⟩

theorem afterInteger_complete {frac exp r : Bytes} (hf : Frac frac) (he : Exp exp) (hr : Stops r) :
    afterInteger (frac ++ exp ++ r) = some r := by
  have hes := exp_stops he hr
  have ho := optExponent_complete he hr
  rcases hf with rfl | ⟨ds, rfl, h1, h2⟩
  · rw [List.nil_append]
    generalize exp ++ r = x at hes ho ⊢
    cases x with
    | nil => exact ho
    | cons c t => rw [afterInteger, if_neg (hes c t rfl).2]; exact ho
  · rw [List.append_assoc, List.cons_append, afterInteger, if_pos rfl,
      someDigits_complete h1 h2 fun c t e => (hes c t e).1]
    exact ho

theorem frac_stops {frac exp r : Bytes} (hf : Frac frac) (he : Exp exp) (hr : Stops r) :
    ∀ c t, frac ++ exp ++ r = c :: t → isDigit c = false := by
  intro c t e
  rcases hf with rfl | ⟨ds, rfl, _⟩
  · exact (exp_stops he hr c t e).1
  · simp only [List.cons_append, List.cons.injEq] at e
    obtain ⟨rfl, _⟩ := e
    rfl

/-- An integer. -/
def Int' (int : Bytes) : Prop := int = [48] ∨ Digits int ∧ int ≠ [] ∧ int.head? ≠ some 48

theorem integer_sound {b r : Bytes} (h : integer b = some r) :
    ∃ int frac exp, b = int ++ frac ++ exp ++ r ∧ Int' int ∧ Frac frac ∧ Exp exp := by
  unfold integer at h
  split at h
  · cases h
  next d t =>
  split at h
  · next hd =>
    subst hd
    split at h
    · obtain rfl := Option.some.inj h
      exact ⟨[48], [], [], rfl, .inl rfl, .inl rfl, .inl rfl⟩
    · split at h
      · cases h
      · obtain ⟨f, e, h1, h2, h3⟩ := afterInteger_sound h
        exact ⟨[48], f, e, by rw [h1]; simp, .inl rfl, h2, h3⟩
  · next hd0 =>
    split at h
    · next hd =>
      obtain ⟨ds, hds, e0⟩ := digits_sound t
      obtain ⟨f, e, h1, h2, h3⟩ := afterInteger_sound h
      refine ⟨d :: ds, f, e, by rw [e0, h1]; simp, .inr ⟨?_, by simp, by simpa using hd0⟩, h2, h3⟩
      intro x hx
      rcases List.mem_cons.1 hx with rfl | hx
      · exact (isDigit_iff _).1 hd
      · exact hds x hx
    · cases h

theorem integer_complete {int frac exp r : Bytes} (hi : Int' int) (hf : Frac frac) (he : Exp exp) (hr : Stops r) :
    integer (int ++ frac ++ exp ++ r) = some r := by
  have hs := frac_stops hf he hr
  have ha := afterInteger_complete hf he hr
  rw [List.append_assoc, List.append_assoc, ← List.append_assoc frac]
  rcases hi with rfl | ⟨h1, h2, h3⟩
  · generalize frac ++ exp ++ r = x at hs ha ⊢
    cases x with
    | nil => exact ha
    | cons c t =>
      show (if isDigit c then none else afterInteger (c :: t)) = _
      rw [if_neg (by simp [hs c t rfl])]
      exact ha
  · cases int with
    | nil => exact absurd rfl h2
    | cons d ds =>
      unfold integer
      simp only [List.cons_append]
      rw [if_neg (by simpa using h3), if_pos ((isDigit_iff d).2 (h1 d (by simp))),
        digits_complete (fun x hx => h1 x (by simp [hx])) hs]
      exact ha

/-! ## Values that are ignored -/

/-- What `ignoreN` finds: the text of the part. -/
def Found : Part → Bytes → Bytes → Prop
  | .value, b, r => ∃ w t, b = w ++ t ++ r ∧ Ws w ∧ JsonText .value t
  | .items, b, r => ∃ t, b = t ++ 93 :: r ∧ JsonText .items t
  | .members, b, r => ∃ t, b = t ++ 125 :: r ∧ JsonText .members t

theorem integer_number {b r : Bytes} (h : integer b = some r) :
    ∃ t, b = t ++ r ∧ Number t ∧ Number (45 :: t) := by
  obtain ⟨i, f, e, rfl, hi, hf, he⟩ := integer_sound h
  exact ⟨i ++ f ++ e, rfl, by simpa using Number.mk (sign := []) (.inl rfl) hi hf he,
    by simpa using Number.mk (sign := [45]) (.inr rfl) hi hf he⟩

theorem ignoreN_sound : ∀ (n : Nat) (p : Part) (b r : Bytes), ignoreN p n b = some r → Found p b r := by
  intro n
  induction n with
  | zero => intro p b r h; cases p <;> cases h
  | succ n ih =>
    intro p b r h
    cases p with
    | value =>
      obtain ⟨w, hw, hb⟩ := skipWs_split b
      unfold ignoreN at h
      generalize skipWs b = x at h hb
      subst hb
      cases x with
      | nil => cases h
      | cons c x =>
        simp only [] at h
        suffices ∃ t, c :: x = t ++ r ∧ JsonText .value t by
          obtain ⟨t, ht, hj⟩ := this
          exact ⟨w, t, by rw [ht, List.append_assoc], hw, hj⟩
        split at h
        · next hc =>
          subst hc
          obtain rfl := stripPrefix_eq_some.1 h
          exact ⟨_, rfl, .null⟩
        split at h
        · next hc =>
          subst hc
          obtain rfl := stripPrefix_eq_some.1 h
          exact ⟨_, rfl, .true⟩
        split at h
        · next hc =>
          subst hc
          obtain rfl := stripPrefix_eq_some.1 h
          exact ⟨_, rfl, .false⟩
        split at h
        · next hc =>
          subst hc
          obtain ⟨t, rfl, _, ht⟩ := integer_number h
          exact ⟨45 :: t, rfl, .number ht⟩
        split at h
        · obtain ⟨t, e, ht, _⟩ := integer_number h
          exact ⟨t, e, .number ht⟩
        split at h
        · next hc =>
          subst hc
          obtain ⟨t, rfl, ht⟩ := ignoreStr_sound h
          exact ⟨34 :: t ++ [34], by simp, .string ht⟩
        split at h
        · next hc =>
          subst hc
          split at h
          · next y hy =>
            obtain rfl := Option.some.inj h
            obtain ⟨w', hw', hx⟩ := skipWs_split x
            rw [stripPrefix_eq_some.1 hy] at hx
            exact ⟨91 :: w' ++ [93], by rw [hx]; simp, .emptyArray hw'⟩
          · obtain ⟨t, rfl, ht⟩ := ih _ _ _ h
            exact ⟨91 :: t ++ [93], by simp, .array ht⟩
        split at h
        · next hc =>
          subst hc
          split at h
          · next y hy =>
            obtain rfl := Option.some.inj h
            obtain ⟨w', hw', hx⟩ := skipWs_split x
            rw [stripPrefix_eq_some.1 hy] at hx
            exact ⟨123 :: w' ++ [125], by rw [hx]; simp, .emptyObject hw'⟩
          · obtain ⟨t, rfl, ht⟩ := ih _ _ _ h
            exact ⟨123 :: t ++ [125], by simp, .object ht⟩
        · cases h
    | items =>
      unfold ignoreN at h
      split at h
      · cases h
      next y hy =>
      obtain ⟨w, t, rfl, hw, ht⟩ := ih _ _ _ hy
      obtain ⟨w', hw', e⟩ := skipWs_split y
      split at h
      · cases h
      next c z hz =>
      rw [hz] at e
      subst e
      split at h
      · next hc =>
        subst hc
        obtain rfl := Option.some.inj h
        exact ⟨w ++ t ++ w', by simp, .item hw ht hw'⟩
      split at h
      · next hc =>
        subst hc
        obtain ⟨u, rfl, hu⟩ := ih _ _ _ h
        exact ⟨w ++ t ++ w' ++ 44 :: u, by simp, .items hw ht hw' hu⟩
      · cases h
    | members =>
      unfold ignoreN at h
      obtain ⟨w, hw, e⟩ := skipWs_split b
      split at h
      · cases h
      next k0 hk0 =>
      rw [stripPrefix_eq_some.1 hk0] at e
      subst e
      split at h
      · cases h
      next y hy =>
      obtain ⟨k, rfl, hk⟩ := ignoreStr_sound hy
      obtain ⟨w₁, hw₁, e⟩ := skipWs_split y
      split at h
      · cases h
      next z hz =>
      rw [stripPrefix_eq_some.1 hz] at e
      subst e
      split at h
      · cases h
      next v hv =>
      obtain ⟨w₂, t, rfl, hw₂, ht⟩ := ih _ _ _ hv
      obtain ⟨w₃, hw₃, e⟩ := skipWs_split v
      split at h
      · cases h
      next c u hu =>
      rw [hu] at e
      subst e
      split at h
      · next hc =>
        subst hc
        obtain rfl := Option.some.inj h
        exact ⟨w ++ 34 :: k ++ 34 :: w₁ ++ 58 :: w₂ ++ t ++ w₃, by simp, .member hw hk hw₁ hw₂ ht hw₃⟩
      split at h
      · next hc =>
        subst hc
        obtain ⟨q, rfl, hq⟩ := ih _ _ _ h
        exact ⟨w ++ 34 :: k ++ 34 :: w₁ ++ 58 :: w₂ ++ t ++ w₃ ++ 44 :: q, by simp,
          .members hw hk hw₁ hw₂ ht hw₃ hq⟩
      · cases h

theorem value_head {t : Bytes} (h : JsonText .value t) :
    ∃ c r, t = c :: r ∧ isWs c = false ∧ c ≠ 93 ∧ c ≠ 125 := by
  cases h with
  | number h =>
    obtain ⟨hs, hi, _, _⟩ := h
    have key : ∀ int r : Bytes, Int' int →
        ∃ c r', int ++ r = c :: r' ∧ isWs c = false ∧ c ≠ 93 ∧ c ≠ 125 := by
      rintro int r (rfl | ⟨hd, hne, _⟩)
      · exact ⟨48, _, rfl, by decide⟩
      · cases int with
        | nil => exact absurd rfl hne
        | cons d ds =>
          have hd := hd d (by simp)
          refine ⟨d, _, rfl, ?_, ?_, ?_⟩
          · cases hw : isWs d with
            | false => rfl
            | true =>
              rcases (isWs_iff d).1 hw with rfl | rfl | rfl | rfl <;> simp at hd
          · rintro rfl; simp at hd
          · rintro rfl; simp at hd
    rcases hs with rfl | rfl
    · simp only [List.nil_append, List.append_assoc]
      exact key _ _ hi
    · exact ⟨45, _, rfl, by decide⟩
  | null => exact ⟨_, _, rfl, by decide⟩
  | true => exact ⟨_, _, rfl, by decide⟩
  | false => exact ⟨_, _, rfl, by decide⟩
  | string => exact ⟨_, _, rfl, by decide⟩
  | emptyArray => exact ⟨_, _, rfl, by decide⟩
  | array => exact ⟨_, _, rfl, by decide⟩
  | emptyObject => exact ⟨_, _, rfl, by decide⟩
  | object => exact ⟨_, _, rfl, by decide⟩

/-- What may follow a value. -/
theorem stops_ws {w : Bytes} (hw : Ws w) {c : UInt8} (hc : c = 44 ∨ c = 93 ∨ c = 125) (r : Bytes) :
    Stops (w ++ c :: r) := by
  intro d t e
  have : d = 32 ∨ d = 9 ∨ d = 10 ∨ d = 13 ∨ d = 44 ∨ d = 93 ∨ d = 125 := by
    cases w with
    | nil =>
      simp only [List.nil_append, List.cons.injEq] at e
      rw [← e.1]; tauto
    | cons x w =>
      simp only [List.cons_append, List.cons.injEq] at e
      have := hw x (by simp)
      rw [← e.1]; tauto
  rcases this with rfl | rfl | rfl | rfl | rfl | rfl | rfl <;> decide

/-- How `ignoreN` reads the text of a part. -/
def Reads : Spec.Part → Bytes → Prop
  | .value, t => ∀ w r n, Ws w → Stops r → 2 * t.length < n → ignoreN .value n (w ++ t ++ r) = some r
  | .items, t => (∀ r n, 2 * t.length + 1 < n → ignoreN .items n (t ++ 93 :: r) = some r) ∧
      ∀ r, stripPrefix [93] (skipWs (t ++ r)) = none
  | .members, t => (∀ r n, 2 * t.length + 1 < n → ignoreN .members n (t ++ 125 :: r) = some r) ∧
      ∀ r, stripPrefix [125] (skipWs (t ++ r)) = none

theorem ignoreN_value {n : Nat} {w : Bytes} (hw : Ws w) {c : UInt8} (hc : isWs c = false) (r : Bytes) :
    ignoreN .value (n + 1) (w ++ c :: r) = ignoreN .value (n + 1) (c :: r) := by
  unfold ignoreN
  rw [skipWs_ws hw, skipWs_of hc]

theorem strip_one {c d : UInt8} (h : d ≠ c) (r : Bytes) : stripPrefix [c] (d :: r) = none := by
  unfold stripPrefix
  rw [if_neg]
  simpa using fun e => h (Eq.symm e)

theorem strip_same (c : UInt8) (r : Bytes) : stripPrefix [c] (c :: r) = some r :=
  stripPrefix_eq_some.2 rfl

theorem reads {p : Spec.Part} {t : Bytes} (h : JsonText p t) : Reads p t := by
  induction h with
  | null =>
    intro w r n hw hr hn
    obtain ⟨n, rfl⟩ : ∃ m, n = m + 1 := ⟨n - 1, by omega⟩
    rw [List.append_assoc]
    exact (ignoreN_value hw (by decide) _).trans rfl
  | true =>
    intro w r n hw hr hn
    obtain ⟨n, rfl⟩ : ∃ m, n = m + 1 := ⟨n - 1, by omega⟩
    rw [List.append_assoc]
    exact (ignoreN_value hw (by decide) _).trans rfl
  | false =>
    intro w r n hw hr hn
    obtain ⟨n, rfl⟩ : ∃ m, n = m + 1 := ⟨n - 1, by omega⟩
    rw [List.append_assoc]
    exact (ignoreN_value hw (by decide) _).trans rfl
  | @number t h =>
    intro w r n hw hr hn
    obtain ⟨n, rfl⟩ : ∃ m, n = m + 1 := ⟨n - 1, by omega⟩
    obtain ⟨c, t', e, hc, _⟩ := value_head (.number h)
    rw [List.append_assoc, e, List.cons_append, ignoreN_value hw hc, ← List.cons_append, ← e]
    obtain ⟨hs, hi, hf, he⟩ := h
    rename_i sign int frac exp
    have hint := integer_complete hi hf he hr
    rcases hs with rfl | rfl
    · obtain ⟨d, x, hx, hd⟩ : ∃ d x, int = d :: x ∧ isDigit d = true := by
        rcases hi with rfl | ⟨hd, hne, _⟩
        · exact ⟨48, [], rfl, rfl⟩
        · cases int with
          | nil => exact absurd rfl hne
          | cons d x => exact ⟨d, x, rfl, (isDigit_iff d).2 (hd d (by simp))⟩
      subst hx
      simp only [List.nil_append, List.cons_append] at hint ⊢
      have hd' := (isDigit_iff d).1 hd
      have hw : isWs d = false := by
        cases hw : isWs d with
        | false => rfl
        | true => rcases (isWs_iff d).1 hw with rfl | rfl | rfl | rfl <;> simp at hd'
      unfold ignoreN
      rw [skipWs_of hw]
      simp only []
      rw [if_neg (by rintro rfl; simp at hd'), if_neg (by rintro rfl; simp at hd'),
        if_neg (by rintro rfl; simp at hd'), if_neg (by rintro rfl; simp at hd'), if_pos hd]
      exact hint
    · exact hint
  | @string t h =>
    intro w r n hw hr hn
    obtain ⟨n, rfl⟩ : ∃ m, n = m + 1 := ⟨n - 1, by omega⟩
    rw [show w ++ (34 :: t ++ [34]) ++ r = w ++ 34 :: (t ++ 34 :: r) by simp, ignoreN_value hw (by decide)]
    exact ignoreStr_complete h r
  | @emptyArray w' h =>
    intro w r n hw hr hn
    obtain ⟨n, rfl⟩ : ∃ m, n = m + 1 := ⟨n - 1, by omega⟩
    rw [show w ++ (91 :: w' ++ [93]) ++ r = w ++ 91 :: (w' ++ 93 :: r) by simp, ignoreN_value hw (by decide)]
    show (match stripPrefix [93] (skipWs (w' ++ 93 :: r)) with
      | some r => some r | none => ignoreN .items n (w' ++ 93 :: r)) = _
    rw [skipWs_ws h, skipWs_of (by decide), strip_same]
  | @array t h ih =>
    intro w r n hw hr hn
    obtain ⟨n, rfl⟩ : ∃ m, n = m + 1 := ⟨n - 1, by omega⟩
    rw [show w ++ (91 :: t ++ [93]) ++ r = w ++ 91 :: (t ++ 93 :: r) by simp, ignoreN_value hw (by decide)]
    show (match stripPrefix [93] (skipWs (t ++ 93 :: r)) with
      | some r => some r | none => ignoreN .items n (t ++ 93 :: r)) = _
    rw [ih.2]
    exact ih.1 r n (by simp at hn; omega)
  | @emptyObject w' h =>
    intro w r n hw hr hn
    obtain ⟨n, rfl⟩ : ∃ m, n = m + 1 := ⟨n - 1, by omega⟩
    rw [show w ++ (123 :: w' ++ [125]) ++ r = w ++ 123 :: (w' ++ 125 :: r) by simp, ignoreN_value hw (by decide)]
    show (match stripPrefix [125] (skipWs (w' ++ 125 :: r)) with
      | some r => some r | none => ignoreN .members n (w' ++ 125 :: r)) = _
    rw [skipWs_ws h, skipWs_of (by decide), strip_same]
  | @object t h ih =>
    intro w r n hw hr hn
    obtain ⟨n, rfl⟩ : ∃ m, n = m + 1 := ⟨n - 1, by omega⟩
    rw [show w ++ (123 :: t ++ [125]) ++ r = w ++ 123 :: (t ++ 125 :: r) by simp, ignoreN_value hw (by decide)]
    show (match stripPrefix [125] (skipWs (t ++ 125 :: r)) with
      | some r => some r | none => ignoreN .members n (t ++ 125 :: r)) = _
    rw [ih.2]
    exact ih.1 r n (by simp at hn; omega)
  | @item w t w' hw h hw' ih =>
    constructor
    · intro r n hn
      obtain ⟨n, rfl⟩ : ∃ m, n = m + 1 := ⟨n - 1, by omega⟩
      simp only [List.length_append] at hn
      unfold ignoreN
      rw [List.append_assoc (w ++ t), ih w _ n hw (stops_ws hw' (by simp) r) (by omega)]
      simp only [skipWs_ws hw', skipWs_of (show isWs 93 = false by decide), if_true]
    · intro r
      obtain ⟨c, t', rfl, hc, h93, _⟩ := value_head h
      rw [List.append_assoc, List.append_assoc, skipWs_ws hw, List.cons_append, skipWs_of hc, strip_one h93]
  | @items w t w' u hw h hw' hu ih ihu =>
    constructor
    · intro r n hn
      obtain ⟨n, rfl⟩ : ∃ m, n = m + 1 := ⟨n - 1, by omega⟩
      simp only [List.length_append, List.length_cons] at hn
      unfold ignoreN
      rw [show w ++ t ++ w' ++ 44 :: u ++ 93 :: r = w ++ t ++ (w' ++ 44 :: (u ++ 93 :: r)) by simp,
        ih w _ n hw (stops_ws hw' (by simp) _) (by omega)]
      simp only [skipWs_ws hw', skipWs_of (show isWs 44 = false by decide), if_true]
      rw [if_neg (by decide)]
      exact ihu.1 r n (by omega)
    · intro r
      obtain ⟨c, t', rfl, hc, h93, _⟩ := value_head h
      rw [List.append_assoc, List.append_assoc, List.append_assoc, skipWs_ws hw, List.cons_append, skipWs_of hc,
        strip_one h93]
  | @member w k w₁ w₂ t w₃ hw hk h1 h2 h h3 ih =>
    constructor
    · intro r n hn
      obtain ⟨n, rfl⟩ : ∃ m, n = m + 1 := ⟨n - 1, by omega⟩
      simp only [List.length_append, List.length_cons] at hn
      unfold ignoreN
      rw [show w ++ 34 :: k ++ 34 :: w₁ ++ 58 :: w₂ ++ t ++ w₃ ++ 125 :: r =
        w ++ 34 :: (k ++ 34 :: (w₁ ++ 58 :: (w₂ ++ t ++ (w₃ ++ 125 :: r)))) by simp,
        skipWs_ws hw, skipWs_of (by decide), strip_same]
      simp only []
      rw [ignoreStr_complete hk]
      simp only []
      rw [skipWs_ws h1, skipWs_of (by decide), strip_same]
      simp only []
      rw [ih w₂ _ n h2 (stops_ws h3 (by simp) r) (by omega)]
      simp only [skipWs_ws h3, skipWs_of (show isWs 125 = false by decide), if_true]
    · intro r
      rw [show w ++ 34 :: k ++ 34 :: w₁ ++ 58 :: w₂ ++ t ++ w₃ ++ r =
        w ++ 34 :: (k ++ 34 :: (w₁ ++ 58 :: (w₂ ++ t ++ (w₃ ++ r)))) by simp,
        skipWs_ws hw, skipWs_of (by decide), strip_one (by decide)]
  | @members w k w₁ w₂ t w₃ u hw hk h1 h2 h h3 hu ih ihu =>
    constructor
    · intro r n hn
      obtain ⟨n, rfl⟩ : ∃ m, n = m + 1 := ⟨n - 1, by omega⟩
      simp only [List.length_append, List.length_cons] at hn
      unfold ignoreN
      rw [show w ++ 34 :: k ++ 34 :: w₁ ++ 58 :: w₂ ++ t ++ w₃ ++ 44 :: u ++ 125 :: r =
        w ++ 34 :: (k ++ 34 :: (w₁ ++ 58 :: (w₂ ++ t ++ (w₃ ++ 44 :: (u ++ 125 :: r))))) by simp,
        skipWs_ws hw, skipWs_of (by decide), strip_same]
      simp only []
      rw [ignoreStr_complete hk]
      simp only []
      rw [skipWs_ws h1, skipWs_of (by decide), strip_same]
      simp only []
      rw [ih w₂ _ n h2 (stops_ws h3 (by simp) _) (by omega)]
      simp only [skipWs_ws h3, skipWs_of (show isWs 44 = false by decide), if_true]
      rw [if_neg (by decide)]
      exact ihu.1 r n (by omega)
    · intro r
      rw [show w ++ 34 :: k ++ 34 :: w₁ ++ 58 :: w₂ ++ t ++ w₃ ++ 44 :: u ++ r =
        w ++ 34 :: (k ++ 34 :: (w₁ ++ 58 :: (w₂ ++ t ++ (w₃ ++ 44 :: (u ++ r))))) by simp,
        skipWs_ws hw, skipWs_of (by decide), strip_one (by decide)]

theorem ignoreValue_sound {b r : Bytes} (h : ignoreValue b = some r) :
    ∃ w t, b = w ++ t ++ r ∧ Ws w ∧ JsonText .value t := ignoreN_sound _ _ _ _ h

theorem ignoreValue_complete {w t r : Bytes} (hw : Ws w) (h : JsonText .value t) (hr : Stops r) :
    ignoreValue (w ++ t ++ r) = some r :=
  reads h w r _ hw hr (by simp only [List.length_append]; omega)

/-! ## Strings that are borrowed -/

theorem plain_bytes {s : Str} : (∀ b ∈ Str.bytes s, PlainByte b) ↔ ∀ c ∈ s, ¬ NeedsEscape c := by
  constructor
  · intro h c hc hn
    have key : ∀ b : UInt8, b.toNat < 128 → Char.ofNat b.toNat = c → PlainByte b := fun b hb e =>
      h b ((mem_bytes_ascii hb s).2 (e ▸ hc))
    rcases hn with rfl | rfl | hn
    · exact (key 34 (by decide) (by decide)).2.1 rfl
    · exact (key 92 (by decide) (by decide)).2.2 rfl
    · have e : (UInt8.ofNat c.toNat).toNat = c.toNat := by
        rw [UInt8.toNat_ofNat']; omega
      have := (key (UInt8.ofNat c.toNat) (by omega) (by rw [e, Char.ofNat_toNat])).1
      omega
  · intro h b hb
    rw [plainByte_iff]
    by_cases h128 : b.toNat < 128
    · have hm := (mem_bytes_ascii h128 s).1 hb
      have hn := h _ hm
      refine ⟨?_, ?_, ?_⟩
      · rintro rfl; exact hn (.inl (by decide))
      · rintro rfl; exact hn (.inr (.inl (by decide)))
      · intro hlt
        refine hn (.inr (.inr ?_))
        rw [UInt8.lt_iff_toNat_lt] at hlt
        rw [toNat_ofNat]
        · exact hlt
        · simp at hlt; exact .inl (by omega)
    · refine ⟨?_, ?_, ?_⟩
      · rintro rfl; simp at h128
      · rintro rfl; simp at h128
      · intro hlt; rw [UInt8.lt_iff_toNat_lt] at hlt; simp at hlt; omega

theorem borrowed_iff (b r : Bytes) (s : Str) : borrowed b = some (s, r) ↔
    ∃ w t, b = w ++ t ++ r ∧ Ws w ∧ AsIs t s := by
  constructor
  · intro h
    obtain ⟨w, hw, e⟩ := skipWs_split b
    unfold borrowed at h
    split at h
    · cases h
    next x hx =>
    rw [stripPrefix_eq_some.1 hx] at e
    subst e
    split at h
    · next s' r' hp =>
      simp only [Option.some.injEq, Prod.mk.injEq] at h
      obtain ⟨rfl, rfl⟩ := h
      obtain ⟨raw, rfl, hc⟩ := (parseStr_iff ..).1 hp
      obtain ⟨e, hpl⟩ := content_false.1 hc
      subst e
      exact ⟨w, 34 :: Str.bytes s' ++ [34], by simp, hw, rfl, plain_bytes.1 hpl⟩
    · cases h
  · rintro ⟨w, t, rfl, hw, rfl, hn⟩
    have := (parseStr_iff (Str.bytes s ++ 34 :: r) s false r).2
      ⟨Str.bytes s, rfl, content_false.2 ⟨rfl, plain_bytes.2 hn⟩⟩
    unfold borrowed
    rw [show w ++ (34 :: Str.bytes s ++ [34]) ++ r = w ++ 34 :: (Str.bytes s ++ 34 :: r) by simp,
      skipWs_ws hw, skipWs_of (by decide), strip_same]
    simp only [this]

theorem optional_iff (b r : Bytes) (s : Option Str) : optional b = some (s, r) ↔
    ∃ w t, b = w ++ t ++ r ∧ Ws w ∧ OrNull t s := by
  constructor
  · intro h
    unfold optional at h
    split at h
    · next x hx =>
      simp only [Option.some.injEq, Prod.mk.injEq] at h
      obtain ⟨rfl, rfl⟩ := h
      obtain ⟨w, hw, e⟩ := skipWs_split b
      rw [stripPrefix_eq_some.1 hx] at e
      exact ⟨w, b!"null", by rw [List.append_assoc]; exact e, hw, rfl⟩
    · cases hb : borrowed b with
      | none => rw [hb] at h; cases h
      | some y =>
        obtain ⟨s', r'⟩ := y
        rw [hb] at h
        simp only [Option.map_some, Option.some.injEq, Prod.mk.injEq] at h
        obtain ⟨rfl, rfl⟩ := h
        exact (borrowed_iff ..).1 hb
  · rintro ⟨w, t, rfl, hw, h⟩
    unfold optional
    cases s with
    | none =>
      obtain rfl : t = b!"null" := h
      rw [List.append_assoc, skipWs_ws hw]
      rfl
    | some s =>
      have hb := (borrowed_iff (w ++ t ++ r) r s).2 ⟨w, t, rfl, hw, h⟩
      obtain ⟨rfl, _⟩ := h
      have : stripPrefix (b!"null") (skipWs (w ++ (34 :: Str.bytes s ++ [34]) ++ r)) = none := by
        rw [show w ++ (34 :: Str.bytes s ++ [34]) ++ r = w ++ 34 :: (Str.bytes s ++ 34 :: r) by simp,
          skipWs_ws hw, skipWs_of (by decide)]
        unfold stripPrefix
        rw [if_neg]
        simp [Str.bytes]
      rw [this, hb]
      rfl

/-! ## Members -/

/-- One more member. -/
def Fields.take (f : Fields) : Entry → Option Fields
  | .status s => if f.status.isSome then none else some { f with status := some s }
  | .scope s => if f.scope.isSome then none else some { f with scope := some s }
  | .config s => if f.config.isSome then none else some { f with config := some s }
  | .other => some f

theorem fieldValue_sound {f f' : Fields} {key : Str} {b r : Bytes} (h : fieldValue f key b = some (f', r)) :
    ∃ w t e, b = w ++ t ++ r ∧ Ws w ∧ EntryText key t e ∧ f.take e = some f' := by
  unfold fieldValue at h
  split at h
  · next hk =>
    subst hk
    split at h
    · cases h
    next hf =>
    cases hb : borrowed b with
    | none => rw [hb] at h; cases h
    | some y =>
      obtain ⟨s, r'⟩ := y
      rw [hb] at h
      simp only [Option.map_some, Option.some.injEq, Prod.mk.injEq] at h
      obtain ⟨rfl, rfl⟩ := h
      obtain ⟨w, t, e, hw, ht⟩ := (borrowed_iff ..).1 hb
      exact ⟨w, t, _, e, hw, .status ht, by simp only [Fields.take, if_neg hf]⟩
  split at h
  · next hk =>
    subst hk
    split at h
    · cases h
    next hf =>
    cases hb : optional b with
    | none => rw [hb] at h; cases h
    | some y =>
      obtain ⟨s, r'⟩ := y
      rw [hb] at h
      simp only [Option.map_some, Option.some.injEq, Prod.mk.injEq] at h
      obtain ⟨rfl, rfl⟩ := h
      obtain ⟨w, t, e, hw, ht⟩ := (optional_iff ..).1 hb
      exact ⟨w, t, _, e, hw, .scope ht, by simp only [Fields.take, if_neg hf]⟩
  split at h
  · next hk =>
    subst hk
    split at h
    · cases h
    next hf =>
    cases hb : optional b with
    | none => rw [hb] at h; cases h
    | some y =>
      obtain ⟨s, r'⟩ := y
      rw [hb] at h
      simp only [Option.map_some, Option.some.injEq, Prod.mk.injEq] at h
      obtain ⟨rfl, rfl⟩ := h
      obtain ⟨w, t, e, hw, ht⟩ := (optional_iff ..).1 hb
      exact ⟨w, t, _, e, hw, .config ht, by simp only [Fields.take, if_neg hf]⟩
  · next h1 h2 h3 =>
    cases hb : ignoreValue b with
    | none => rw [hb] at h; cases h
    | some y =>
      rw [hb] at h
      simp only [Option.map_some, Option.some.injEq, Prod.mk.injEq] at h
      obtain ⟨rfl, rfl⟩ := h
      obtain ⟨w, t, e, hw, ht⟩ := ignoreValue_sound hb
      exact ⟨w, t, _, e, hw, .other h1 h2 h3 ht, rfl⟩

theorem fieldValue_complete {f f' : Fields} {key : Str} {w t r : Bytes} {e : Entry} (hw : Ws w)
    (h : EntryText key t e) (hr : Stops r) (hf : f.take e = some f') :
    fieldValue f key (w ++ t ++ r) = some (f', r) := by
  cases h with
  | @status _ s h =>
    have := (borrowed_iff (w ++ t ++ r) r s).2 ⟨w, t, rfl, hw, h⟩
    simp only [Fields.take] at hf
    split at hf
    · cases hf
    next hn =>
    obtain rfl := Option.some.inj hf
    simp only [fieldValue, if_true, if_neg hn, this, Option.map_some]
  | @scope _ s h =>
    have := (optional_iff (w ++ t ++ r) r s).2 ⟨w, t, rfl, hw, h⟩
    simp only [Fields.take] at hf
    split at hf
    · cases hf
    next hn =>
    obtain rfl := Option.some.inj hf
    rw [fieldValue, if_neg (by decide), if_pos rfl, if_neg hn, this]
    rfl
  | @config _ s h =>
    have := (optional_iff (w ++ t ++ r) r s).2 ⟨w, t, rfl, hw, h⟩
    simp only [Fields.take] at hf
    split at hf
    · cases hf
    next hn =>
    obtain rfl := Option.some.inj hf
    rw [fieldValue, if_neg (by decide), if_neg (by decide), if_pos rfl, if_neg hn, this]
    rfl
  | other h1 h2 h3 h =>
    obtain rfl := Option.some.inj hf
    rw [fieldValue, if_neg h1, if_neg h2, if_neg h3, ignoreValue_complete hw h hr]
    rfl

/-- All of them. -/
def Fields.takeAll (f : Fields) : List Entry → Option Fields
  | [] => some f
  | e :: es =>
    match f.take e with
    | none => none
    | some f => f.takeAll es

theorem fieldsN_sound : ∀ (n : Nat) (f f' : Fields) (b r : Bytes), fieldsN n f b = some (f', r) →
    ∃ t es, b = t ++ 125 :: r ∧ Entries t es ∧ f.takeAll es = some f' := by
  intro n
  induction n with
  | zero => intro f f' b r h; cases h
  | succ n ih =>
    intro f f' b r h
    unfold fieldsN at h
    obtain ⟨w, hw, e⟩ := skipWs_split b
    split at h
    · cases h
    next k0 hk0 =>
    rw [stripPrefix_eq_some.1 hk0] at e
    subst e
    split at h
    · cases h
    next key esc y hy =>
    obtain ⟨k, rfl, hk⟩ := (parseStr_iff ..).1 hy
    obtain ⟨w₁, hw₁, e⟩ := skipWs_split y
    split at h
    · cases h
    next z hz =>
    rw [stripPrefix_eq_some.1 hz] at e
    subst e
    split at h
    · cases h
    next g v hv =>
    obtain ⟨w₂, t, en, rfl, hw₂, ht, htake⟩ := fieldValue_sound hv
    obtain ⟨w₃, hw₃, e⟩ := skipWs_split v
    split at h
    · cases h
    next c u hu =>
    rw [hu] at e
    subst e
    split at h
    · next hc =>
      subst hc
      simp only [Option.some.injEq, Prod.mk.injEq] at h
      obtain ⟨rfl, rfl⟩ := h
      exact ⟨w ++ 34 :: k ++ 34 :: w₁ ++ 58 :: w₂ ++ t ++ w₃, [en], by simp, .last hw hk hw₁ hw₂ ht hw₃,
        by simp only [Fields.takeAll, htake]⟩
    split at h
    · next hc =>
      subst hc
      obtain ⟨q, es, rfl, hq, hes⟩ := ih _ _ _ _ h
      exact ⟨w ++ 34 :: k ++ 34 :: w₁ ++ 58 :: w₂ ++ t ++ w₃ ++ 44 :: q, en :: es, by simp,
        .more hw hk hw₁ hw₂ ht hw₃ hq, by simp only [Fields.takeAll, htake, hes]⟩
    · cases h

theorem fieldsN_complete {t : Bytes} {es : List Entry} (h : Entries t es) (r : Bytes) :
    ∀ (n : Nat) (f f' : Fields), t.length ≤ n → f.takeAll es = some f' →
      fieldsN n f (t ++ 125 :: r) = some (f', r) := by
  induction h with
  | @last w k w₁ w₂ t w₃ key esc e hw hk h1 h2 h h3 =>
    intro n f f' hn hf
    simp only [List.length_append, List.length_cons] at hn
    obtain ⟨n, rfl⟩ : ∃ m, n = m + 1 := ⟨n - 1, by omega⟩
    simp only [Fields.takeAll] at hf
    split at hf
    · cases hf
    next g hg =>
    obtain rfl := Option.some.inj hf
    unfold fieldsN
    rw [show w ++ 34 :: k ++ 34 :: w₁ ++ 58 :: w₂ ++ t ++ w₃ ++ 125 :: r =
      w ++ 34 :: (k ++ 34 :: (w₁ ++ 58 :: (w₂ ++ t ++ (w₃ ++ 125 :: r)))) by simp,
      skipWs_ws hw, skipWs_of (by decide), strip_same]
    simp only []
    rw [(parseStr_iff ..).2 ⟨k, rfl, hk⟩]
    simp only []
    rw [skipWs_ws h1, skipWs_of (by decide), strip_same]
    simp only []
    rw [fieldValue_complete h2 h (stops_ws h3 (by simp) r) hg]
    simp only [skipWs_ws h3, skipWs_of (show isWs 125 = false by decide), if_true]
  | @more w k w₁ w₂ t w₃ u key esc e es hw hk h1 h2 h h3 hu ih =>
    intro n f f' hn hf
    simp only [List.length_append, List.length_cons] at hn
    obtain ⟨n, rfl⟩ : ∃ m, n = m + 1 := ⟨n - 1, by omega⟩
    simp only [Fields.takeAll] at hf
    split at hf
    · cases hf
    next g hg =>
    unfold fieldsN
    rw [show w ++ 34 :: k ++ 34 :: w₁ ++ 58 :: w₂ ++ t ++ w₃ ++ 44 :: u ++ 125 :: r =
      w ++ 34 :: (k ++ 34 :: (w₁ ++ 58 :: (w₂ ++ t ++ (w₃ ++ 44 :: (u ++ 125 :: r))))) by simp,
      skipWs_ws hw, skipWs_of (by decide), strip_same]
    simp only []
    rw [(parseStr_iff ..).2 ⟨k, rfl, hk⟩]
    simp only []
    rw [skipWs_ws h1, skipWs_of (by decide), strip_same]
    simp only []
    rw [fieldValue_complete h2 h (stops_ws h3 (by simp) _) hg]
    simp only [skipWs_ws h3, skipWs_of (show isWs 44 = false by decide), if_true]
    rw [if_neg (by decide)]
    exact ih n g f' (by omega) hf

theorem toList_inj {α : Type} {o p : Option α} : o.toList = p.toList ↔ p = o := by
  cases o <;> cases p <;> simp [eq_comm]

theorem takeAll_iff : ∀ (es : List Entry) (f f' : Fields), f.takeAll es = some f' ↔
    f'.status.toList = f.status.toList ++ Entry.statuses es ∧
    f'.scope.toList = f.scope.toList ++ Entry.scopes es ∧
    f'.config.toList = f.config.toList ++ Entry.configs es := by
  intro es
  induction es with
  | nil =>
    intro f f'
    obtain ⟨a, b, c⟩ := f
    obtain ⟨a', b', c'⟩ := f'
    simp only [Fields.takeAll, Option.some.injEq, Fields.mk.injEq, Entry.statuses, Entry.scopes, Entry.configs,
      List.filterMap_nil, List.append_nil, toList_inj]
  | cons e es ih =>
    intro f f'
    have two : ∀ {α : Type} (o : Option α) (x y : α) (l : List α), o.toList ≠ x :: (y :: l) := by
      intro α o x y l h
      cases o <;> simp at h
    obtain ⟨a, b, c⟩ := f
    cases e with
    | status s =>
      cases a with
      | none =>
        simp only [Fields.takeAll, Fields.take, Option.isSome_none, Bool.false_eq_true, if_false, ih]
        simp [Entry.statuses, Entry.scopes, Entry.configs]
      | some a =>
        simp only [Fields.takeAll, Fields.take, Option.isSome_some, if_true]
        simp [Entry.statuses, two]
    | scope s =>
      cases b with
      | none =>
        simp only [Fields.takeAll, Fields.take, Option.isSome_none, Bool.false_eq_true, if_false, ih]
        simp [Entry.statuses, Entry.scopes, Entry.configs]
      | some a =>
        simp only [Fields.takeAll, Fields.take, Option.isSome_some, if_true]
        simp [Entry.scopes, two]
    | config s =>
      cases c with
      | none =>
        simp only [Fields.takeAll, Fields.take, Option.isSome_none, Bool.false_eq_true, if_false, ih]
        simp [Entry.statuses, Entry.scopes, Entry.configs]
      | some a =>
        simp only [Fields.takeAll, Fields.take, Option.isSome_some, if_true]
        simp [Entry.configs, two]
    | other =>
      simp only [Fields.takeAll, Fields.take, ih]
      simp [Entry.statuses, Entry.scopes, Entry.configs]

theorem error_iff (f : Fields) (e : OAuthBearerError) : f.error = some e ↔
    f.status.toList = [e.status] ∧ AtMost f.scope.toList e.scope ∧ AtMost f.config.toList e.openidConfig := by
  obtain ⟨a, b, c⟩ := f
  obtain ⟨x, y, z⟩ := e
  have key : ∀ (o : Option (Option Str)) (v : Option Str), AtMost o.toList v ↔ o.join = v := by
    intro o v
    unfold AtMost
    cases o <;> simp [eq_comm]
  simp only [key]
  cases a <;> simp [Fields.error]

/-- What the members of an object say. -/
theorem members_iff (es : List Entry) (e : OAuthBearerError) :
    (∃ f, Fields.takeAll {} es = some f ∧ f.error = some e) ↔ Say es e := by
  simp only [takeAll_iff, error_iff, Option.toList_none, List.nil_append]
  unfold Say
  constructor
  · rintro ⟨f, ⟨h1, h2, h3⟩, h4, h5, h6⟩
    rw [← h1, ← h2, ← h3]
    exact ⟨h4, h5, h6⟩
  · rintro ⟨h1, h2, h3⟩
    have key : ∀ {l : List (Option Str)} {v : Option Str}, AtMost l v → ∃ o : Option (Option Str), o.toList = l := by
      rintro l v (rfl | ⟨rfl, _⟩)
      · exact ⟨some v, rfl⟩
      · exact ⟨none, rfl⟩
    obtain ⟨b, hb⟩ := key h2
    obtain ⟨c, hc⟩ := key h3
    exact ⟨⟨some e.status, b, c⟩, ⟨h1.symm, hb, hc⟩, rfl, by rw [hb]; exact h2, by rw [hc]; exact h3⟩

/-! ## Arrays -/

theorem element_none_iff (b r : Bytes) : element b = some (none, r) ↔ ∃ w, Ws w ∧ b = w ++ 93 :: r := by
  constructor
  · intro h
    obtain ⟨w, hw, e⟩ := skipWs_split b
    unfold element at h
    split at h
    · cases h
    next c x hx =>
    rw [hx] at e
    split at h
    · next hc =>
      subst hc
      simp only [Option.some.injEq, Prod.mk.injEq, true_and] at h
      exact ⟨w, hw, h ▸ e⟩
    · split at h
      · cases ho : optional x with
        | none => rw [ho] at h; cases h
        | some y => rw [ho] at h; simp at h
      · cases h
  · rintro ⟨w, hw, rfl⟩
    unfold element
    rw [skipWs_ws hw, skipWs_of (by decide)]
    rfl

theorem element_some_iff (b r : Bytes) (v : Option Str) : element b = some (some v, r) ↔
    ∃ w w₁ t, Ws w ∧ Ws w₁ ∧ OrNull t v ∧ b = w ++ 44 :: w₁ ++ t ++ r := by
  constructor
  · intro h
    obtain ⟨w, hw, e⟩ := skipWs_split b
    unfold element at h
    split at h
    · cases h
    next c x hx =>
    rw [hx] at e
    split at h
    · simp at h
    · split at h
      · next hc =>
        subst hc
        cases ho : optional x with
        | none => rw [ho] at h; cases h
        | some y =>
          rw [ho] at h
          simp only [Option.map_some, Option.some.injEq, Prod.mk.injEq] at h
          obtain ⟨rfl, rfl⟩ := h
          obtain ⟨w₁, t, rfl, hw₁, ht⟩ := (optional_iff ..).1 ho
          exact ⟨w, w₁, t, hw, hw₁, ht, by rw [e]; simp⟩
      · cases h
  · rintro ⟨w, w₁, t, hw, hw₁, ht, rfl⟩
    have := (optional_iff (w₁ ++ t ++ r) r v).2 ⟨w₁, t, rfl, hw₁, ht⟩
    unfold element
    rw [show w ++ 44 :: w₁ ++ t ++ r = w ++ 44 :: (w₁ ++ t ++ r) by simp, skipWs_ws hw, skipWs_of (by decide)]
    simp only []
    rw [if_neg (by decide), if_pos trivial, this]
    rfl

theorem sequence_iff (b r : Bytes) (e : OAuthBearerError) : sequence b = some (e, r) ↔
    ∃ t, b = t ++ 93 :: r ∧ Row t e := by
  constructor
  · intro h
    unfold sequence at h
    split at h
    · cases h
    next s r₁ hs =>
    obtain ⟨w, t, rfl, hw, ht⟩ := (borrowed_iff ..).1 hs
    split at h
    · cases h
    · next r₂ he =>
      simp only [Option.some.injEq, Prod.mk.injEq] at h
      obtain ⟨rfl, rfl⟩ := h
      obtain ⟨w', hw', rfl⟩ := (element_none_iff ..).1 he
      exact ⟨w ++ t ++ w', by simp, .one hw ht hw'⟩
    · next v r₂ he =>
      obtain ⟨w', w₁, t₁, hw', hw₁, ht₁, rfl⟩ := (element_some_iff ..).1 he
      split at h
      · cases h
      · next r₃ he =>
        simp only [Option.some.injEq, Prod.mk.injEq] at h
        obtain ⟨rfl, rfl⟩ := h
        obtain ⟨w₁', hw₁', rfl⟩ := (element_none_iff ..).1 he
        exact ⟨w ++ t ++ w' ++ 44 :: w₁ ++ t₁ ++ w₁', by simp, .two hw ht hw' hw₁ ht₁ hw₁'⟩
      · next v₂ r₃ he =>
        obtain ⟨w₁', w₂, t₂, hw₁', hw₂, ht₂, rfl⟩ := (element_some_iff ..).1 he
        obtain ⟨w₂', hw₂', e3⟩ := skipWs_split r₃
        cases hx : stripPrefix [93] (skipWs r₃) with
        | none => rw [hx] at h; cases h
        | some y =>
          rw [hx] at h
          simp only [Option.map_some, Option.some.injEq, Prod.mk.injEq] at h
          obtain ⟨rfl, rfl⟩ := h
          rw [stripPrefix_eq_some.1 hx] at e3
          subst e3
          exact ⟨w ++ t ++ w' ++ 44 :: w₁ ++ t₁ ++ w₁' ++ 44 :: w₂ ++ t₂ ++ w₂', by simp,
            .three hw ht hw' hw₁ ht₁ hw₁' hw₂ ht₂ hw₂'⟩
  · rintro ⟨t, rfl, h⟩
    cases h with
    | @one w t w' s hw h hw' =>
      unfold sequence
      rw [(borrowed_iff _ (w' ++ 93 :: r) s).2 ⟨w, t, by simp, hw, h⟩]
      simp only []
      rw [(element_none_iff _ r).2 ⟨w', hw', rfl⟩]
    | @two w t w' w₁ t₁ w₁' s x hw h hw' hw₁ h₁ hw₁' =>
      unfold sequence
      rw [(borrowed_iff _ (w' ++ 44 :: w₁ ++ t₁ ++ (w₁' ++ 93 :: r)) s).2 ⟨w, t, by simp, hw, h⟩]
      simp only []
      rw [(element_some_iff _ _ x).2 ⟨w', w₁, t₁, hw', hw₁, h₁, rfl⟩]
      simp only []
      rw [(element_none_iff _ r).2 ⟨w₁', hw₁', rfl⟩]
    | @three w t w' w₁ t₁ w₁' w₂ t₂ w₂' s x y hw h hw' hw₁ h₁ hw₁' hw₂ h₂ hw₂' =>
      unfold sequence
      rw [(borrowed_iff _ (w' ++ 44 :: w₁ ++ t₁ ++ (w₁' ++ 44 :: w₂ ++ t₂ ++ (w₂' ++ 93 :: r))) s).2
        ⟨w, t, by simp, hw, h⟩]
      simp only []
      rw [(element_some_iff _ _ x).2 ⟨w', w₁, t₁, hw', hw₁, h₁, rfl⟩]
      simp only []
      rw [(element_some_iff _ _ y).2 ⟨w₁', w₂, t₂, hw₁', hw₂, h₂, rfl⟩]
      simp only []
      rw [skipWs_ws hw₂', skipWs_of (by decide), strip_same]
      rfl

/-! ## The whole text -/

theorem de_iff (b : Bytes) (e : OAuthBearerError) : de b = some e ↔ ErrorJson b e := by
  constructor
  · intro h
    obtain ⟨w, hw, eb⟩ := skipWs_split b
    unfold de at h
    generalize skipWs b = x at h eb
    subst eb
    cases x with
    | nil => cases h
    | cons c x =>
      simp only [] at h
      split at h
      · cases h
      next e' r hr =>
      split at h
      · next hend =>
        obtain rfl := Option.some.inj h
        have hw' := skipWs_eq_nil.1 hend
        split at hr
        · next hc =>
          subst hc
          split at hr
          · cases hr
          next f y hf =>
          obtain ⟨t, es, rfl, ht, htake⟩ := fieldsN_sound _ _ _ _ _ hf
          cases hfe : f.error with
          | none => rw [hfe] at hr; cases hr
          | some e'' =>
            rw [hfe] at hr
            simp only [Option.map_some, Option.some.injEq, Prod.mk.injEq] at hr
            obtain ⟨rfl, rfl⟩ := hr
            have := ErrorJson.object hw ht ((members_iff ..).1 ⟨f, htake, hfe⟩) hw'
            simpa using this
        · split at hr
          · next hc =>
            subst hc
            obtain ⟨t, rfl, ht⟩ := (sequence_iff ..).1 hr
            have := ErrorJson.array hw ht hw'
            simpa using this
          · cases hr
      · cases h
  · intro h
    cases h with
    | @object w t w' es _ hw ht hs hw' =>
      obtain ⟨f, hf, he⟩ := (members_iff ..).2 hs
      unfold de
      rw [show w ++ 123 :: t ++ 125 :: w' = w ++ 123 :: (t ++ 125 :: w') by simp, skipWs_ws hw,
        skipWs_of (by decide)]
      simp only [if_true]
      rw [fieldsN_complete ht w' _ _ f (by simp) hf]
      simp only [he, Option.map_some, skipWs_eq_nil.2 hw', if_true]
    | @array w t w' _ hw ht hw' =>
      unfold de
      rw [show w ++ 91 :: t ++ 93 :: w' = w ++ 91 :: (t ++ 93 :: w') by simp, skipWs_ws hw,
        skipWs_of (by decide)]
      simp only []
      rw [if_neg (by decide), if_pos trivial, (sequence_iff ..).2 ⟨t, rfl, ht⟩]
      simp only [skipWs_eq_nil.2 hw', if_true]

end Rsasl.SerdeJson

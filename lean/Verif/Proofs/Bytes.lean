/-
Lemmas on UTF-8, splitting and prefixes.
-/
import Verif.Model.Bytes

namespace Rsasl

theorem toNat_ofNat_lt {n : Nat} (h : n < 256) : (UInt8.ofNat n).toNat = n := by
  simp [UInt8.toNat_ofNat', Nat.mod_eq_of_lt h]

theorem ofNat_toNat8 (b : UInt8) : UInt8.ofNat b.toNat = b := by simp

theorem char_valid (c : Char) : c.toNat < 0xD800 ∨ (0xDFFF < c.toNat ∧ c.toNat < 0x110000) := by
  exact c.valid

theorem char_ofNat_toNat (c : Char) : Char.ofNat c.toNat = c := by simp

theorem toNat_char_ofNat {n : Nat} (h : n < 0xD800 ∨ (0xDFFF < n ∧ n < 0x110000)) :
    (Char.ofNat n).toNat = n := by
  have hv : n.isValidChar := h
  simp only [Char.ofNat, hv, dif_pos]
  rfl

theorem fromUtf8_encodeChar_append (c : Char) (rest : Bytes) :
    fromUtf8 (encodeChar c ++ rest) = (fromUtf8 rest).map (c :: ·) := by
  have hv := char_valid c
  have hc := char_ofNat_toNat c
  generalize hn : c.toNat = n at hv hc
  unfold encodeChar
  rw [hn]
  simp only
  split
  · next h =>
    have e := toNat_ofNat_lt (show n < 256 by omega)
    simp only [List.cons_append, List.nil_append]
    conv => lhs; rw [fromUtf8.eq_def]
    simp only [e, if_pos h, hc]
  · next h1 =>
    split
    · next h =>
      have e1 := toNat_ofNat_lt (show 0xC0 + n / 64 < 256 by omega)
      have e2 := toNat_ofNat_lt (show 0x80 + n % 64 < 256 by omega)
      have : n / 64 * 64 + n % 64 = n := by omega
      have hr : 194 ≤ 192 + n / 64 ∧ 192 + n / 64 ≤ 223 := by omega
      have hk : isCont (UInt8.ofNat (128 + n % 64)) = true := by
        simp only [isCont, e2]; simp; omega
      simp only [List.cons_append, List.nil_append]
      conv => lhs; rw [fromUtf8.eq_def]
      simp only [e1, e2]
      rw [if_neg (by omega), if_pos hr, if_pos hk]
      simp [this, hc]
    · next h2 =>
      split
      · next h =>
        have e1 := toNat_ofNat_lt (show 0xE0 + n / 4096 < 256 by omega)
        have e2 := toNat_ofNat_lt (show 0x80 + n / 64 % 64 < 256 by omega)
        have e3 := toNat_ofNat_lt (show 0x80 + n % 64 < 256 by omega)
        have hk : (ok3 (UInt8.ofNat (224 + n / 4096)) (UInt8.ofNat (128 + n / 64 % 64)) &&
            isCont (UInt8.ofNat (128 + n % 64))) = true := by
          simp only [ok3, isCont, e1, e2, e3]
          split
          · simp; omega
          · split
            · simp; omega
            · simp; omega
        simp only [List.cons_append, List.nil_append]
        conv => lhs; rw [fromUtf8.eq_def]
        simp only [e1, e2, e3]
        rw [if_neg (by omega), if_neg (by omega), if_pos (by omega), if_pos hk]
        have : (224 + n / 4096 - 224) * 4096 + (128 + n / 64 % 64 - 128) * 64
            + (128 + n % 64 - 128) = n := by omega
        rw [this, hc]
      · next h3 =>
        have hlt : n < 0x110000 := by omega
        have e1 := toNat_ofNat_lt (show 0xF0 + n / 262144 < 256 by omega)
        have e2 := toNat_ofNat_lt (show 0x80 + n / 4096 % 64 < 256 by omega)
        have e3 := toNat_ofNat_lt (show 0x80 + n / 64 % 64 < 256 by omega)
        have e4 := toNat_ofNat_lt (show 0x80 + n % 64 < 256 by omega)
        have hk : (ok4 (UInt8.ofNat (240 + n / 262144)) (UInt8.ofNat (128 + n / 4096 % 64)) &&
            isCont (UInt8.ofNat (128 + n / 64 % 64)) &&
            isCont (UInt8.ofNat (128 + n % 64))) = true := by
          simp only [ok4, isCont, e1, e2, e3, e4]
          split
          · simp; omega
          · split
            · simp; omega
            · simp; omega
        simp only [List.cons_append, List.nil_append]
        conv => lhs; rw [fromUtf8.eq_def]
        simp only [e1, e2, e3, e4]
        rw [if_neg (by omega), if_neg (by omega), if_neg (by omega), if_pos (by omega), if_pos hk]
        have : (240 + n / 262144 - 240) * 262144 + (128 + n / 4096 % 64 - 128) * 4096
            + (128 + n / 64 % 64 - 128) * 64 + (128 + n % 64 - 128) = n := by omega
        rw [this, hc]

theorem Str.bytes_nil : Str.bytes [] = [] := rfl

theorem Str.bytes_cons (c : Char) (s : Str) : Str.bytes (c :: s) = encodeChar c ++ Str.bytes s := by
  simp [Str.bytes]

theorem Str.bytes_append (s t : Str) : Str.bytes (s ++ t) = Str.bytes s ++ Str.bytes t := by
  simp [Str.bytes]

/-- Decoding what was encoded. -/
theorem fromUtf8_bytes (s : Str) : fromUtf8 (Str.bytes s) = some s := by
  induction s with
  | nil => simp [Str.bytes, fromUtf8]
  | cons c s ih => rw [Str.bytes_cons, fromUtf8_encodeChar_append, ih]; rfl

theorem Str.bytes_injective {s t : Str} (h : Str.bytes s = Str.bytes t) : s = t := by
  have := fromUtf8_bytes s
  rw [h, fromUtf8_bytes] at this
  exact (Option.some.inj this).symm

theorem u8_lt (b : UInt8) : b.toNat < 256 := b.toNat_lt

theorem u8_eq {n : Nat} {b : UInt8} (h : n = b.toNat) : UInt8.ofNat n = b := by
  subst h; simp

/-- What decodes is the encoding of what it decodes to. -/
theorem bytes_of_fromUtf8 (b : Bytes) (s : Str) (h : fromUtf8 b = some s) : Str.bytes s = b := by
  fun_induction fromUtf8 b generalizing s with
  | case1 => simp at h; subst h; rfl
  | case2 b0 rest h0 ih =>
    simp only [Option.map_eq_some_iff] at h
    obtain ⟨t, ht, rfl⟩ := h
    rw [Str.bytes_cons, ih t ht]
    have e : (Char.ofNat b0.toNat).toNat = b0.toNat := toNat_char_ofNat (by omega)
    simp [encodeChar, e, h0]
  | case3 => simp at h
  | case4 b0 h0 b1 rest hr hc ih =>
    simp only [Option.map_eq_some_iff] at h
    obtain ⟨t, ht, rfl⟩ := h
    rw [Str.bytes_cons, ih t ht]
    have := u8_lt b0; have := u8_lt b1
    simp only [isCont, Bool.and_eq_true, decide_eq_true_eq] at hc
    have e : (Char.ofNat ((b0.toNat - 192) * 64 + (b1.toNat - 128))).toNat
        = (b0.toNat - 192) * 64 + (b1.toNat - 128) := toNat_char_ofNat (by omega)
    unfold encodeChar
    rw [e]
    simp only
    rw [if_neg (by omega), if_pos (by omega)]
    rw [u8_eq (b := b0) (by omega), u8_eq (b := b1) (by omega)]
    rfl
  | case5 => simp at h
  | case6 => simp at h
  | case7 b0 h0 b1 hn b2 rest hr hc ih =>
    simp only [Option.map_eq_some_iff] at h
    obtain ⟨t, ht, rfl⟩ := h
    rw [Str.bytes_cons, ih t ht]
    have := u8_lt b0; have := u8_lt b1; have := u8_lt b2
    have hb : (b0.toNat = 0xE0 → 0xA0 ≤ b1.toNat) ∧ (b0.toNat = 0xED → b1.toNat ≤ 0x9F) ∧
        0x80 ≤ b1.toNat ∧ b1.toNat ≤ 0xBF ∧ 0x80 ≤ b2.toNat ∧ b2.toNat ≤ 0xBF := by
      simp only [ok3, isCont, Bool.and_eq_true, decide_eq_true_eq] at hc
      split at hc
      · simp at hc; omega
      · split at hc
        · simp at hc; omega
        · simp at hc; omega
    have e : (Char.ofNat ((b0.toNat - 224) * 4096 + (b1.toNat - 128) * 64 + (b2.toNat - 128))).toNat
        = (b0.toNat - 224) * 4096 + (b1.toNat - 128) * 64 + (b2.toNat - 128) :=
      toNat_char_ofNat (by omega)
    unfold encodeChar
    rw [e]
    simp only
    rw [if_neg (by omega), if_neg (by omega), if_pos (by omega)]
    rw [u8_eq (b := b0) (by omega), u8_eq (b := b1) (by omega), u8_eq (b := b2) (by omega)]
    rfl
  | case8 => simp at h
  | case9 => simp at h
  | case10 b0 h0 b1 hn b2 hn2 b3 rest hr hc ih =>
    simp only [Option.map_eq_some_iff] at h
    obtain ⟨t, ht, rfl⟩ := h
    rw [Str.bytes_cons, ih t ht]
    have := u8_lt b0; have := u8_lt b1; have := u8_lt b2; have := u8_lt b3
    have hb : (b0.toNat = 0xF0 → 0x90 ≤ b1.toNat) ∧ (b0.toNat = 0xF4 → b1.toNat ≤ 0x8F) ∧
        0x80 ≤ b1.toNat ∧ b1.toNat ≤ 0xBF ∧ 0x80 ≤ b2.toNat ∧ b2.toNat ≤ 0xBF
        ∧ 0x80 ≤ b3.toNat ∧ b3.toNat ≤ 0xBF := by
      simp only [ok4, isCont, Bool.and_eq_true, decide_eq_true_eq] at hc
      split at hc
      · simp at hc; omega
      · split at hc
        · simp at hc; omega
        · simp at hc; omega
    have e : (Char.ofNat ((b0.toNat - 240) * 262144 + (b1.toNat - 128) * 4096
        + (b2.toNat - 128) * 64 + (b3.toNat - 128))).toNat
        = (b0.toNat - 240) * 262144 + (b1.toNat - 128) * 4096
        + (b2.toNat - 128) * 64 + (b3.toNat - 128) :=
      toNat_char_ofNat (by omega)
    unfold encodeChar
    rw [e]
    simp only
    rw [if_neg (by omega), if_neg (by omega), if_neg (by omega)]
    rw [u8_eq (b := b0) (by omega), u8_eq (b := b1) (by omega), u8_eq (b := b2) (by omega),
      u8_eq (b := b3) (by omega)]
    rfl
  | case11 => simp at h
  | case12 => simp at h

theorem fromUtf8_eq_some_iff (b : Bytes) (s : Str) : fromUtf8 b = some s ↔ b = Str.bytes s := by
  constructor
  · intro h; exact (bytes_of_fromUtf8 b s h).symm
  · rintro rfl; exact fromUtf8_bytes s

/-- An ASCII byte occurs in the encoding exactly if the character occurs in the string. -/
theorem mem_encodeChar_ascii {b : UInt8} (hb : b.toNat < 128) (c : Char) :
    b ∈ encodeChar c ↔ c.toNat = b.toNat := by
  have hv := char_valid c
  unfold encodeChar
  have key : ∀ n, n < 256 → (b = UInt8.ofNat n ↔ n = b.toNat) := by
    intro n hn
    constructor
    · rintro rfl; rw [toNat_ofNat_lt hn]
    · intro h; rw [h]; simp
  simp only
  split
  · simp [key _ (show c.toNat < 256 by omega)]
  · split
    · simp only [List.mem_cons, List.not_mem_nil, or_false]
      rw [key _ (by omega), key _ (by omega)]
      omega
    · split
      · simp only [List.mem_cons, List.not_mem_nil, or_false]
        rw [key _ (by omega), key _ (by omega), key _ (by omega)]
        omega
      · simp only [List.mem_cons, List.not_mem_nil, or_false]
        rw [key _ (by omega), key _ (by omega), key _ (by omega), key _ (by omega)]
        omega

theorem mem_bytes_ascii {b : UInt8} (hb : b.toNat < 128) (s : Str) :
    b ∈ Str.bytes s ↔ Char.ofNat b.toNat ∈ s := by
  simp only [Str.bytes, List.mem_flatMap]
  constructor
  · rintro ⟨c, hc, h⟩
    rw [mem_encodeChar_ascii hb] at h
    rw [← h, char_ofNat_toNat]; exact hc
  · intro h
    refine ⟨_, h, ?_⟩
    rw [mem_encodeChar_ascii hb]
    exact toNat_char_ofNat (by omega)

theorem encodeChar_ne_nil (c : Char) : encodeChar c ≠ [] := by
  unfold encodeChar
  simp only
  split
  · simp
  · split
    · simp
    · split <;> simp

theorem Str.bytes_eq_nil (s : Str) : Str.bytes s = [] ↔ s = [] := by
  cases s with
  | nil => simp [Str.bytes]
  | cons c s => simp [Str.bytes_cons, encodeChar_ne_nil]

/-! ### splitting -/

theorem splitOn_ne_nil (sep : UInt8) (b : Bytes) : splitOn sep b ≠ [] := by
  cases b with
  | nil => simp [splitOn]
  | cons x b =>
    simp only [splitOn]
    split
    · simp
    · split <;> simp

theorem splitOn_of_notMem {sep : UInt8} {b : Bytes} (h : sep ∉ b) : splitOn sep b = [b] := by
  induction b with
  | nil => rfl
  | cons x b ih =>
    simp only [List.mem_cons, not_or] at h
    rw [splitOn, if_neg (Ne.symm h.1), ih h.2]

theorem splitOn_append_sep {sep : UInt8} {a : Bytes} (h : sep ∉ a) (b : Bytes) :
    splitOn sep (a ++ sep :: b) = a :: splitOn sep b := by
  induction a with
  | nil => simp [splitOn]
  | cons x a ih =>
    simp only [List.mem_cons, not_or] at h
    rw [List.cons_append, splitOn, if_neg (Ne.symm h.1), ih h.2]

/-- No part holds the separator. -/
theorem notMem_of_mem_splitOn {sep : UInt8} {b p : Bytes} (h : p ∈ splitOn sep b) : sep ∉ p := by
  induction b generalizing p with
  | nil => simp [splitOn] at h; simp [h]
  | cons x b ih =>
    simp only [splitOn] at h
    split at h
    · simp only [List.mem_cons] at h
      rcases h with rfl | h
      · simp
      · exact ih h
    · next hx =>
      split at h
      · simp at h; subst h; simp; exact Ne.symm hx
      · next q qs heq =>
        simp only [List.mem_cons] at h
        rcases h with rfl | h
        · simp only [List.mem_cons, not_or]
          exact ⟨Ne.symm hx, ih (by simp [heq])⟩
        · exact ih (by simp [heq, h])

/-- Joining the parts gives back the input. -/
theorem intercalate_splitOn (sep : UInt8) (b : Bytes) :
    [sep].intercalate (splitOn sep b) = b := by
  induction b with
  | nil => simp [splitOn, List.intercalate]
  | cons x b ih =>
    simp only [splitOn]
    split
    · next hx =>
      subst hx
      have := splitOn_ne_nil x b
      cases hs : splitOn x b with
      | nil => exact absurd hs this
      | cons p ps => rw [hs] at ih; simp [List.intercalate, List.intersperse] at *; exact ih
    · split
      · next heq => exact absurd heq (splitOn_ne_nil _ _)
      · next p ps heq =>
        rw [heq] at ih
        cases ps <;> simp [List.intercalate, List.intersperse] at * <;> simp [ih]

theorem splitOn_three {sep : UInt8} {b x y z : Bytes} :
    splitOn sep b = [x, y, z] ↔
      b = x ++ sep :: y ++ sep :: z ∧ sep ∉ x ∧ sep ∉ y ∧ sep ∉ z := by
  constructor
  · intro h
    have hi := intercalate_splitOn sep b
    rw [h] at hi
    refine ⟨?_, ?_, ?_, ?_⟩
    · rw [← hi]; simp [List.intercalate, List.intersperse]
    all_goals exact notMem_of_mem_splitOn (b := b) (by simp [h])
  · rintro ⟨rfl, hx, hy, hz⟩
    rw [List.append_assoc, List.cons_append, splitOn_append_sep hx, splitOn_append_sep hy,
      splitOn_of_notMem hz]

theorem splitOn_two {sep : UInt8} {b x y : Bytes} :
    splitOn sep b = [x, y] ↔ b = x ++ sep :: y ∧ sep ∉ x ∧ sep ∉ y := by
  constructor
  · intro h
    have hi := intercalate_splitOn sep b
    rw [h] at hi
    refine ⟨?_, ?_, ?_⟩
    · rw [← hi]; simp [List.intercalate, List.intersperse]
    all_goals exact notMem_of_mem_splitOn (b := b) (by simp [h])
  · rintro ⟨rfl, hx, hy⟩
    rw [splitOn_append_sep hx, splitOn_of_notMem hy]

/-! ### prefixes and suffixes -/

theorem stripPrefix_eq_some {p b r : Bytes} : stripPrefix p b = some r ↔ b = p ++ r := by
  induction p generalizing b with
  | nil => simp [stripPrefix]
  | cons x p ih =>
    cases b with
    | nil => simp [stripPrefix]
    | cons y b =>
      simp only [stripPrefix]
      split
      · next h => subst h; simp [ih]
      · next h => simp; intro h'; exact absurd h'.symm h

theorem stripPrefix_append (p r : Bytes) : stripPrefix p (p ++ r) = some r :=
  stripPrefix_eq_some.2 rfl

theorem stripSuffix_eq_some {p b r : Bytes} : stripSuffix p b = some r ↔ b = r ++ p := by
  simp only [stripSuffix, Option.map_eq_some_iff, stripPrefix_eq_some]
  constructor
  · rintro ⟨a, h, rfl⟩
    have := congrArg List.reverse h
    simpa using this
  · rintro rfl
    exact ⟨r.reverse, by simp, by simp⟩

theorem stripSuffix_append (p r : Bytes) : stripSuffix p (r ++ p) = some r :=
  stripSuffix_eq_some.2 rfl

end Rsasl

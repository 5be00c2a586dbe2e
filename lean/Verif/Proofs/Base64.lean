/-
Lemmas on base64.
-/
import Verif.Model.Base64
import Verif.Proofs.Bytes

namespace Rsasl.Base64

theorem val_sym {n : Nat} (h : n < 64) : val (sym n) = some n := by
  have : ∀ n : Fin 64, val (sym n.val) = some n.val := by decide
  exact this ⟨n, h⟩

theorem sym_ne_pad {n : Nat} (h : n < 64) : sym n ≠ pad := by
  have : ∀ n : Fin 64, sym n.val ≠ pad := by decide
  exact this ⟨n, h⟩

theorem val_lt {c : UInt8} {v : Nat} (h : val c = some v) : v < 64 := by
  have hc := u8_lt c
  simp only [val] at h
  repeat' split at h
  all_goals first
    | (simp only [Option.some.injEq] at h; omega)
    | simp at h

theorem sym_val {c : UInt8} {v : Nat} (h : val c = some v) : sym v = c := by
  have hc := u8_lt c
  simp only [val] at h
  repeat' split at h
  all_goals first
    | (simp only [Option.some.injEq] at h; subst h; simp only [sym]
       repeat' split
       all_goals first
         | omega
         | (apply u8_eq; omega))
    | (simp only [Option.some.injEq] at h; subst h; apply UInt8.toNat_inj.1; simp [sym, *])
    | simp at h

theorem val_pad : val pad = none := by decide

theorem ofNat_eq {n : Nat} {b : UInt8} (h : n = b.toNat) : UInt8.ofNat n = b := u8_eq h

/-- Decoding one full group. -/
theorem decodeFull_enc (a b c : UInt8) :
    decodeFull (sym (a.toNat / 4)) (sym (a.toNat % 4 * 16 + b.toNat / 16))
      (sym (b.toNat % 16 * 4 + c.toNat / 64)) (sym (c.toNat % 64)) = some [a, b, c] := by
  have := u8_lt a; have := u8_lt b; have := u8_lt c
  simp only [decodeFull]
  rw [val_sym (by omega), val_sym (by omega), val_sym (by omega), val_sym (by omega)]
  simp only [Option.some.injEq, List.cons.injEq, and_true]
  exact ⟨u8_eq (by omega), u8_eq (by omega), u8_eq (by omega)⟩

theorem decodeLast_enc3 (a b c : UInt8) :
    decodeLast (sym (a.toNat / 4)) (sym (a.toNat % 4 * 16 + b.toNat / 16))
      (sym (b.toNat % 16 * 4 + c.toNat / 64)) (sym (c.toNat % 64)) = some [a, b, c] := by
  have := u8_lt a; have := u8_lt b; have := u8_lt c
  simp only [decodeLast]
  rw [val_sym (by omega), val_sym (by omega), val_sym (by omega), val_sym (by omega)]
  simp only [sym_ne_pad (show c.toNat % 64 < 64 by omega), and_false, if_false]
  simp only [Option.some.injEq, List.cons.injEq, and_true]
  exact ⟨u8_eq (by omega), u8_eq (by omega), u8_eq (by omega)⟩

theorem decodeLast_enc2 (a b : UInt8) :
    decodeLast (sym (a.toNat / 4)) (sym (a.toNat % 4 * 16 + b.toNat / 16))
      (sym (b.toNat % 16 * 4)) pad = some [a, b] := by
  have := u8_lt a; have := u8_lt b
  simp only [decodeLast]
  rw [val_sym (by omega), val_sym (by omega), val_sym (by omega)]
  simp only [sym_ne_pad (show b.toNat % 16 * 4 < 64 by omega), false_and, if_false, if_true]
  rw [if_pos (by omega)]
  simp only [Option.some.injEq, List.cons.injEq, and_true]
  exact ⟨u8_eq (by omega), u8_eq (by omega)⟩

theorem decodeLast_enc1 (a : UInt8) :
    decodeLast (sym (a.toNat / 4)) (sym (a.toNat % 4 * 16)) pad pad = some [a] := by
  have := u8_lt a
  simp only [decodeLast]
  rw [val_sym (by omega), val_sym (by omega)]
  simp only
  rw [if_pos ⟨trivial, trivial⟩, if_pos (by omega)]
  simp only [Option.some.injEq, List.cons.injEq, and_true]
  exact u8_eq (by omega)

theorem decode_last (c0 c1 c2 c3 : UInt8) :
    decode [c0, c1, c2, c3] = decodeLast c0 c1 c2 c3 := by
  rw [decode]

theorem decode_more (c0 c1 c2 c3 : UInt8) {rest : Bytes} (h : rest ≠ []) :
    decode (c0 :: c1 :: c2 :: c3 :: rest) =
      match decodeFull c0 c1 c2 c3, decode rest with
      | some g, some r => some (g ++ r)
      | _, _ => none := by
  cases rest with
  | nil => exact absurd rfl h
  | cons x r => rw [decode]; all_goals first | rfl | (intro h; cases h)

theorem encode_ne_nil {b : Bytes} (h : b ≠ []) : encode b ≠ [] := by
  match b with
  | [] => exact absurd rfl h
  | [a] => simp [encode]
  | [a, b] => simp [encode]
  | a :: b :: c :: rest => simp [encode]

theorem decode_encode (b : Bytes) : decode (encode b) = some b := by
  fun_induction encode b with
  | case1 => rfl
  | case2 a => rw [decode_last, decodeLast_enc1]
  | case3 a b => rw [decode_last, decodeLast_enc2]
  | case4 a b c rest ih =>
    by_cases hr : rest = []
    · subst hr
      rw [show encode [] = [] from rfl, decode_last, decodeLast_enc3]
    · rw [decode_more _ _ _ _ (encode_ne_nil hr), decodeFull_enc, ih]
      rfl

theorem toNat_ofNat_mod (n : Nat) (h : n < 256) : (UInt8.ofNat n).toNat = n := toNat_ofNat_lt h

theorem encode_of_decodeLast {c0 c1 c2 c3 : UInt8} {b : Bytes}
    (h : decodeLast c0 c1 c2 c3 = some b) : encode b = [c0, c1, c2, c3] := by
  simp only [decodeLast] at h
  split at h
  · next v0 v1 h0 h1 =>
    have := val_lt h0; have := val_lt h1
    split at h
    · next hp =>
      split at h
      · next hz =>
        simp only [Option.some.injEq] at h
        subst h
        simp only [encode]
        rw [toNat_ofNat_mod _ (by omega)]
        rw [show (v0 * 4 + v1 / 16) / 4 = v0 by omega,
          show (v0 * 4 + v1 / 16) % 4 * 16 = v1 by omega, sym_val h0, sym_val h1, hp.1, hp.2]
      · simp at h
    · split at h
      · simp at h
      · next v2 h2 =>
        have := val_lt h2
        split at h
        · next hp3 =>
          split at h
          · next hz =>
            simp only [Option.some.injEq] at h
            subst h
            simp only [encode]
            rw [toNat_ofNat_mod _ (by omega), toNat_ofNat_mod _ (by omega)]
            rw [show (v0 * 4 + v1 / 16) / 4 = v0 by omega,
              show (v0 * 4 + v1 / 16) % 4 * 16 + (v1 % 16 * 16 + v2 / 4) / 16 = v1 by omega,
              show (v1 % 16 * 16 + v2 / 4) % 16 * 4 = v2 by omega,
              sym_val h0, sym_val h1, sym_val h2, hp3]
          · simp at h
        · split at h
          · simp at h
          · next v3 h3 =>
            have := val_lt h3
            simp only [Option.some.injEq] at h
            subst h
            simp only [encode]
            rw [toNat_ofNat_mod _ (by omega), toNat_ofNat_mod _ (by omega),
              toNat_ofNat_mod _ (by omega)]
            rw [show (v0 * 4 + v1 / 16) / 4 = v0 by omega,
              show (v0 * 4 + v1 / 16) % 4 * 16 + (v1 % 16 * 16 + v2 / 4) / 16 = v1 by omega,
              show (v1 % 16 * 16 + v2 / 4) % 16 * 4 + (v2 % 4 * 64 + v3) / 64 = v2 by omega,
              show (v2 % 4 * 64 + v3) % 64 = v3 by omega,
              sym_val h0, sym_val h1, sym_val h2, sym_val h3]
  · simp at h

theorem encode_of_decodeFull {c0 c1 c2 c3 : UInt8} {g r : Bytes}
    (h : decodeFull c0 c1 c2 c3 = some g) : encode (g ++ r) = c0 :: c1 :: c2 :: c3 :: encode r := by
  simp only [decodeFull] at h
  split at h
  · next v0 v1 v2 v3 h0 h1 h2 h3 =>
    have := val_lt h0; have := val_lt h1; have := val_lt h2; have := val_lt h3
    simp only [Option.some.injEq] at h
    subst h
    simp only [List.cons_append, List.nil_append, encode]
    rw [toNat_ofNat_mod _ (by omega), toNat_ofNat_mod _ (by omega),
      toNat_ofNat_mod _ (by omega)]
    rw [show (v0 * 4 + v1 / 16) / 4 = v0 by omega,
      show (v0 * 4 + v1 / 16) % 4 * 16 + (v1 % 16 * 16 + v2 / 4) / 16 = v1 by omega,
      show (v1 % 16 * 16 + v2 / 4) % 16 * 4 + (v2 % 4 * 64 + v3) / 64 = v2 by omega,
      show (v2 % 4 * 64 + v3) % 64 = v3 by omega,
      sym_val h0, sym_val h1, sym_val h2, sym_val h3]
  · simp at h

/-- Only encodings decode. -/
theorem encode_of_decode {t b : Bytes} (h : decode t = some b) : encode b = t := by
  fun_induction decode t generalizing b with
  | case1 => simp at h; subst h; rfl
  | case2 c0 c1 c2 c3 => exact encode_of_decodeLast h
  | case3 c0 c1 c2 c3 rest hne g r hr hg ih =>
    simp only [Option.some.injEq] at h
    subst h
    rw [encode_of_decodeFull hg, ih hr]
  | case4 c0 c1 c2 c3 rest hne x ih =>
    simp at h
  | case5 => simp at h

theorem decode_eq_some_iff {t b : Bytes} : decode t = some b ↔ t = encode b :=
  ⟨fun h => (encode_of_decode h).symm, fun h => h ▸ decode_encode b⟩

theorem encode_injective {a b : Bytes} (h : encode a = encode b) : a = b := by
  have := decode_encode a
  rw [h, decode_encode] at this
  exact (Option.some.inj this).symm

/-- The symbols of an encoding: alphabet or `=`. -/
theorem mem_encode {x : UInt8} {b : Bytes} (h : x ∈ encode b) :
    (∃ n, n < 64 ∧ x = sym n) ∨ x = pad := by
  fun_induction encode b with
  | case1 => simp at h
  | case2 a =>
    have := u8_lt a
    simp only [List.mem_cons, List.not_mem_nil, or_false] at h
    rcases h with rfl | rfl | h
    · exact .inl ⟨_, by omega, rfl⟩
    · exact .inl ⟨_, by omega, rfl⟩
    · simp at h; exact .inr h
  | case3 a b =>
    have := u8_lt a; have := u8_lt b
    simp only [List.mem_cons, List.not_mem_nil, or_false] at h
    rcases h with rfl | rfl | rfl | h
    · exact .inl ⟨_, by omega, rfl⟩
    · exact .inl ⟨_, by omega, rfl⟩
    · exact .inl ⟨_, by omega, rfl⟩
    · exact .inr h
  | case4 a b c rest ih =>
    have := u8_lt a; have := u8_lt b; have := u8_lt c
    simp only [List.mem_cons] at h
    rcases h with rfl | rfl | rfl | rfl | h
    · exact .inl ⟨_, by omega, rfl⟩
    · exact .inl ⟨_, by omega, rfl⟩
    · exact .inl ⟨_, by omega, rfl⟩
    · exact .inl ⟨_, by omega, rfl⟩
    · exact ih h

theorem sym_ne_comma {n : Nat} (h : n < 64) : sym n ≠ 44 := by
  have : ∀ n : Fin 64, sym n.val ≠ 44 := by decide
  exact this ⟨n, h⟩

theorem comma_notMem_encode (b : Bytes) : (44 : UInt8) ∉ encode b := by
  intro h
  rcases mem_encode h with ⟨n, hn, h⟩ | h
  · exact sym_ne_comma hn h.symm
  · exact absurd h (by decide)

theorem length_encode (b : Bytes) : (encode b).length = (b.length + 2) / 3 * 4 := by
  fun_induction encode b with
  | case1 => rfl
  | case2 => simp
  | case3 => simp
  | case4 a b c rest ih => simp only [List.length_cons, ih]; omega

end Rsasl.Base64

/-
C88: bytes that are taken for text without a check are text.
-/
import Verif.Model.Text
import Verif.Spec.Text
import Verif.Props.Basics
import Verif.Props.ScramGrammar

namespace Rsasl

open Spec

theorem unchecked_eq_text {b : Bytes} {s : Str} : unchecked b = .text s ↔ b = Str.bytes s := by
  unfold unchecked
  constructor
  · intro h
    split at h
    · rename_i t ht
      cases h
      exact (fromUtf8_eq_some_iff b s).1 ht
    · cases h
  · rintro rfl
    rw [fromUtf8_bytes]

/-- Bytes below 128 are the encoding of the characters with the same numbers. -/
theorem bytes_ascii {b : Bytes} (h : ∀ x ∈ b, x.toNat < 128) :
    Str.bytes (Scram.asciiStr b) = b := by
  induction b with
  | nil => rfl
  | cons x b ih =>
    have hx : x.toNat < 128 := h x (by simp)
    have hc : (Char.ofNat x.toNat).toNat = x.toNat := by
      have : x.toNat.isValidChar := Or.inl (by omega)
      simp [Char.ofNat, this, Char.toNat, Char.ofNatAux]
    show encodeChar (Char.ofNat x.toNat) ++ Str.bytes (Scram.asciiStr b) = x :: b
    rw [ih fun y hy => h y (by simp [hy])]
    unfold encodeChar
    rw [hc]
    simp [hx]

/-- The two ways to write the alphabet down say the same. -/
theorem mechChar_iff (x : UInt8) :
    x ∈ Spec.mechAlphabet ↔ x.toNat < 128 ∧ MechChar (Char.ofNat x.toNat) := by
  have : ∀ n : Fin 256, UInt8.ofNat n.val ∈ Spec.mechAlphabet ↔
      (UInt8.ofNat n.val).toNat < 128 ∧
        Char.ofNat (UInt8.ofNat n.val).toNat ∈ c!"ABCDEFGHIJKLMNOPQRSTUVWXYZ0123456789-_" := by
    decide +kernel
  have h := this ⟨x.toNat, u8_lt x⟩
  simp only [UInt8.ofNat_toNat] at h
  exact h

theorem mechChar_bytes {c : Char} (h : MechChar c) :
    ∃ x : UInt8, encodeChar c = [x] ∧ x ∈ Spec.mechAlphabet ∧ Char.ofNat x.toNat = c := by
  have : ∀ c ∈ c!"ABCDEFGHIJKLMNOPQRSTUVWXYZ0123456789-_",
      (encodeChar c).length = 1 ∧ (∀ x ∈ encodeChar c, x ∈ Spec.mechAlphabet ∧
        Char.ofNat x.toNat = c) := by decide +kernel
  obtain ⟨h1, h2⟩ := this c h
  obtain ⟨x, hx⟩ := List.length_eq_one_iff.1 h1
  exact ⟨x, hx, h2 x (by simp [hx])⟩

theorem mechText_bytes {s : Str} :
    (∀ c ∈ s, MechChar c) ↔ ∀ x ∈ Str.bytes s, x ∈ Spec.mechAlphabet := by
  constructor
  · intro h x hx
    obtain ⟨c, hc, hxc⟩ := List.mem_flatMap.1 hx
    obtain ⟨y, h1, h2, -⟩ := mechChar_bytes (h c hc)
    rw [h1] at hxc
    cases List.mem_singleton.1 hxc
    exact h2
  · intro h c hc
    have hb : Scram.asciiStr (Str.bytes s) = s := by
      have h1 := bytes_ascii (b := Str.bytes s) fun x hx => ((mechChar_iff x).1 (h x hx)).1
      have h2 := fromUtf8_bytes (Scram.asciiStr (Str.bytes s))
      rw [h1, fromUtf8_bytes] at h2
      exact (Option.some.inj h2).symm
    rw [← hb] at hc
    obtain ⟨x, hx, rfl⟩ := List.mem_map.1 hc
    exact ((mechChar_iff x).1 (h x hx)).2

/-- C88: the bytes of a parsed name are text of the alphabet, one character per byte: reading them
as `str` without a check is sound. -/
theorem C88_mechname (input m : Bytes) (h : Mechname.parse input = .ok m) :
    ∃ s, Mechname.asStr m = .text s ∧ Mechname.display m = .text s ∧
      Mechname.debug m = .text (c!"MECHANISM(" ++ s ++ c!")") ∧
      Str.bytes s = input ∧ Mechname.asBytes m = input ∧ s.length = input.length ∧
      MechText s := by
  obtain ⟨rfl, hne, hall⟩ := (C01_parse_ok input m).1 h
  have hb : Str.bytes (Scram.asciiStr m) = m :=
    bytes_ascii fun x hx => ((mechChar_iff x).1 (hall x hx)).1
  have ht : Mechname.asStr m = .text (Scram.asciiStr m) := unchecked_eq_text.2 hb.symm
  refine ⟨Scram.asciiStr m, ht, ht, ?_, hb, rfl, by simp [Scram.asciiStr], ?_, ?_⟩
  · unfold Mechname.debug
    rw [ht]
  · simpa [Scram.asciiStr] using hne
  · rw [mechText_bytes, hb]
    exact hall

/-- C88: a name can be made from a text exactly if it is one, and then it reads as that text. -/
theorem C88_try_from (s : Str) (m : Bytes) :
    Mechname.tryFromStr s = .ok m ↔ MechText s ∧ Mechname.asStr m = .text s := by
  unfold Mechname.tryFromStr
  rw [C01_parse_ok, ← mechText_bytes]
  unfold Mechname.asStr MechText
  rw [unchecked_eq_text]
  have : Str.bytes s ≠ [] ↔ s ≠ [] := by rw [Ne, Str.bytes_eq_nil]
  rw [this]
  exact ⟨fun ⟨a, b, c⟩ => ⟨⟨b, c⟩, a⟩, fun ⟨⟨b, c⟩, a⟩ => ⟨a, b, c⟩⟩

/-- C88: a name can be made from bytes exactly if they are those of such a text; otherwise the error is that of the text. -/
theorem C88_try_from_bytes (b m : Bytes) :
    (Mechname.tryFromBytes b = .ok m ↔ m = b ∧ ∃ s, MechText s ∧ Str.bytes s = b) ∧
    (∀ s, Str.bytes s = b → Mechname.tryFromStr s = Mechname.tryFromBytes b) := by
  refine ⟨?_, fun s hs => by rw [← hs]; rfl⟩
  unfold Mechname.tryFromBytes
  constructor
  · intro h
    obtain ⟨s, -, -, -, hs, hm, -, ht⟩ := C88_mechname b m h
    exact ⟨hm, s, ht, hs⟩
  · rintro ⟨rfl, s, ⟨h1, h2⟩, rfl⟩
    rw [C01_parse_ok]
    exact ⟨rfl, by rwa [Ne, Str.bytes_eq_nil], mechText_bytes.1 h2⟩

/-- C88: comparing a name with text and with bytes is the same, and tells exactly whether they are
the same text. -/
theorem C88_eq (input m : Bytes) (h : Mechname.parse input = .ok m) (s : Str) :
    (Mechname.eqStr m s = true ↔ Mechname.asStr m = .text s) ∧
    Mechname.eqStr m s = Mechname.eqBytes m (Str.bytes s) ∧
    (∀ input' m', Mechname.parse input' = .ok m' →
      (Mechname.asStr m = Mechname.asStr m' ↔ Mechname.eqBytes m (Mechname.asBytes m') = true)) := by
  refine ⟨?_, rfl, ?_⟩
  · unfold Mechname.eqStr Mechname.asStr
    rw [unchecked_eq_text]
    exact beq_iff_eq
  · intro input' m' h'
    obtain ⟨t, ht, -, -, hb, hm, -⟩ := C88_mechname input m h
    obtain ⟨t', ht', -, -, hb', hm', -⟩ := C88_mechname input' m' h'
    unfold Mechname.eqBytes
    rw [beq_iff_eq]
    constructor
    · intro he
      rw [ht, ht'] at he
      cases he
      rw [hm, hm', ← hb, hb']
    · intro he
      exact congrArg Mechname.asStr he

/-- C88: the names the crate makes without a check would all pass it. -/
theorem C88_constants (n : Bytes) (h : n ∈ constNames) : Mechname.parse n = .ok n := by
  have key : ∀ n ∈ constNames, n ≠ [] ∧ ∀ b ∈ n, b ∈ Spec.mechAlphabet := by decide +kernel
  exact (C01_parse_ok n n).2 ⟨rfl, (key n h).1, (key n h).2⟩

/-- C88: names of channel bindings are text too when the parser takes them for it, and the text
is the one shown to callbacks. -/
theorem C88_cbname (b n : Bytes) (h : Scram.CbFlag.parse b = .ok (.used n)) :
    (Scram.CbFlag.used n).name = some (.text (Scram.asciiStr n)) ∧
      Str.bytes (Scram.asciiStr n) = n ∧ b = b!"p=" ++ n := by
  obtain ⟨hv, hb⟩ := Scram.CbFlag.parse_eq_ok.1 h
  have hall : ∀ x ∈ n, x.toNat < 128 := by
    intro x hx
    have := hv.2 x hx
    have key : ∀ k : Fin 256, Scram.cbNameByte (UInt8.ofNat k.val) = true →
        (UInt8.ofNat k.val).toNat < 128 := by decide +kernel
    have hk := key ⟨x.toNat, u8_lt x⟩
    simp only [UInt8.ofNat_toNat] at hk
    exact hk this
  have hn := bytes_ascii hall
  exact ⟨congrArg some (unchecked_eq_text.2 hn.symm), hn, hb⟩

/-- C88: a name made with `const_new_unchecked` can be used as text exactly if it is text. -/
theorem C88_unchecked (b : Bytes) :
    (∃ s, Mechname.asStr (Mechname.constNew b) = .text s) ↔ ∃ s, b = Str.bytes s := by
  unfold Mechname.asStr Mechname.constNew
  simp only [unchecked_eq_text]

example : Mechname.parse (b!"SCRAM-SHA-1") = .ok (b!"SCRAM-SHA-1") ∧
    Mechname.debug (b!"SCRAM-SHA-1") = .text (c!"MECHANISM(SCRAM-SHA-1)") :=
  ⟨C88_constants _ (by decide +kernel), by decide +kernel⟩

example : Scram.CbFlag.parse (b!"p=tls-unique") = .ok (.used (b!"tls-unique")) := rfl

example : Mechname.asStr (Mechname.constNew [0xff]) = .undefined := by decide +kernel

end Rsasl

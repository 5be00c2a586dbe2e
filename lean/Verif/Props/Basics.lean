/-
C01 mechanism names, C20 context lookup, C21 vectored writer, C24 base64.
-/
import Verif.Model.Mechname
import Verif.Spec.Base64
import Verif.Proofs.Base64
import Verif.Proofs.Io

namespace Rsasl

/-! ## C01 -/

/-- The characters RFC 4422 allows in a mechanism name. -/
def Spec.mechAlphabet : Bytes := b!"ABCDEFGHIJKLMNOPQRSTUVWXYZ0123456789-_"

theorem mechCharValid_iff (b : UInt8) : mechCharValid b = true ↔ b ∈ Spec.mechAlphabet := by
  have : ∀ n : Fin 256,
      mechCharValid (UInt8.ofNat n.val) = true ↔ UInt8.ofNat n.val ∈ Spec.mechAlphabet := by
    decide +kernel
  have h := this ⟨b.toNat, u8_lt b⟩
  simpa using h

theorem mechnameScan_ok (i : Nat) (b : Bytes) :
    mechnameScan i b = .ok () ↔ ∀ x ∈ b, x ∈ Spec.mechAlphabet := by
  induction b generalizing i with
  | nil => simp [mechnameScan]
  | cons x xs ih =>
    rw [mechnameScan]
    have := mechCharValid_iff x
    by_cases h : mechCharValid x = true
    · simp [h, ih, this.1 h]
    · have h' : x ∉ Spec.mechAlphabet := fun hx => h (this.2 hx)
      simp [h, h']

theorem mechnameScan_err (i : Nat) (b : Bytes) (e : MechnameError) :
    mechnameScan i b = .error e ↔
      ∃ k v, e = .invalidChar (i + k) v ∧ b[k]? = some v ∧ v ∉ Spec.mechAlphabet ∧
        ∀ j < k, ∀ x, b[j]? = some x → x ∈ Spec.mechAlphabet := by
  induction b generalizing i with
  | nil => simp [mechnameScan]
  | cons x xs ih =>
    rw [mechnameScan]
    have hx := mechCharValid_iff x
    by_cases h : mechCharValid x = true
    · simp only [h, Bool.not_true, Bool.false_eq_true, if_false, ih]
      constructor
      · rintro ⟨k, v, rfl, hv, hn, hall⟩
        refine ⟨k + 1, v, by simp; omega, by simpa using hv, hn, ?_⟩
        intro j hj y hy
        cases j with
        | zero => simp at hy; exact hy ▸ hx.1 h
        | succ j => exact hall j (by omega) y (by simpa using hy)
      · rintro ⟨k, v, rfl, hv, hn, hall⟩
        cases k with
        | zero => simp at hv; exact absurd (hx.1 h) (hv ▸ hn)
        | succ k =>
          exact ⟨k, v, by simp; omega, by simpa using hv, hn,
            fun j hj y hy => hall (j + 1) (by omega) y (by simpa using hy)⟩
    · have h' : x ∉ Spec.mechAlphabet := fun hm => h (hx.2 hm)
      simp only [h, Bool.not_false, if_true]
      constructor
      · intro he
        cases he
        exact ⟨0, x, rfl, rfl, h', by simp⟩
      · rintro ⟨k, v, rfl, hv, hn, hall⟩
        cases k with
        | zero => simp at hv; subst hv; rfl
        | succ k => exact absurd (hall 0 (by omega) x (by simp)) h'

/-- C01: a name is accepted exactly when it is non-empty over the alphabet, and is kept as is. -/
theorem C01_parse_ok (input name : Bytes) :
    Mechname.parse input = .ok name ↔
      name = input ∧ input ≠ [] ∧ ∀ b ∈ input, b ∈ Spec.mechAlphabet := by
  unfold Mechname.parse
  cases input with
  | nil => simp
  | cons x xs =>
    rw [if_neg (by simp)]
    rcases h : mechnameScan 0 (x :: xs) with e | u
    · have : ¬ ∀ b ∈ x :: xs, b ∈ Spec.mechAlphabet := fun hh => by
        rw [(mechnameScan_ok 0 _).2 hh] at h; cases h
      simp only [reduceCtorEq, false_iff]
      exact fun hh => this hh.2.2
    · cases u
      have := (mechnameScan_ok 0 _).1 h
      simp only [Except.ok.injEq]
      exact ⟨fun he => ⟨he.symm, by simp, this⟩, fun he => he.1.symm⟩

/-- C01: "too short" is reported exactly for the empty input. -/
theorem C01_parse_too_short (input : Bytes) :
    Mechname.parse input = .error .tooShort ↔ input = [] := by
  unfold Mechname.parse
  cases input with
  | nil => simp
  | cons x xs =>
    rw [if_neg (by simp)]
    rcases h : mechnameScan 0 (x :: xs) with e | u
    · obtain ⟨k, v, he, _⟩ := (mechnameScan_err 0 _ _).1 h
      subst he; simp
    · simp

/-- C01: otherwise the error names the first offending byte and its index. -/
theorem C01_parse_invalid (input : Bytes) (k : Nat) (v : UInt8) :
    Mechname.parse input = .error (.invalidChar k v) ↔
      input[k]? = some v ∧ v ∉ Spec.mechAlphabet ∧
        ∀ j < k, ∀ x, input[j]? = some x → x ∈ Spec.mechAlphabet := by
  unfold Mechname.parse
  cases input with
  | nil => simp
  | cons x xs =>
    rw [if_neg (by simp)]
    have key := mechnameScan_err 0 (x :: xs) (.invalidChar k v)
    rcases h : mechnameScan 0 (x :: xs) with e | u
    · rw [h] at key
      simp only [Except.error.injEq] at key ⊢
      rw [key]
      constructor
      · rintro ⟨k', v', he, h1, h2, h3⟩
        simp at he; obtain ⟨rfl, rfl⟩ := he
        exact ⟨h1, h2, h3⟩
      · rintro ⟨h1, h2, h3⟩
        exact ⟨k, v, by simp, h1, h2, h3⟩
    · cases u
      have := (mechnameScan_ok 0 _).1 h
      simp only [reduceCtorEq, false_iff]
      rintro ⟨h1, h2, _⟩
      exact h2 (this v (List.mem_of_getElem? h1))

example : Mechname.parse (b!"SCRAM-SHA-256") = .ok (b!"SCRAM-SHA-256") := by rfl
example : Mechname.parse (b!"PLaIN") = .error (.invalidChar 2 97) := by rfl

/-! ## C20 -/

/-- The values a provider holds, in the order in which it offers them. -/
def Spec.values : Provider → List PV
  | .empty => []
  | .this pv => [pv]
  | .and l r => Spec.values l ++ Spec.values r
  | .chain pvs => pvs

/-- First value of property `p` in a list. -/
def Spec.IsFirst (p : Property) (v : p.Value) (l : List PV) : Prop :=
  ∃ pre post, l = pre ++ ⟨p, v⟩ :: post ∧ ∀ x ∈ pre, x.prop ≠ p

theorem chainProvide_append (p : Property) (a b : List PV) (slot : Option p.Value) :
    chainProvide p (a ++ b) slot =
      match chainProvide p a slot with
      | (.break, slot) => (.break, slot)
      | (.continue, slot) => chainProvide p b slot := by
  induction a generalizing slot with
  | nil => rfl
  | cons x xs ih =>
    simp only [List.cons_append, chainProvide]
    rcases demandProvide p slot x with ⟨_ | _, s⟩
    · exact ih s
    · rfl

theorem provide_eq_chain (p : Property) (ctx : Provider) (slot : Option p.Value) :
    ctx.provide p slot = chainProvide p (Spec.values ctx) slot := by
  induction ctx generalizing slot with
  | empty => rfl
  | this pv =>
    simp only [Provider.provide, Spec.values, chainProvide]
    rcases demandProvide p slot pv with ⟨_ | _, s⟩ <;> rfl
  | and l r ihl ihr =>
    rw [Provider.provide, Spec.values, chainProvide_append, ihl]
    rcases chainProvide p (Spec.values l) slot with ⟨_ | _, s⟩
    · exact ihr s
    · rfl
  | chain pvs => rfl

theorem chainProvide_none (p : Property) (l : List PV) (h : ∀ x ∈ l, x.prop ≠ p)
    (slot : Option p.Value) : chainProvide p l slot = (.continue, slot) := by
  induction l generalizing slot with
  | nil => rfl
  | cons x xs ih =>
    rw [chainProvide, demandProvide, dif_neg (h x (List.mem_cons_self ..))]
    exact ih (fun y hy => h y (List.mem_cons_of_mem _ hy)) slot

theorem first_of_mem (p : Property) (l : List PV) :
    (∀ x ∈ l, x.prop ≠ p) ∨ ∃ v, Spec.IsFirst p v l := by
  induction l with
  | nil => exact .inl (by simp)
  | cons x xs ih =>
    by_cases h : x.prop = p
    · obtain ⟨q, v⟩ := x
      simp only at h; subst h
      exact .inr ⟨v, [], xs, rfl, by simp⟩
    · rcases ih with ih | ⟨v, pre, post, he, hp⟩
      · left; intro y hy
        rcases List.mem_cons.1 hy with rfl | hy
        · exact h
        · exact ih y hy
      · refine .inr ⟨v, x :: pre, post, by rw [he]; rfl, ?_⟩
        intro y hy
        rcases List.mem_cons.1 hy with rfl | hy
        · exact h
        · exact hp y hy

theorem chainProvide_first (p : Property) (v : p.Value) (l : List PV) (h : Spec.IsFirst p v l)
    (slot : Option p.Value) : chainProvide p l slot = (.break, some v) := by
  obtain ⟨pre, post, rfl, hp⟩ := h
  rw [chainProvide_append, chainProvide_none p pre hp]
  simp [chainProvide, demandProvide]

/-- C20: a lookup returns `v` exactly when `v` is the first value provided for the property. -/
theorem C20_getRef_some (ctx : Provider) (p : Property) (v : p.Value) :
    ctx.getRef p = some v ↔ Spec.IsFirst p v (Spec.values ctx) := by
  rw [Provider.getRef, provide_eq_chain]
  rcases first_of_mem p (Spec.values ctx) with h | ⟨v', h⟩
  · rw [chainProvide_none p _ h]
    simp only [reduceCtorEq, false_iff]
    rintro ⟨pre, post, he, _⟩
    exact h ⟨p, v⟩ (by rw [he]; simp) rfl
  · rw [chainProvide_first p v' _ h]
    simp only [Option.some.injEq]
    constructor
    · rintro rfl; exact h
    · intro h2
      have := chainProvide_first p v _ h2 none
      rw [chainProvide_first p v' _ h] at this
      simpa using this

/-- C20: a lookup finds nothing exactly when nothing was provided for the property. -/
theorem C20_getRef_none (ctx : Provider) (p : Property) :
    ctx.getRef p = none ↔ ∀ x ∈ Spec.values ctx, x.prop ≠ p := by
  rw [Provider.getRef, provide_eq_chain]
  rcases first_of_mem p (Spec.values ctx) with h | ⟨v', h⟩
  · rw [chainProvide_none p _ h]; exact ⟨fun _ => h, fun _ => rfl⟩
  · rw [chainProvide_first p v' _ h]
    simp only [reduceCtorEq, false_iff]
    obtain ⟨pre, post, he, _⟩ := h
    exact fun hh => hh ⟨p, v'⟩ (by rw [he]; simp) rfl

/-- C20: no mechanism of the crate lets a callback change a value, a mutable lookup finds nothing. -/
theorem C20_getMut_none (ctx : Provider) (p : Property) : ctx.getMut p = none := by
  have : ∀ slot, ctx.provideMut p slot = (.continue, slot) := by
    induction ctx with
    | and l r hl hr => intro slot; simp only [Provider.provideMut, hl, hr]
    | _ => intro slot; rfl
  rw [Provider.getMut, this]

example :
    (Provider.and (.this ⟨.authId, c!"left"⟩)
      (.chain [⟨.password, b!"pw"⟩, ⟨.authId, c!"right"⟩])).getRef .authId = some (c!"left") := by
  decide

/-! ## C21 -/

/-- C21: a writer that takes a positive amount per call gets every byte once and in order, and
the count is returned. -/
theorem C21_cooperative (bufs : List Bytes) (out : Bytes) (sched : List WResp)
    (h : Cooperative sched) :
    ((VectoredWriter.new bufs).writeAllVectored ⟨out, sched⟩).1 = .ok bufs.flatten.length ∧
      ((VectoredWriter.new bufs).writeAllVectored ⟨out, sched⟩).2.2.out = out ++ bufs.flatten ∧
      ((VectoredWriter.new bufs).writeAllVectored ⟨out, sched⟩).2.1.rest = [] := by
  obtain ⟨n, h1, h2, h3, h4, h5, h6⟩ :=
    writeAllVectored_spec (VectoredWriter.new bufs) ⟨out, sched⟩
  have hr : (VectoredWriter.new bufs).rest = bufs.flatten := by
    simp [VectoredWriter.rest, VectoredWriter.new]
  obtain ⟨h7, h8⟩ := h6 h
  rw [hr] at h2 h3 h8
  subst h8
  exact ⟨h7, by rw [h2, List.take_length], by rw [h3, List.drop_length]⟩

/-- C21: with any writer at all (failing, refusing, splitting) there is no panic and no endless
loop; a prefix was delivered and exactly the rest is left; a returned count is what was
delivered. Holds in every state of the vectored writer, so also when resuming. -/
theorem C21_any_writer (vw : VectoredWriter) (w : Writer) :
    ∃ delivered, vw.rest = delivered ++ (vw.writeAllVectored w).2.1.rest ∧
      (vw.writeAllVectored w).2.2.out = w.out ++ delivered ∧
      ((vw.writeAllVectored w).1 = .ok delivered.length ∨
        ∃ e, (vw.writeAllVectored w).1 = .err e) := by
  obtain ⟨n, h1, h2, h3, h4, h5, h6⟩ := writeAllVectored_spec vw w
  refine ⟨vw.rest.take n, by rw [h3, List.take_append_drop], h2, ?_⟩
  rw [List.length_take, Nat.min_eq_left h1]
  exact h5

/-- C21: however often it is interrupted and resumed, the pieces delivered and the rest still
make up the data. -/
theorem C21_resume (vw : VectoredWriter) (scheds : List (List WResp)) :
    (vw.resume scheds).1.flatten ++ (vw.resume scheds).2.rest = vw.rest := by
  induction scheds generalizing vw with
  | nil => simp [VectoredWriter.resume]
  | cons s ss ih =>
    obtain ⟨d, h1, h2, _⟩ := C21_any_writer vw ⟨[], s⟩
    have := ih (vw.writeAllVectored ⟨[], s⟩).2.1
    simp only [VectoredWriter.resume, List.flatten_cons, List.append_assoc, this]
    rw [h2, List.nil_append, h1]

/-- C21: and a cooperative writer at the end gets everything that was left. -/
theorem C21_resume_completes (bufs : List Bytes) (scheds : List (List WResp)) (last : List WResp)
    (h : Cooperative last) :
    ((VectoredWriter.new bufs).resume (scheds ++ [last])).1.flatten = bufs.flatten := by
  have key : ∀ vw : VectoredWriter, (vw.resume (scheds ++ [last])).2.rest = [] := by
    induction scheds with
    | nil =>
      intro vw
      obtain ⟨n, h1, h2, h3, h4, h5, h6⟩ := writeAllVectored_spec vw ⟨[], last⟩
      simp only [List.nil_append, VectoredWriter.resume]
      rw [h3, (h6 h).2, List.drop_length]
    | cons s ss ih =>
      intro vw
      simp only [List.cons_append, VectoredWriter.resume]
      exact ih _
  have := C21_resume (VectoredWriter.new bufs) (scheds ++ [last])
  rw [key, List.append_nil] at this
  rw [this]
  simp [VectoredWriter.rest, VectoredWriter.new]

example : Cooperative [.accept 1, .accept 3] := by
  intro r hr
  simp at hr
  rcases hr with rfl | rfl
  · exact ⟨0, rfl⟩
  · exact ⟨2, rfl⟩

example : (VectoredWriter.new [b!"dead", [], b!"beef"]).writeAllVectored
    ⟨[], [.accept 3, .fail (.other 0)]⟩ = (.err (.other 0), ⟨0, [b!"d", [], b!"beef"]⟩,
      ⟨b!"dea", []⟩) := by rfl

/-! ## C24 -/

/-- C24: decoding undoes encoding. -/
theorem C24_decode_encode (b : Bytes) : Base64.decode (Base64.encode b) = some b :=
  Base64.decode_encode b

/-- C24: whatever is accepted is the encoding of what it decodes to. -/
theorem C24_canonical (text b : Bytes) (h : Base64.decode text = some b) :
    text = Base64.encode b :=
  Base64.decode_eq_some_iff.1 h

/-- C24: two different accepted texts never stand for the same bytes. -/
theorem C24_no_aliases (t₁ t₂ b : Bytes) (h₁ : Base64.decode t₁ = some b)
    (h₂ : Base64.decode t₂ = some b) : t₁ = t₂ := by
  rw [C24_canonical _ _ h₁, C24_canonical _ _ h₂]

theorem sym_alphabet {n : Nat} (h : n < 64) :
    Spec.base64Alphabet[n]? = some (Base64.sym n) := by
  have : ∀ n : Fin 64, Spec.base64Alphabet[n.val]? = some (Base64.sym n.val) := by decide
  exact this ⟨n, h⟩

/-- C24: the encoder computes the encoding of RFC 4648. -/
theorem C24_rfc4648 (b : Bytes) : Spec.Base64 b (Base64.encode b) := by
  fun_induction Base64.encode b with
  | case1 => exact .nil
  | case2 a =>
    have := u8_lt a
    refine .one _ _ _ ?_ ?_
    · rw [show a.toNat * 65536 / 262144 % 64 = a.toNat / 4 by omega, sym_alphabet (by omega)]
    · rw [show a.toNat * 65536 / 4096 % 64 = a.toNat % 4 * 16 by omega, sym_alphabet (by omega)]
  | case3 a b =>
    have := u8_lt a; have := u8_lt b
    refine .two _ _ _ _ _ ?_ ?_ ?_
    · rw [← sym_alphabet (by omega)]; congr 1; omega
    · rw [← sym_alphabet (by omega)]; congr 1; omega
    · rw [← sym_alphabet (by omega)]; congr 1; omega
  | case4 a b c rest ih =>
    have := u8_lt a; have := u8_lt b; have := u8_lt c
    refine .group _ _ _ _ _ _ _ _ _ ?_ ?_ ?_ ?_ ih
    · rw [← sym_alphabet (by omega)]; congr 1; omega
    · rw [← sym_alphabet (by omega)]; congr 1; omega
    · rw [← sym_alphabet (by omega)]; congr 1; omega
    · rw [← sym_alphabet (by omega)]; congr 1; omega

example : Base64.encode (b!"fooba") = b!"Zm9vYmE=" := by decide
example : Base64.decode (b!"Zm9vYmF=") = none := by decide

end Rsasl

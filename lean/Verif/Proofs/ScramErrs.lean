/-
Which inputs the SCRAM parsers refuse as having mandatory extensions, and on which ones they panic.
-/
import Verif.Proofs.ScramParse
import Verif.Proofs.NoPanic
import Verif.Spec.ScramGrammar

namespace Rsasl

theorem Outcome.bind_eq_err {α β : Type} {x : Outcome α} {f : α → Outcome β} {e : SessionError} :
    (x >>= f) = .err e ↔ x = .err e ∨ ∃ a, x = .ok a ∧ f a = .err e := by
  cases x with
  | ok a =>
    show f a = _ ↔ _
    simp
  | err e' =>
    show (Outcome.err e' : Outcome β) = _ ↔ _
    simp
  | panic =>
    show (Outcome.panic : Outcome β) = _ ↔ _
    simp

theorem Outcome.bind_eq_panic {α β : Type} {x : Outcome α} {f : α → Outcome β} :
    (x >>= f) = .panic ↔ x = .panic ∨ ∃ a, x = .ok a ∧ f a = .panic := by
  cases x with
  | ok a =>
    show f a = _ ↔ _
    simp
  | err e' =>
    show (Outcome.err e' : Outcome β) = _ ↔ _
    simp
  | panic =>
    show (Outcome.panic : Outcome β) = _ ↔ _
    simp

/-- The parts of a text, one at a time. -/
theorem splitOn_single_iff {sep : UInt8} {b p : Bytes} :
    splitOn sep b = [p] ↔ sep ∉ p ∧ b = p := by
  rw [splitOn_eq_iff]
  simp [List.intercalate]

theorem splitOn_cons_iff {sep : UInt8} {b p q : Bytes} {ps : List Bytes} :
    splitOn sep b = p :: q :: ps ↔
      sep ∉ p ∧ ∃ r, b = p ++ sep :: r ∧ splitOn sep r = q :: ps := by
  constructor
  · intro h
    obtain ⟨-, h2, h3⟩ := splitOn_eq_iff.1 h
    refine ⟨h2 p (by simp), [sep].intercalate (q :: ps), ?_, ?_⟩
    · rw [h3]; simp [List.intercalate, List.intersperse]
    · exact splitOn_eq_iff.2 ⟨by simp, fun x hx => h2 x (List.mem_cons_of_mem _ hx), rfl⟩
  · rintro ⟨h1, r, rfl, h2⟩
    rw [splitOn_append_sep h1, h2]

theorem splitOn_tail_iff {sep : UInt8} {b p : Bytes} {ps : List Bytes} (hne : ps ≠ []) :
    splitOn sep b = p :: ps ↔ sep ∉ p ∧ ∃ r, b = p ++ sep :: r ∧ splitOn sep r = ps := by
  cases ps with
  | nil => exact absurd rfl hne
  | cons q ps => exact splitOn_cons_iff

theorem exists_splitOn {sep : UInt8} (b : Bytes) : ∃ p ps, splitOn sep b = p :: ps := by
  cases h : splitOn sep b with
  | nil => exact absurd h (splitOn_ne_nil _ _)
  | cons p ps => exact ⟨p, ps, rfl⟩

namespace Scram

theorem attr_eq_err {x : Bytes} {e : SessionError} : attr x ≠ .err e := by
  unfold attr
  split <;> exact nofun

theorem attr_eq_panic {x : Bytes} : attr x = .panic ↔ x.length < 2 := by
  match x with
  | [] => simp [attr]
  | [a] => simp [attr]
  | a :: b :: r => simp [attr]

theorem firstByte_eq_panic {x : Bytes} : firstByte x = .panic ↔ x = [] := by
  cases x <;> simp [firstByte]

theorem firstByte_err_eq {x : Bytes} {α : Type} :
    (firstByte x >>= fun b => (.err (perr (.invalidAttribute b)) : Outcome α)) = .panic ↔ x = [] := by
  cases x
  · exact ⟨fun _ => rfl, fun _ => rfl⟩
  · exact ⟨nofun, nofun⟩

theorem firstByte_err_ne {x : Bytes} {α : Type} :
    (firstByte x >>= fun b => (.err (perr (.invalidAttribute b)) : Outcome α)) ≠
      .err (perr .unknownMandatoryExtensions) := by
  cases x
  · exact nofun
  · intro h
    have h : (.err (perr (.invalidAttribute _)) : Outcome α) = _ := h
    simp [perr] at h

theorem expectAttr_ne_mext {key x : Bytes} :
    expectAttr key x ≠ .err (perr .unknownMandatoryExtensions) := by
  unfold expectAttr
  intro h
  rcases Outcome.bind_eq_err.1 h with h | ⟨⟨k, v⟩, _, h⟩
  · exact attr_eq_err h
  · dsimp only at h
    split at h
    · cases h
    · exact firstByte_err_ne h

theorem expectAttr_eq_panic {key x : Bytes} : expectAttr key x = .panic ↔ x.length < 2 := by
  constructor
  · intro h
    refine Decidable.byContradiction fun hx => ?_
    exact expectAttr_ne_panic _ (by omega) h
  · intro h
    exact Outcome.bind_eq_panic.2 (.inl (attr_eq_panic.2 h))

theorem utf8_ne_mext {x : Bytes} : utf8 x ≠ .err (perr .unknownMandatoryExtensions) := by
  unfold utf8
  cases fromUtf8 x <;> simp [orErr, perr]

theorem nextPart_eq_mext {e : SParseError} (he : e ≠ .unknownMandatoryExtensions) {l : List Bytes} :
    nextPart e l ≠ .err (perr .unknownMandatoryExtensions) := by
  cases l <;> simp [nextPart, perr, he]

theorem CbFlag.parse_ne_mext {x : Bytes} :
    CbFlag.parse x ≠ .err (perr .unknownMandatoryExtensions) := by
  unfold CbFlag.parse
  split
  · exact nofun
  · exact nofun
  · split <;> simp [perr]
  · simp [perr]

theorem parseAuthzid_ne_mext {x : Bytes} :
    parseAuthzid x ≠ .err (perr .unknownMandatoryExtensions) := by
  unfold parseAuthzid
  split
  · exact nofun
  · intro h
    rcases Outcome.bind_eq_err.1 h with h | ⟨⟨k, v⟩, _, h⟩
    · exact attr_eq_err h
    · rcases Outcome.bind_eq_err.1 h with h | ⟨s, _, h⟩
      · exact utf8_ne_mext h
      · cases h

theorem parseAuthzid_eq_panic {x : Bytes} : parseAuthzid x = .panic ↔ x.length = 1 := by
  constructor
  · intro h
    refine Decidable.byContradiction fun hx => ?_
    refine parseAuthzid_ne_panic ?_ h
    cases x with
    | nil => exact .inl rfl
    | cons a x => cases x with
      | nil => simp at hx
      | cons b x => right; simp
  · intro h
    match x, h with
    | [a], _ => rfl

/-! ## Mandatory extensions -/

theorem ClientFirst.parse_mext_parts {input : Bytes} :
    ClientFirst.parse input = .err (perr .unknownMandatoryExtensions) ↔
      ∃ f az x rest flag a v, splitOn 44 input = f :: az :: x :: rest ∧ CbFlag.parse f = .ok flag ∧
        parseAuthzid az = .ok a ∧ x = b!"m=" ++ v := by
  unfold ClientFirst.parse
  constructor
  · intro h
    rcases Outcome.bind_eq_err.1 h with h | ⟨⟨f, p1⟩, h1, h⟩
    · exact nomatch nextPart_eq_mext (by decide) h
    rcases Outcome.bind_eq_err.1 h with h | ⟨flag, h2, h⟩
    · exact absurd h CbFlag.parse_ne_mext
    rcases Outcome.bind_eq_err.1 h with h | ⟨⟨az, p2⟩, h3, h⟩
    · exact nomatch nextPart_eq_mext (by decide) h
    rcases Outcome.bind_eq_err.1 h with h | ⟨a, h4, h⟩
    · exact absurd h parseAuthzid_ne_mext
    rcases Outcome.bind_eq_err.1 h with h | ⟨⟨x, p3⟩, h5, h⟩
    · exact nomatch nextPart_eq_mext (by decide) h
    rcases Outcome.bind_eq_err.1 h with h | ⟨⟨k, v⟩, h6, h⟩
    · exact absurd h attr_eq_err
    rw [nextPart_eq_ok] at h1 h3 h5
    rw [attr_eq_ok] at h6
    dsimp only at *
    split at h
    · next hk =>
      refine ⟨f, az, x, p3, flag, a, v, by rw [h1, h3, h5], h2, h4, by rw [h6.2, hk]⟩
    · exfalso
      rcases Outcome.bind_eq_err.1 h with h | ⟨u, _, h⟩
      · exact expectAttr_ne_mext h
      rcases Outcome.bind_eq_err.1 h with h | ⟨n, _, h⟩
      · exact utf8_ne_mext h
      rcases Outcome.bind_eq_err.1 h with h | ⟨⟨n, _⟩, _, h⟩
      · exact nextPart_eq_mext (by decide) h
      rcases Outcome.bind_eq_err.1 h with h | ⟨n, _, h⟩
      · exact expectAttr_ne_mext h
      split at h
      · cases h
      · simp [perr] at h
  · rintro ⟨f, az, x, rest, flag, a, v, h1, h2, h3, rfl⟩
    rw [h1]
    refine Outcome.bind_eq_err.2 (.inr ⟨_, nextPart_eq_ok.2 rfl, ?_⟩)
    refine Outcome.bind_eq_err.2 (.inr ⟨flag, h2, ?_⟩)
    refine Outcome.bind_eq_err.2 (.inr ⟨_, nextPart_eq_ok.2 rfl, ?_⟩)
    refine Outcome.bind_eq_err.2 (.inr ⟨a, h3, ?_⟩)
    refine Outcome.bind_eq_err.2 (.inr ⟨_, nextPart_eq_ok.2 rfl, ?_⟩)
    refine Outcome.bind_eq_err.2 (.inr ⟨_, attr_eq_ok.2 ⟨rfl, rfl⟩, ?_⟩)
    rfl

theorem ServerFirst.parse_mext {input : Bytes} :
    ServerFirst.parse input = .err (perr .unknownMandatoryExtensions) ↔
      ∃ rest, input = b!"m=" ++ rest := by
  unfold ServerFirst.parse
  constructor
  · intro h
    rcases Outcome.bind_eq_err.1 h with h | ⟨⟨x, p1⟩, h1, h⟩
    · exact nomatch nextPart_eq_mext (by decide) h
    rw [nextPart_eq_ok] at h1
    dsimp only at h
    split at h
    · simp [perr] at h
    rcases Outcome.bind_eq_err.1 h with h | ⟨⟨k, v⟩, h6, h⟩
    · exact absurd h attr_eq_err
    rw [attr_eq_ok] at h6
    dsimp only at *
    split at h
    · next hk =>
      obtain ⟨-, -, h3⟩ := splitOn_eq_iff.1 h1
      rw [h3, intercalate_exts, h6.2, hk]
      exact ⟨_, List.append_assoc ..⟩
    · exfalso
      rcases Outcome.bind_eq_err.1 h with h | ⟨u, _, h⟩
      · exact expectAttr_ne_mext h
      rcases Outcome.bind_eq_err.1 h with h | ⟨⟨n, _⟩, _, h⟩
      · exact nextPart_eq_mext (by decide) h
      rcases Outcome.bind_eq_err.1 h with h | ⟨u, _, h⟩
      · exact expectAttr_ne_mext h
      rcases Outcome.bind_eq_err.1 h with h | ⟨⟨n, ps⟩, _, h⟩
      · exact nextPart_eq_mext (by decide) h
      rcases Outcome.bind_eq_err.1 h with h | ⟨u, _, h⟩
      · exact expectAttr_ne_mext h
      dsimp only at h
      cases ps with
      | nil => cases h
      | cons q qs => exact firstByte_err_ne h
  · rintro ⟨rest, rfl⟩
    obtain ⟨p, ps, hp⟩ := exists_splitOn (sep := 44) rest
    obtain ⟨-, h2, h3⟩ := splitOn_eq_iff.1 hp
    have : splitOn 44 (b!"m=" ++ rest) = (b!"m=" ++ p) :: ps := by
      rw [splitOn_eq_iff]
      refine ⟨by simp, ?_, ?_⟩
      · intro q hq
        rcases List.mem_cons.1 hq with rfl | hq
        · simp only [List.mem_append, not_or]; exact ⟨by decide, h2 p (by simp)⟩
        · exact h2 q (by simp [hq])
      · rw [h3, intercalate_exts, intercalate_exts, List.append_assoc]
    rw [this]
    rfl

theorem findProof_mext {ps : List Bytes} :
    findProof ps = .err (perr .unknownMandatoryExtensions) ↔
      ∃ exts v rest, ps = exts ++ (b!"m=" ++ v) :: rest ∧
        ∀ e ∈ exts, ∃ k v : Bytes, k.length = 2 ∧ e = k ++ v ∧ k ≠ b!"p=" ∧ k ≠ b!"m=" := by
  induction ps with
  | nil => simp [findProof, perr]
  | cons p ps ih =>
    unfold findProof
    rw [Outcome.bind_eq_err]
    constructor
    · rintro (h | ⟨⟨k, v⟩, h1, h2⟩)
      · exact absurd h attr_eq_err
      rw [attr_eq_ok] at h1
      dsimp only at h2
      split at h2
      · cases h2
      · next hk =>
        split at h2
        · next hm => exact ⟨[], v, ps, by rw [h1.2, hm]; rfl, nofun⟩
        · next hm =>
          obtain ⟨exts, v', rest, h3, h4⟩ := ih.1 h2
          refine ⟨p :: exts, v', rest, by rw [h3]; rfl, ?_⟩
          intro e he
          rcases List.mem_cons.1 he with rfl | he
          · exact ⟨k, v, h1.1, h1.2, hk, hm⟩
          · exact h4 e he
    · rintro ⟨exts, v, rest, h1, h2⟩
      right
      cases exts with
      | nil =>
        cases h1
        exact ⟨(b!"m=", v), attr_eq_ok.2 ⟨rfl, rfl⟩, rfl⟩
      | cons e exts =>
        rw [List.cons_append] at h1
        cases h1
        obtain ⟨k, u, h3, h4, h5, h6⟩ := h2 p (by simp)
        refine ⟨(k, u), attr_eq_ok.2 ⟨h3, h4⟩, ?_⟩
        simp only [h5, h6, if_false]
        exact ih.2 ⟨exts, v, rest, rfl, fun e he => h2 e (by simp [he])⟩

theorem ClientFinal.parse_mext_parts {input : Bytes} :
    ClientFinal.parse input = .err (perr .unknownMandatoryExtensions) ↔
      ∃ cb nonce exts v rest,
        splitOn 44 input = (b!"c=" ++ cb) :: (b!"r=" ++ nonce) :: (exts ++ (b!"m=" ++ v) :: rest) ∧
        ∀ e ∈ exts, ∃ k v : Bytes, k.length = 2 ∧ e = k ++ v ∧ k ≠ b!"p=" ∧ k ≠ b!"m=" := by
  unfold ClientFinal.parse
  constructor
  · intro h
    rcases Outcome.bind_eq_err.1 h with h | ⟨⟨x, p1⟩, h1, h⟩
    · exact nomatch nextPart_eq_mext (by decide) h
    rcases Outcome.bind_eq_err.1 h with h | ⟨cb, h2, h⟩
    · exact absurd h expectAttr_ne_mext
    rcases Outcome.bind_eq_err.1 h with h | ⟨⟨y, p2⟩, h3, h⟩
    · exact nomatch nextPart_eq_mext (by decide) h
    rcases Outcome.bind_eq_err.1 h with h | ⟨nonce, h4, h⟩
    · exact absurd h expectAttr_ne_mext
    rw [nextPart_eq_ok] at h1 h3
    rw [expectAttr_eq_ok rfl] at h2 h4
    dsimp only at *
    rcases Outcome.bind_eq_err.1 h with h | ⟨⟨pr, ps⟩, _, h⟩
    · obtain ⟨exts, v, rest, h5, h6⟩ := findProof_mext.1 h
      exact ⟨cb, nonce, exts, v, rest, by rw [h1, h3, h2, h4, h5], h6⟩
    · exfalso
      dsimp only at h
      cases ps with
      | nil => cases h
      | cons q qs => exact firstByte_err_ne h
  · rintro ⟨cb, nonce, exts, v, rest, h1, h2⟩
    rw [h1]
    refine Outcome.bind_eq_err.2 (.inr ⟨_, nextPart_eq_ok.2 rfl, ?_⟩)
    refine Outcome.bind_eq_err.2 (.inr ⟨_, (expectAttr_eq_ok rfl).2 rfl, ?_⟩)
    refine Outcome.bind_eq_err.2 (.inr ⟨_, nextPart_eq_ok.2 rfl, ?_⟩)
    refine Outcome.bind_eq_err.2 (.inr ⟨_, (expectAttr_eq_ok rfl).2 rfl, ?_⟩)
    exact Outcome.bind_eq_err.2 (.inl (findProof_mext.2 ⟨exts, v, rest, rfl, h2⟩))

/-! ## Panics -/

theorem nextPart_eq_panic {e : SParseError} {l : List Bytes} : nextPart e l ≠ .panic := by
  cases l <;> exact nofun

theorem ClientFirst.parse_panic_parts {input : Bytes} :
    ClientFirst.parse input = .panic ↔
      ∃ f az rest flag, splitOn 44 input = f :: az :: rest ∧ CbFlag.parse f = .ok flag ∧
        (az.length = 1 ∨ ∃ a x rest', parseAuthzid az = .ok a ∧ rest = x :: rest' ∧
          (x.length < 2 ∨ ∃ user y rest'', x = b!"n=" ++ Str.bytes user ∧ rest' = y :: rest'' ∧
            y.length < 2)) := by
  unfold ClientFirst.parse
  constructor
  · intro h
    rcases Outcome.bind_eq_panic.1 h with h | ⟨⟨f, p1⟩, h1, h⟩
    · exact absurd h nextPart_eq_panic
    rcases Outcome.bind_eq_panic.1 h with h | ⟨flag, h2, h⟩
    · exact absurd h (cbFlag_ne_panic _)
    rcases Outcome.bind_eq_panic.1 h with h | ⟨⟨az, p2⟩, h3, h⟩
    · exact absurd h nextPart_eq_panic
    rw [nextPart_eq_ok] at h1 h3
    dsimp only at *
    refine ⟨f, az, p2, flag, by rw [h1, h3], h2, ?_⟩
    rcases Outcome.bind_eq_panic.1 h with h | ⟨a, h4, h⟩
    · exact .inl (parseAuthzid_eq_panic.1 h)
    right
    rcases Outcome.bind_eq_panic.1 h with h | ⟨⟨x, p3⟩, h5, h⟩
    · exact absurd h nextPart_eq_panic
    rw [nextPart_eq_ok] at h5
    refine ⟨a, x, p3, h4, h5, ?_⟩
    rcases Outcome.bind_eq_panic.1 h with h | ⟨⟨k, v⟩, h6, h⟩
    · exact .inl (attr_eq_panic.1 h)
    right
    dsimp only at *
    split at h
    · cases h
    rcases Outcome.bind_eq_panic.1 h with h | ⟨u, h7, h⟩
    · rw [expectAttr_eq_panic] at h
      rw [attr_eq_ok] at h6
      have := h6.1
      rw [h6.2] at h
      simp at h
      omega
    rcases Outcome.bind_eq_panic.1 h with h | ⟨n, h8, h⟩
    · exact absurd h (utf8_ne_panic _)
    rcases Outcome.bind_eq_panic.1 h with h | ⟨⟨y, p4⟩, h9, h⟩
    · exact absurd h nextPart_eq_panic
    rw [nextPart_eq_ok] at h9
    rw [expectAttr_eq_ok rfl] at h7
    rw [utf8_eq_ok] at h8
    refine ⟨n, y, p4, by rw [h7, h8], h9, ?_⟩
    rcases Outcome.bind_eq_panic.1 h with h | ⟨r, _, h⟩
    · exact expectAttr_eq_panic.1 h
    · split at h <;> cases h
  · rintro ⟨f, az, rest, flag, h1, h2, h⟩
    rw [h1]
    refine Outcome.bind_eq_panic.2 (.inr ⟨_, nextPart_eq_ok.2 rfl, ?_⟩)
    refine Outcome.bind_eq_panic.2 (.inr ⟨flag, h2, ?_⟩)
    refine Outcome.bind_eq_panic.2 (.inr ⟨_, nextPart_eq_ok.2 rfl, ?_⟩)
    rcases h with h | ⟨a, x, rest', h3, rfl, h⟩
    · exact Outcome.bind_eq_panic.2 (.inl (parseAuthzid_eq_panic.2 h))
    refine Outcome.bind_eq_panic.2 (.inr ⟨a, h3, ?_⟩)
    refine Outcome.bind_eq_panic.2 (.inr ⟨_, nextPart_eq_ok.2 rfl, ?_⟩)
    rcases h with h | ⟨user, y, rest'', rfl, rfl, h⟩
    · exact Outcome.bind_eq_panic.2 (.inl (attr_eq_panic.2 h))
    refine Outcome.bind_eq_panic.2 (.inr ⟨_, attr_eq_ok.2 ⟨rfl, rfl⟩, ?_⟩)
    dsimp only
    rw [if_neg (by decide)]
    refine Outcome.bind_eq_panic.2 (.inr ⟨_, (expectAttr_eq_ok rfl).2 rfl, ?_⟩)
    refine Outcome.bind_eq_panic.2 (.inr ⟨_, utf8_eq_ok.2 rfl, ?_⟩)
    refine Outcome.bind_eq_panic.2 (.inr ⟨_, nextPart_eq_ok.2 rfl, ?_⟩)
    exact Outcome.bind_eq_panic.2 (.inl (expectAttr_eq_panic.2 h))

theorem ServerFirst.parse_panic_parts {input : Bytes} :
    ServerFirst.parse input = .panic ↔
      ∃ nonce x rest, splitOn 44 input = (b!"r=" ++ nonce) :: x :: rest ∧
        (x.length < 2 ∨ ∃ salt y rest', x = b!"s=" ++ salt ∧ rest = y :: rest' ∧
          (y.length < 2 ∨ ∃ count rest'', y = b!"i=" ++ count ∧ rest' = [] :: rest'')) := by
  unfold ServerFirst.parse
  constructor
  · intro h
    rcases Outcome.bind_eq_panic.1 h with h | ⟨⟨f, p1⟩, h1, h⟩
    · exact absurd h nextPart_eq_panic
    rw [nextPart_eq_ok] at h1
    dsimp only at *
    split at h
    · cases h
    next hl =>
    rcases Outcome.bind_eq_panic.1 h with h | ⟨⟨k, v⟩, h6, h⟩
    · exact absurd (attr_eq_panic.1 h) hl
    dsimp only at *
    split at h
    · cases h
    rcases Outcome.bind_eq_panic.1 h with h | ⟨nonce, h7, h⟩
    · exact absurd (expectAttr_eq_panic.1 h) hl
    rcases Outcome.bind_eq_panic.1 h with h | ⟨⟨x, p2⟩, h2, h⟩
    · exact absurd h nextPart_eq_panic
    rw [nextPart_eq_ok] at h2
    rw [expectAttr_eq_ok rfl] at h7
    refine ⟨nonce, x, p2, by rw [h1, h2, h7], ?_⟩
    rcases Outcome.bind_eq_panic.1 h with h | ⟨salt, h8, h⟩
    · exact .inl (expectAttr_eq_panic.1 h)
    right
    rcases Outcome.bind_eq_panic.1 h with h | ⟨⟨y, p3⟩, h3, h⟩
    · exact absurd h nextPart_eq_panic
    rw [nextPart_eq_ok] at h3
    rw [expectAttr_eq_ok rfl] at h8
    refine ⟨salt, y, p3, h8, h3, ?_⟩
    rcases Outcome.bind_eq_panic.1 h with h | ⟨count, h9, h⟩
    · exact .inl (expectAttr_eq_panic.1 h)
    rw [expectAttr_eq_ok rfl] at h9
    right
    dsimp only at h
    cases p3 with
    | nil => cases h
    | cons q qs =>
      refine ⟨count, qs, h9, ?_⟩
      rw [firstByte_err_eq.1 h]
  · rintro ⟨nonce, x, rest, h1, h⟩
    rw [h1]
    refine Outcome.bind_eq_panic.2 (.inr ⟨_, nextPart_eq_ok.2 rfl, ?_⟩)
    dsimp only
    rw [if_neg (by simp)]
    refine Outcome.bind_eq_panic.2 (.inr ⟨_, attr_eq_ok.2 ⟨rfl, rfl⟩, ?_⟩)
    dsimp only
    rw [if_neg (by decide)]
    refine Outcome.bind_eq_panic.2 (.inr ⟨_, (expectAttr_eq_ok rfl).2 rfl, ?_⟩)
    refine Outcome.bind_eq_panic.2 (.inr ⟨_, nextPart_eq_ok.2 rfl, ?_⟩)
    rcases h with h | ⟨salt, y, rest', rfl, rfl, h⟩
    · exact Outcome.bind_eq_panic.2 (.inl (expectAttr_eq_panic.2 h))
    refine Outcome.bind_eq_panic.2 (.inr ⟨_, (expectAttr_eq_ok rfl).2 rfl, ?_⟩)
    refine Outcome.bind_eq_panic.2 (.inr ⟨_, nextPart_eq_ok.2 rfl, ?_⟩)
    rcases h with h | ⟨count, rest'', rfl, rfl⟩
    · exact Outcome.bind_eq_panic.2 (.inl (expectAttr_eq_panic.2 h))
    refine Outcome.bind_eq_panic.2 (.inr ⟨_, (expectAttr_eq_ok rfl).2 rfl, ?_⟩)
    rfl

theorem findProof_panic {ps : List Bytes} :
    findProof ps = .panic ↔
      ∃ exts x rest, ps = exts ++ x :: rest ∧ x.length < 2 ∧
        ∀ e ∈ exts, ∃ k v : Bytes, k.length = 2 ∧ e = k ++ v ∧ k ≠ b!"p=" ∧ k ≠ b!"m=" := by
  induction ps with
  | nil => simp [findProof]
  | cons p ps ih =>
    unfold findProof
    rw [Outcome.bind_eq_panic]
    constructor
    · rintro (h | ⟨⟨k, v⟩, h1, h2⟩)
      · exact ⟨[], p, ps, rfl, attr_eq_panic.1 h, nofun⟩
      rw [attr_eq_ok] at h1
      dsimp only at h2
      split at h2
      · cases h2
      · next hk =>
        split at h2
        · cases h2
        · next hm =>
          obtain ⟨exts, v', rest, h3, h4, h5⟩ := ih.1 h2
          refine ⟨p :: exts, v', rest, by rw [h3]; rfl, h4, ?_⟩
          intro e he
          rcases List.mem_cons.1 he with rfl | he
          · exact ⟨k, v, h1.1, h1.2, hk, hm⟩
          · exact h5 e he
    · rintro ⟨exts, x, rest, h1, hx, h2⟩
      cases exts with
      | nil =>
        cases h1
        exact .inl (attr_eq_panic.2 hx)
      | cons e exts =>
        rw [List.cons_append] at h1
        cases h1
        obtain ⟨k, u, h3, h4, h5, h6⟩ := h2 p (by simp)
        refine .inr ⟨(k, u), attr_eq_ok.2 ⟨h3, h4⟩, ?_⟩
        simp only [h5, h6, if_false]
        exact ih.2 ⟨exts, x, rest, rfl, hx, fun e he => h2 e (by simp [he])⟩

theorem ClientFinal.parse_panic_parts {input : Bytes} :
    ClientFinal.parse input = .panic ↔
      ∃ x rest, splitOn 44 input = x :: rest ∧ (x.length < 2 ∨
        ∃ cb y rest', x = b!"c=" ++ cb ∧ rest = y :: rest' ∧ (y.length < 2 ∨
          ∃ nonce exts z rest'', y = b!"r=" ++ nonce ∧ rest' = exts ++ z :: rest'' ∧
            (∀ e ∈ exts, ∃ k v : Bytes, k.length = 2 ∧ e = k ++ v ∧ k ≠ b!"p=" ∧ k ≠ b!"m=") ∧
            (z.length < 2 ∨ ∃ proof rest''', z = b!"p=" ++ proof ∧ rest'' = [] :: rest'''))) := by
  unfold ClientFinal.parse
  constructor
  · intro h
    rcases Outcome.bind_eq_panic.1 h with h | ⟨⟨x, p1⟩, h1, h⟩
    · exact absurd h nextPart_eq_panic
    rw [nextPart_eq_ok] at h1
    refine ⟨x, p1, h1, ?_⟩
    rcases Outcome.bind_eq_panic.1 h with h | ⟨cb, h2, h⟩
    · exact .inl (expectAttr_eq_panic.1 h)
    rcases Outcome.bind_eq_panic.1 h with h | ⟨⟨y, p2⟩, h3, h⟩
    · exact absurd h nextPart_eq_panic
    rw [nextPart_eq_ok] at h3
    rw [expectAttr_eq_ok rfl] at h2
    refine .inr ⟨cb, y, p2, h2, h3, ?_⟩
    rcases Outcome.bind_eq_panic.1 h with h | ⟨nonce, h4, h⟩
    · exact .inl (expectAttr_eq_panic.1 h)
    rw [expectAttr_eq_ok rfl] at h4
    right
    dsimp only at *
    rcases Outcome.bind_eq_panic.1 h with h | ⟨⟨pr, ps⟩, h5, h⟩
    · obtain ⟨exts, z, rest, h6, h7, h8⟩ := findProof_panic.1 h
      exact ⟨nonce, exts, z, rest, h4, h6, h8, .inl h7⟩
    · obtain ⟨exts, h6, h7⟩ := findProof_eq_ok.1 h5
      dsimp only at h
      cases ps with
      | nil => cases h
      | cons q qs =>
        rw [firstByte_err_eq.1 h] at h6
        exact ⟨nonce, exts, _, _, h4, h6, h7, .inr ⟨pr, qs, rfl, rfl⟩⟩
  · rintro ⟨x, rest, h1, h⟩
    rw [h1]
    refine Outcome.bind_eq_panic.2 (.inr ⟨_, nextPart_eq_ok.2 rfl, ?_⟩)
    rcases h with h | ⟨cb, y, rest', rfl, rfl, h⟩
    · exact Outcome.bind_eq_panic.2 (.inl (expectAttr_eq_panic.2 h))
    refine Outcome.bind_eq_panic.2 (.inr ⟨_, (expectAttr_eq_ok rfl).2 rfl, ?_⟩)
    refine Outcome.bind_eq_panic.2 (.inr ⟨_, nextPart_eq_ok.2 rfl, ?_⟩)
    rcases h with h | ⟨nonce, exts, z, rest'', rfl, rfl, he, h⟩
    · exact Outcome.bind_eq_panic.2 (.inl (expectAttr_eq_panic.2 h))
    refine Outcome.bind_eq_panic.2 (.inr ⟨_, (expectAttr_eq_ok rfl).2 rfl, ?_⟩)
    rcases h with h | ⟨proof, rest''', rfl, rfl⟩
    · exact Outcome.bind_eq_panic.2 (.inl (findProof_panic.2 ⟨exts, z, rest'', rfl, h, he⟩))
    · refine Outcome.bind_eq_panic.2 (.inr ⟨_, findProof_eq_ok.2 ⟨exts, rfl, he⟩, ?_⟩)
      rfl

theorem ServerFinal.parse_panic {input : Bytes} :
    ServerFinal.parse input = .panic ↔ input.length < 2 := by
  constructor
  · intro h
    refine Decidable.byContradiction fun hx => ?_
    exact serverFinal_ne_panic (by omega) h
  · intro h
    exact Outcome.bind_eq_panic.2 (.inl (attr_eq_panic.2 h))

end Scram

end Rsasl

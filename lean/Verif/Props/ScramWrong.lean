/-
C77: which error each malformed SCRAM message gets.
-/
import Verif.Props.ScramGrammar
import Verif.Props.ScramMsgs
import Verif.Spec.ScramWrong

namespace Rsasl

namespace Scram

open Spec

theorem fields_iff {input : Bytes} {ps : List Bytes} : Fields input ps ↔ splitOn 44 input = ps := by
  constructor
  · intro h
    induction h with
    | one h => exact splitOn_of_notMem h
    | more h _ ih =>
      rw [List.append_assoc]
      show splitOn 44 (_ ++ 44 :: _) = _
      rw [splitOn_append_sep h]
      exact congrArg (_ :: ·) ih
  · intro h
    induction ps generalizing input with
    | nil => exact absurd h (splitOn_ne_nil _ _)
    | cons p ps ih =>
      cases ps with
      | nil =>
        obtain ⟨-, h1, rfl⟩ := splitOn_eq_iff.1 h
        have : ([44] : Bytes).intercalate [p] = p := by simp [List.intercalate]
        rw [this]
        exact .one (h1 p (by simp))
      | cons q qs =>
        obtain ⟨h1, r, rfl, h2⟩ := splitOn_cons_iff.1 h
        have := Fields.more h1 (ih h2)
        simpa using this

/-- Every message has exactly one list of fields. -/
theorem fields_unique (input : Bytes) : ∃ ps, Fields input ps ∧ ∀ qs, Fields input qs → qs = ps :=
  ⟨_, fields_iff.2 rfl, fun _ h => (fields_iff.1 h).symm⟩

theorem nextPart_eq_err {f : SParseError} {l : List Bytes} {e : SessionError} :
    nextPart f l = .err e ↔ l = [] ∧ e = perr f := by
  cases l with
  | nil => exact ⟨fun h => by cases h; exact ⟨rfl, rfl⟩, fun h => by rw [h.2]; rfl⟩
  | cons p ps => exact ⟨nofun, fun h => nomatch h.1⟩

theorem utf8_eq_err {b : Bytes} {e : SessionError} :
    utf8 b = .err e ↔ NoText b ∧ e = perr .badUtf8 := by
  unfold utf8
  cases h : fromUtf8 b with
  | none =>
    refine ⟨fun h' => ?_, fun h' => by rw [h'.2]; rfl⟩
    cases h'
    refine ⟨fun t ht => ?_, rfl⟩
    rw [ht, fromUtf8_bytes] at h
    cases h
  | some t =>
    rw [fromUtf8_eq_some_iff] at h
    exact ⟨nofun, fun h' => absurd h (h'.1 t)⟩

theorem expectAttr_eq_err {key p : Bytes} {e : SessionError} :
    expectAttr key p = .err e ↔ ∃ x, OtherField [key] x p ∧ e = perr (.invalidAttribute x) := by
  unfold expectAttr
  match p with
  | [] => exact ⟨nofun, fun ⟨_, ⟨_, _, h, _⟩, _⟩ => nomatch h⟩
  | [_] => exact ⟨nofun, fun ⟨_, ⟨_, _, h, _⟩, _⟩ => nomatch h⟩
  | x :: y :: v =>
    show (if [x, y] = key then _ else _) = _ ↔ _
    split
    · next h =>
      refine ⟨nofun, ?_⟩
      rintro ⟨_, ⟨_, _, h1, h2⟩, _⟩
      cases h1
      exact absurd (List.mem_singleton.2 h) h2
    · next h =>
      constructor
      · intro h1
        cases h1
        exact ⟨x, ⟨y, v, rfl, fun h2 => h (List.mem_singleton.1 h2)⟩, rfl⟩
      · rintro ⟨_, ⟨_, _, h1, h2⟩, rfl⟩
        cases h1
        rfl

theorem parseAuthzid_eq_err {az : Bytes} {e : SessionError} :
    parseAuthzid az = .err e ↔ ∃ x y v, az = x :: y :: v ∧ NoText v ∧ e = perr .badUtf8 := by
  match az with
  | [] => exact ⟨nofun, fun ⟨_, _, _, h, _⟩ => nomatch h⟩
  | [_] => exact ⟨nofun, fun ⟨_, _, _, h, _⟩ => nomatch h⟩
  | x :: y :: v =>
    show (utf8 v >>= fun s => .ok (some s)) = _ ↔ _
    rw [Outcome.bind_eq_err, utf8_eq_err]
    constructor
    · rintro (⟨h1, rfl⟩ | ⟨_, _, h⟩)
      · exact ⟨x, y, v, rfl, h1, rfl⟩
      · exact nomatch h
    · rintro ⟨_, _, _, h1, h2, rfl⟩
      cases h1
      exact .inl ⟨h2, rfl⟩

theorem cbNameByte_iff {b : UInt8} : cbNameByte b = true ↔ CbNameByte b := by
  unfold cbNameByte CbNameByte
  simp only [Bool.or_eq_true, Bool.and_eq_true, beq_iff_eq, decide_eq_true_eq]
  constructor
  · rintro ((((h | h) | h) | h) | h)
    · exact .inr (.inr (.inr (.inl h)))
    · exact .inr (.inr (.inr (.inr h)))
    · exact .inr (.inr (.inl h))
    · exact .inl h
    · exact .inr (.inl h)
  · rintro (h | h | h | h | h)
    · exact .inl (.inr h)
    · exact .inr h
    · exact .inl (.inl (.inr h))
    · exact .inl (.inl (.inl (.inl h)))
    · exact .inl (.inl (.inl (.inr h)))

theorem find_bad {l : Bytes} {bad : UInt8} : l.find? (fun b => !cbNameByte b) = some bad ↔
    ∃ good rest, l = good ++ bad :: rest ∧ (∀ b ∈ good, CbNameByte b) ∧ ¬ CbNameByte bad := by
  rw [List.find?_eq_some_iff_append]
  simp only [Bool.not_eq_true', ← Bool.not_eq_true, cbNameByte_iff, Bool.not_not]
  constructor
  · rintro ⟨h1, good, rest, rfl, h2⟩
    exact ⟨good, rest, rfl, h2, h1⟩
  · rintro ⟨good, rest, rfl, h2, h1⟩
    exact ⟨h1, good, rest, rfl, h2⟩

theorem cbFlag_eq_err {p : Bytes} {e : SessionError} :
    CbFlag.parse p = .err e ↔
      (p ≠ b!"n" ∧ p ≠ b!"y" ∧ (∀ x v, p ≠ b!"p=" ++ x :: v) ∧ e = perr .badCBFlag) ∨
      ∃ good bad rest, p = b!"p=" ++ good ++ bad :: rest ∧ (∀ b ∈ good, CbNameByte b) ∧
        ¬ CbNameByte bad ∧ e = perr (.badCBName bad) := by
  constructor
  · intro h
    unfold CbFlag.parse at h
    split at h
    · cases h
    · cases h
    · next b rest =>
      split at h
      · cases h
      · next bad hf =>
        cases h
        obtain ⟨good, rest', h1, h2, h3⟩ := find_bad.1 hf
        exact .inr ⟨good, bad, rest', by rw [h1]; rfl, h2, h3, rfl⟩
    · next h1 h2 h3 =>
      cases h
      exact .inl ⟨h1, h2, fun x v hv => h3 x v hv, rfl⟩
  · rintro (⟨h1, h2, h3, rfl⟩ | ⟨good, bad, rest, rfl, h1, h2, rfl⟩)
    · unfold CbFlag.parse
      split
      · exact absurd rfl h1
      · exact absurd rfl h2
      · next b rest => exact absurd rfl (h3 b rest)
      · rfl
    · obtain ⟨b, v, hv⟩ : ∃ b v, good ++ bad :: rest = b :: v := by
        cases good with
        | nil => exact ⟨_, _, rfl⟩
        | cons g gs => exact ⟨_, _, rfl⟩
      have hf : (b :: v).find? (fun b => !cbNameByte b) = some bad :=
        find_bad.2 ⟨good, rest, hv.symm, h1, h2⟩
      rw [List.append_assoc, hv]
      show (match (b :: v).find? (fun b => !cbNameByte b) with
          | none => (.ok (.used (b :: v)) : Outcome CbFlag)
          | some bad => .err (perr (.badCBName bad))) = _
      rw [hf]

theorem firstByte_err {p : Bytes} {α : Type} {e : SessionError} :
    ((firstByte p >>= fun b => .err (perr (.invalidAttribute b))) : Outcome α) = .err e ↔
      ∃ x v, p = x :: v ∧ e = perr (.invalidAttribute x) := by
  cases p with
  | nil => exact ⟨nofun, fun ⟨_, _, h, _⟩ => nomatch h⟩
  | cons x v =>
    refine ⟨fun h => by cases h; exact ⟨x, v, rfl, rfl⟩, ?_⟩
    rintro ⟨_, _, h1, rfl⟩
    cases h1
    rfl

theorem other_two {k1 k2 p : Bytes} {x : UInt8} :
    OtherField [k1, k2] x p ↔ OtherField [k2] x p ∧ ∀ v, p ≠ k1 ++ v ∨ k1.length ≠ 2 := by
  constructor
  · rintro ⟨y, v, rfl, h⟩
    simp only [List.mem_cons, List.not_mem_nil, or_false, not_or] at h
    refine ⟨⟨y, v, rfl, by simpa using h.2⟩, fun w => ?_⟩
    match k1 with
    | [a, b] =>
      left
      intro hw
      injection hw with h1 h2
      injection h2 with h2 h3
      subst h1 h2
      exact h.1 rfl
    | [] => right; simp
    | [a] => right; simp
    | _ :: _ :: _ :: _ => right; simp
  · rintro ⟨⟨y, v, rfl, h⟩, h'⟩
    refine ⟨y, v, rfl, ?_⟩
    simp only [List.mem_cons, List.not_mem_nil, or_false, not_or] at h ⊢
    refine ⟨?_, h⟩
    rintro rfl
    rcases h' v with h' | h'
    · exact h' rfl
    · exact h' rfl

/-! ## The messages -/

/-- C77: the server refuses a client-first message with the error of its first fault, and no other
message with an error. -/
theorem C77_client_first (input : Bytes) (e : SessionError) :
    ClientFirst.parse input = .err e ↔
      ∃ ps f, Fields input ps ∧ ClientFirstWrong ps f ∧ e = .mechanismError (.scramParse f) := by
  constructor
  · intro h
    refine ⟨splitOn 44 input, ?_⟩
    suffices hs : ∃ f, ClientFirstWrong (splitOn 44 input) f ∧ e = perr f by
      obtain ⟨f, h1, h2⟩ := hs
      exact ⟨f, fields_iff.2 rfl, h1, h2⟩
    unfold ClientFirst.parse at h
    replace h := Outcome.bind_eq_err.1 h
    rcases h with h | ⟨⟨p, p1⟩, h1, h⟩
    · exact absurd (nextPart_eq_err.1 h).1 (splitOn_ne_nil _ _)
    rw [nextPart_eq_ok.1 h1]
    dsimp only at h
    replace h := Outcome.bind_eq_err.1 h
    rcases h with h | ⟨flag, h2, h⟩
    · rcases cbFlag_eq_err.1 h with ⟨h1, h2, h3, rfl⟩ | ⟨good, bad, rest, rfl, h1, h2, rfl⟩
      · exact ⟨_, .flag h1 h2 h3, rfl⟩
      · exact ⟨_, .cbName h1 h2, rfl⟩
    have h2 := gs2Flag_iff.2 h2
    replace h := Outcome.bind_eq_err.1 h
    rcases h with h | ⟨⟨az, p2⟩, h3, h⟩
    · obtain ⟨rfl, rfl⟩ := nextPart_eq_err.1 h
      exact ⟨_, .header h2, rfl⟩
    obtain rfl := nextPart_eq_ok.1 h3
    dsimp only at h
    replace h := Outcome.bind_eq_err.1 h
    rcases h with h | ⟨a, h4, h⟩
    · obtain ⟨x, y, v, rfl, h4, rfl⟩ := parseAuthzid_eq_err.1 h
      exact ⟨_, .authzid h2 h4, rfl⟩
    have h4 := authzidPart_iff.1 (parseAuthzid_eq_ok.1 h4)
    replace h := Outcome.bind_eq_err.1 h
    rcases h with h | ⟨⟨x, p3⟩, h5, h⟩
    · obtain ⟨rfl, rfl⟩ := nextPart_eq_err.1 h
      exact ⟨_, .noName h2 h4, rfl⟩
    obtain rfl := nextPart_eq_ok.1 h5
    dsimp only at h
    replace h := Outcome.bind_eq_err.1 h
    rcases h with h | ⟨⟨k, v⟩, h6, h⟩
    · exact absurd h attr_eq_err
    obtain ⟨hk2, rfl⟩ := attr_eq_ok.1 h6
    dsimp only at h
    split at h
    · next hk =>
      cases h
      subst hk
      exact ⟨_, .mandatory h2 h4, rfl⟩
    next hk =>
    replace h := Outcome.bind_eq_err.1 h
    rcases h with h | ⟨u, h7, h⟩
    · obtain ⟨x, h7, rfl⟩ := expectAttr_eq_err.1 h
      refine ⟨_, .notName h2 h4 (other_two.2 ⟨h7, fun w => .inl fun hw => hk ?_⟩), rfl⟩
      exact (List.append_inj hw (by rw [hk2]; rfl)).1
    rw [expectAttr_eq_ok rfl] at h7
    rw [h7]
    replace h := Outcome.bind_eq_err.1 h
    rcases h with h | ⟨user, h8, h⟩
    · obtain ⟨h8, rfl⟩ := utf8_eq_err.1 h
      exact ⟨_, .name h2 h4 h8, rfl⟩
    obtain rfl := utf8_eq_ok.1 h8
    replace h := Outcome.bind_eq_err.1 h
    rcases h with h | ⟨⟨z, p4⟩, h9, h⟩
    · obtain ⟨rfl, rfl⟩ := nextPart_eq_err.1 h
      exact ⟨_, .noNonce h2 h4, rfl⟩
    obtain rfl := nextPart_eq_ok.1 h9
    dsimp only at h
    replace h := Outcome.bind_eq_err.1 h
    rcases h with h | ⟨nonce, h10, h⟩
    · obtain ⟨x, h10, rfl⟩ := expectAttr_eq_err.1 h
      exact ⟨_, .notNonce h2 h4 h10, rfl⟩
    rw [expectAttr_eq_ok rfl] at h10
    subst h10
    split at h
    · cases h
    next hn =>
    cases h
    have : ∃ b ∈ nonce, ¬ Printable b := by
      refine Classical.byContradiction fun hc => hn ?_
      rw [List.all_eq_true]
      intro b hb
      exact nonceByte_iff.2 (Classical.byContradiction fun hp => hc ⟨b, hb, hp⟩)
    obtain ⟨b, hb, hp⟩ := this
    exact ⟨_, .nonce h2 h4 hb hp, rfl⟩
  · rintro ⟨ps, f, h1, h2, rfl⟩
    rw [fields_iff] at h1
    unfold ClientFirst.parse
    rw [h1]
    cases h2 with
    | flag g1 g2 g3 =>
      show (CbFlag.parse _ >>= _) = _
      rw [cbFlag_eq_err.2 (.inl ⟨g1, g2, g3, rfl⟩)]
      rfl
    | cbName g1 g2 =>
      show (CbFlag.parse _ >>= _) = _
      rw [cbFlag_eq_err.2 (.inr ⟨_, _, _, rfl, g1, g2, rfl⟩)]
      rfl
    | header h =>
      show (CbFlag.parse _ >>= _) = _
      rw [gs2Flag_iff.1 h]
      rfl
    | authzid h hv =>
      show (CbFlag.parse _ >>= _) = _
      rw [gs2Flag_iff.1 h]
      show (parseAuthzid _ >>= _) = _
      rw [parseAuthzid_eq_err.2 ⟨_, _, _, rfl, hv, rfl⟩]
      rfl
    | noName h ha =>
      show (CbFlag.parse _ >>= _) = _
      rw [gs2Flag_iff.1 h]
      show (parseAuthzid _ >>= _) = _
      rw [parseAuthzid_eq_ok.2 (authzidPart_iff.2 ha)]
      rfl
    | mandatory h ha =>
      show (CbFlag.parse _ >>= _) = _
      rw [gs2Flag_iff.1 h]
      show (parseAuthzid _ >>= _) = _
      rw [parseAuthzid_eq_ok.2 (authzidPart_iff.2 ha)]
      rfl
    | notName h ha hf =>
      show (CbFlag.parse _ >>= _) = _
      rw [gs2Flag_iff.1 h]
      show (parseAuthzid _ >>= _) = _
      rw [parseAuthzid_eq_ok.2 (authzidPart_iff.2 ha)]
      obtain ⟨hf, hm⟩ := other_two.1 hf
      obtain ⟨y, v, rfl, hk⟩ := id hf
      show (if [_, y] = b!"m=" then _ else _) = _
      rw [if_neg (fun hk' => by
        rcases hm v with hm | hm
        · exact hm (by rw [← hk']; rfl)
        · exact hm rfl)]
      rw [expectAttr_eq_err.2 ⟨_, hf, rfl⟩]
      rfl
    | @name flag p authzid az v ps h ha hv =>
      show (CbFlag.parse _ >>= _) = _
      rw [gs2Flag_iff.1 h]
      show (parseAuthzid _ >>= _) = _
      rw [parseAuthzid_eq_ok.2 (authzidPart_iff.2 ha)]
      show (utf8 v >>= _) = _
      rw [utf8_eq_err.2 ⟨hv, rfl⟩]
      rfl
    | @noNonce flag p authzid az user h ha =>
      show (CbFlag.parse _ >>= _) = _
      rw [gs2Flag_iff.1 h]
      show (parseAuthzid _ >>= _) = _
      rw [parseAuthzid_eq_ok.2 (authzidPart_iff.2 ha)]
      show (utf8 (Str.bytes user) >>= _) = _
      rw [utf8_eq_ok.2 rfl]
      rfl
    | @notNonce flag p authzid az user x f ps h ha hf =>
      show (CbFlag.parse _ >>= _) = _
      rw [gs2Flag_iff.1 h]
      show (parseAuthzid _ >>= _) = _
      rw [parseAuthzid_eq_ok.2 (authzidPart_iff.2 ha)]
      show (utf8 (Str.bytes user) >>= _) = _
      rw [utf8_eq_ok.2 rfl]
      show (expectAttr _ _ >>= _) = _
      rw [expectAttr_eq_err.2 ⟨_, hf, rfl⟩]
      rfl
    | @nonce flag p authzid az user v ps b h ha hb hp =>
      show (CbFlag.parse _ >>= _) = _
      rw [gs2Flag_iff.1 h]
      show (parseAuthzid _ >>= _) = _
      rw [parseAuthzid_eq_ok.2 (authzidPart_iff.2 ha)]
      show (utf8 (Str.bytes user) >>= _) = _
      rw [utf8_eq_ok.2 rfl]
      show (if v.all nonceByte then _ else _) = _
      rw [if_neg]
      · rfl
      · intro hall
        exact hp (nonceByte_iff.1 (List.all_eq_true.1 hall b hb))

/-- C77: the client refuses a server-first message with the error of its first fault. -/
theorem C77_server_first (input : Bytes) (e : SessionError) :
    ServerFirst.parse input = .err e ↔
      ∃ ps f, Fields input ps ∧ ServerFirstWrong ps f ∧ e = .mechanismError (.scramParse f) := by
  constructor
  · intro h
    refine ⟨splitOn 44 input, ?_⟩
    suffices hs : ∃ f, ServerFirstWrong (splitOn 44 input) f ∧ e = perr f by
      obtain ⟨f, h1, h2⟩ := hs
      exact ⟨f, fields_iff.2 rfl, h1, h2⟩
    unfold ServerFirst.parse at h
    replace h := Outcome.bind_eq_err.1 h
    rcases h with h | ⟨⟨p, p1⟩, h1, h⟩
    · exact absurd (nextPart_eq_err.1 h).1 (splitOn_ne_nil _ _)
    rw [nextPart_eq_ok.1 h1]
    dsimp only at h
    split at h
    · next hl =>
      cases h
      exact ⟨_, .short hl, rfl⟩
    replace h := Outcome.bind_eq_err.1 h
    rcases h with h | ⟨⟨k, v⟩, h6, h⟩
    · exact absurd h attr_eq_err
    obtain ⟨hk2, rfl⟩ := attr_eq_ok.1 h6
    dsimp only at h
    split at h
    · next hk =>
      cases h
      subst hk
      exact ⟨_, .mandatory, rfl⟩
    next hk =>
    replace h := Outcome.bind_eq_err.1 h
    rcases h with h | ⟨u, h7, h⟩
    · obtain ⟨x, h7, rfl⟩ := expectAttr_eq_err.1 h
      refine ⟨_, .notNonce (other_two.2 ⟨h7, fun w => .inl fun hw => hk ?_⟩), rfl⟩
      exact (List.append_inj hw (by rw [hk2]; rfl)).1
    rw [expectAttr_eq_ok rfl] at h7
    rw [h7]
    replace h := Outcome.bind_eq_err.1 h
    rcases h with h | ⟨⟨z, p2⟩, h8, h⟩
    · obtain ⟨rfl, rfl⟩ := nextPart_eq_err.1 h
      exact ⟨_, .noSalt, rfl⟩
    obtain rfl := nextPart_eq_ok.1 h8
    dsimp only at h
    replace h := Outcome.bind_eq_err.1 h
    rcases h with h | ⟨s, h9, h⟩
    · obtain ⟨x, h9, rfl⟩ := expectAttr_eq_err.1 h
      exact ⟨_, .notSalt h9, rfl⟩
    rw [expectAttr_eq_ok rfl] at h9
    subst h9
    replace h := Outcome.bind_eq_err.1 h
    rcases h with h | ⟨⟨z, p3⟩, h10, h⟩
    · obtain ⟨rfl, rfl⟩ := nextPart_eq_err.1 h
      exact ⟨_, .noCount, rfl⟩
    obtain rfl := nextPart_eq_ok.1 h10
    dsimp only at h
    replace h := Outcome.bind_eq_err.1 h
    rcases h with h | ⟨i, h11, h⟩
    · obtain ⟨x, h11, rfl⟩ := expectAttr_eq_err.1 h
      exact ⟨_, .notCount h11, rfl⟩
    rw [expectAttr_eq_ok rfl] at h11
    subst h11
    cases p3 with
    | nil => cases h
    | cons q qs =>
      obtain ⟨x, v, rfl, rfl⟩ := firstByte_err.1 h
      exact ⟨_, .more, rfl⟩
  · rintro ⟨ps, f, h1, h2, rfl⟩
    rw [fields_iff] at h1
    unfold ServerFirst.parse
    rw [h1]
    cases h2 with
    | @short p ps h =>
      show (if p.length < 2 then _ else _) = _
      rw [if_pos h]
      rfl
    | mandatory => rfl
    | notNonce hf =>
      obtain ⟨hf, hm⟩ := other_two.1 hf
      obtain ⟨y, v, rfl, hk⟩ := id hf
      show (if [_, y] = b!"m=" then _ else _) = _
      rw [if_neg (fun hk' => by
        rcases hm v with hm | hm
        · exact hm (by rw [← hk']; rfl)
        · exact hm rfl)]
      rw [expectAttr_eq_err.2 ⟨_, hf, rfl⟩]
      rfl
    | noSalt => rfl
    | notSalt hf =>
      show (expectAttr _ _ >>= _) = _
      rw [expectAttr_eq_err.2 ⟨_, hf, rfl⟩]
      rfl
    | noCount => rfl
    | notCount hf =>
      show (expectAttr _ _ >>= _) = _
      rw [expectAttr_eq_err.2 ⟨_, hf, rfl⟩]
      rfl
    | more => rfl

theorem findProof_exts {exts qs : List Bytes}
    (he : ∀ e ∈ exts, ∃ x, OtherField [b!"p=", b!"m="] x e) :
    findProof (exts ++ qs) = findProof qs := by
  induction exts with
  | nil => rfl
  | cons e es ih =>
    obtain ⟨x, y, v, rfl, hk⟩ := he e (by simp)
    simp only [List.mem_cons, List.not_mem_nil, or_false, not_or] at hk
    show (if [x, y] = b!"p=" then _ else if [x, y] = b!"m=" then _ else findProof (es ++ qs)) = _
    rw [if_neg hk.1, if_neg hk.2]
    exact ih fun e h => he e (by simp [h])

theorem findProof_eq_err {ps : List Bytes} {e : SessionError} (h : findProof ps = .err e) :
    ∃ exts qs, ps = exts ++ qs ∧ (∀ e ∈ exts, ∃ x, OtherField [b!"p=", b!"m="] x e) ∧
      ((qs = [] ∧ e = perr .missingAttributes) ∨
        ∃ v rest, qs = (b!"m=" ++ v) :: rest ∧ e = perr .unknownMandatoryExtensions) := by
  induction ps with
  | nil =>
    cases h
    exact ⟨[], [], rfl, by simp, .inl ⟨rfl, rfl⟩⟩
  | cons p ps ih =>
    unfold findProof at h
    replace h := Outcome.bind_eq_err.1 h
    rcases h with h | ⟨⟨k, v⟩, h1, h⟩
    · exact absurd h attr_eq_err
    obtain ⟨hk2, rfl⟩ := attr_eq_ok.1 h1
    dsimp only at h
    split at h
    · cases h
    next hp =>
    split at h
    · next hm =>
      cases h
      exact ⟨[], _, rfl, by simp, .inr ⟨v, ps, by rw [hm], rfl⟩⟩
    next hm =>
    obtain ⟨exts, qs, rfl, h2, h3⟩ := ih h
    refine ⟨(k ++ v) :: exts, qs, rfl, ?_, h3⟩
    intro e he
    rcases List.mem_cons.1 he with rfl | he
    · match k, hk2 with
      | [x, y], _ => exact ⟨x, y, v, rfl, by simp [hp, hm]⟩
    · exact h2 e he

theorem findProof_ok_exts {ps rest : List Bytes} {proof : Bytes} (h : findProof ps = .ok (proof, rest)) :
    ∃ exts, ps = exts ++ (b!"p=" ++ proof) :: rest ∧
      ∀ e ∈ exts, ∃ x, OtherField [b!"p=", b!"m="] x e := by
  obtain ⟨exts, h1, h2⟩ := findProof_eq_ok.1 h
  refine ⟨exts, h1, fun e he => ?_⟩
  obtain ⟨k, v, hk, rfl, hp, hm⟩ := h2 e he
  match k, hk with
  | [x, y], _ => exact ⟨x, y, v, rfl, by simp [hp, hm]⟩

/-- C77: the server refuses a client-final message with the error of its first fault. -/
theorem C77_client_final (input : Bytes) (e : SessionError) :
    ClientFinal.parse input = .err e ↔
      ∃ ps f, Fields input ps ∧ ClientFinalWrong ps f ∧ e = .mechanismError (.scramParse f) := by
  constructor
  · intro h
    refine ⟨splitOn 44 input, ?_⟩
    suffices hs : ∃ f, ClientFinalWrong (splitOn 44 input) f ∧ e = perr f by
      obtain ⟨f, h1, h2⟩ := hs
      exact ⟨f, fields_iff.2 rfl, h1, h2⟩
    unfold ClientFinal.parse at h
    replace h := Outcome.bind_eq_err.1 h
    rcases h with h | ⟨⟨p, p1⟩, h1, h⟩
    · exact absurd (nextPart_eq_err.1 h).1 (splitOn_ne_nil _ _)
    rw [nextPart_eq_ok.1 h1]
    dsimp only at h
    replace h := Outcome.bind_eq_err.1 h
    rcases h with h | ⟨u, h7, h⟩
    · obtain ⟨x, h7, rfl⟩ := expectAttr_eq_err.1 h
      exact ⟨_, .notBinding h7, rfl⟩
    rw [expectAttr_eq_ok rfl] at h7
    rw [h7]
    replace h := Outcome.bind_eq_err.1 h
    rcases h with h | ⟨⟨z, p2⟩, h8, h⟩
    · obtain ⟨rfl, rfl⟩ := nextPart_eq_err.1 h
      exact ⟨_, .noNonce, rfl⟩
    obtain rfl := nextPart_eq_ok.1 h8
    dsimp only at h
    replace h := Outcome.bind_eq_err.1 h
    rcases h with h | ⟨s, h9, h⟩
    · obtain ⟨x, h9, rfl⟩ := expectAttr_eq_err.1 h
      exact ⟨_, .notNonce h9, rfl⟩
    rw [expectAttr_eq_ok rfl] at h9
    subst h9
    replace h := Outcome.bind_eq_err.1 h
    rcases h with h | ⟨⟨proof, p3⟩, h10, h⟩
    · obtain ⟨exts, qs, rfl, he, (⟨rfl, rfl⟩ | ⟨v, rest, rfl, rfl⟩)⟩ := findProof_eq_err h
      · rw [List.append_nil]
        exact ⟨_, .noProof he, rfl⟩
      · exact ⟨_, .mandatory he, rfl⟩
    obtain ⟨exts, rfl, he⟩ := findProof_ok_exts h10
    cases p3 with
    | nil => cases h
    | cons q qs =>
      obtain ⟨x, v, rfl, rfl⟩ := firstByte_err.1 h
      exact ⟨_, .more he, rfl⟩
  · rintro ⟨ps, f, h1, h2, rfl⟩
    rw [fields_iff] at h1
    unfold ClientFinal.parse
    rw [h1]
    cases h2 with
    | notBinding hf =>
      show (expectAttr _ _ >>= _) = _
      rw [expectAttr_eq_err.2 ⟨_, hf, rfl⟩]
      rfl
    | noNonce => rfl
    | notNonce hf =>
      show (expectAttr _ _ >>= _) = _
      rw [expectAttr_eq_err.2 ⟨_, hf, rfl⟩]
      rfl
    | @noProof c n exts he =>
      show (findProof exts >>= _) = _
      rw [← List.append_nil exts, findProof_exts he]
      rfl
    | mandatory he =>
      show (findProof _ >>= _) = _
      rw [findProof_exts he]
      rfl
    | more he =>
      show (findProof _ >>= _) = _
      rw [findProof_exts he]
      rfl

/-- C77: the client refuses as malformed exactly the server-final messages that start with neither
`v=` nor `e=`. -/
theorem C77_server_final (input : Bytes) (e : SessionError) :
    ServerFinal.parse input = .err e ↔
      ∃ x, OtherField [b!"v=", b!"e="] x input ∧ e = .mechanismError (.scramParse (.invalidAttribute x)) := by
  match input with
  | [] => exact ⟨nofun, fun ⟨_, ⟨_, _, h, _⟩, _⟩ => nomatch h⟩
  | [_] => exact ⟨nofun, fun ⟨_, ⟨_, _, h, _⟩, _⟩ => nomatch h⟩
  | x :: y :: v =>
    show (if [x, y] = b!"v=" then _ else if [x, y] = b!"e=" then _ else _) = _ ↔ _
    constructor
    · intro h
      split at h
      · cases h
      split at h
      · cases h
      next h1 h2 =>
      cases h
      exact ⟨x, ⟨y, v, rfl, by simp [h1, h2]⟩, rfl⟩
    · rintro ⟨_, ⟨_, _, h, hk⟩, rfl⟩
      cases h
      simp only [List.mem_cons, List.not_mem_nil, or_false, not_or] at hk
      rw [if_neg hk.1, if_neg hk.2]
      rfl

/-- The names of the errors are told apart as the RFC has them. -/
theorem means_iff {text : Bytes} {e : ServerErrorValue} : Means text e ↔ parseErrorValue text = e := by
  have key : ∀ x ∈ errorNames, parseErrorValue x.1 = x.2 := by decide +kernel
  have rev : parseErrorValue text = .otherError ∨ (text, parseErrorValue text) ∈ errorNames := by
    unfold parseErrorValue
    repeat' split
    all_goals first
      | exact .inl rfl
      | (rename_i h; subst h; exact .inr (by decide +kernel))
  have no : ∀ x ∈ errorNames, x.2 ≠ .otherError := by decide +kernel
  constructor
  · intro h
    cases h with
    | named h => exact key _ h
    | other h =>
      rcases rev with hr | hr
      · exact hr
      · exact absurd hr (h _)
  · rintro rfl
    rcases rev with hr | hr
    · rw [hr]
      refine .other fun e he => ?_
      have := key _ he
      rw [hr] at this
      exact no _ he this.symm
    · exact .named hr

/-- C77: a message with a fault ends the session of who receives it, with the fault's error; nothing
is written and nobody is asked. An error of the server becomes the error the RFC has for its name. -/
theorem C77_steps (d : Digest) (env : Env) (w : World) (input : Bytes) (ps : List Bytes)
    (hp : Fields input ps) :
    (∀ canCb f, ClientFirstWrong ps f →
      (server d).step env (some input) (some (.waitingClientFirst canCb)) w =
        (.err (.mechanismError (.scramParse f)), none, w)) ∧
    (∀ data f, ClientFinalWrong ps f →
      (server d).step env (some input) (some (.waitingClientFinal data)) w =
        (.err (.mechanismError (.scramParse f)), none, w)) ∧
    (∀ cb nonce user f, ServerFirstWrong ps f →
      (client d).step env (some input) (some (.clientFirst cb nonce user)) w =
        (.err (.mechanismError (.scramParse f)), none, w)) ∧
    (∀ v ck sk salt it x, OtherField [b!"v=", b!"e="] x input →
      (client d).step env (some input) (some (.serverFirst v ck sk salt it)) w =
        (.err (.mechanismError (.scramParse (.invalidAttribute x))), none, w)) ∧
    (∀ v ck sk salt it text e, input = b!"e=" ++ text → Means text e →
      (client d).step env (some input) (some (.serverFirst v ck sk salt it)) w =
        (.err (.mechanismError (.scramServer e)), none, w)) := by
  refine ⟨fun canCb f h => ?_, fun data f h => ?_, fun cb nonce user f h => ?_,
    fun v ck sk salt it x h => ?_, fun v ck sk salt it text e h hm => ?_⟩
  · show M.bind (M.liftOutcome (ClientFirst.parse _)) _ _ _ = _
    rw [(C77_client_first _ _).2 ⟨ps, f, hp, h, rfl⟩]
    rfl
  · show M.bind (M.bind (M.liftOutcome (ClientFinal.parse _)) _) _ _ _ = _
    rw [(C77_client_final _ _).2 ⟨ps, f, hp, h, rfl⟩]
    rfl
  · have h' : checkServerFirst nonce input = .err (perr f) := by
      unfold checkServerFirst
      rw [(C77_server_first _ _).2 ⟨ps, f, hp, h, rfl⟩]
      rfl
    show M.bind (M.bind (M.liftOutcome (checkServerFirst _ _)) _) _ _ _ = _
    rw [h']
    rfl
  · show M.bind (M.bind (M.liftOutcome (ServerFinal.parse _)) _) _ _ _ = _
    rw [(C77_server_final _ _).2 ⟨x, h, rfl⟩]
    rfl
  · show M.bind (M.bind (M.liftOutcome (ServerFinal.parse _)) _) _ _ _ = _
    rw [(C53_server_final_partial _ _).2 (.inr ⟨text, rfl, h⟩), means_iff.1 hm]
    rfl

/-- C77: the faults exclude each other. -/
theorem C77_unique (ps : List Bytes) (hp : ∃ input, Fields input ps) :
    (∀ f g, ClientFirstWrong ps f → ClientFirstWrong ps g → f = g) ∧
    (∀ f g, ServerFirstWrong ps f → ServerFirstWrong ps g → f = g) ∧
    (∀ f g, ClientFinalWrong ps f → ClientFinalWrong ps g → f = g) := by
  obtain ⟨input, hp⟩ := hp
  refine ⟨fun f g h1 h2 => ?_, fun f g h1 h2 => ?_, fun f g h1 h2 => ?_⟩
  · have := ((C77_client_first _ _).2 ⟨ps, f, hp, h1, rfl⟩).symm.trans
      ((C77_client_first _ _).2 ⟨ps, g, hp, h2, rfl⟩)
    injection this with this
    injection this with this
    injection this
  · have := ((C77_server_first _ _).2 ⟨ps, f, hp, h1, rfl⟩).symm.trans
      ((C77_server_first _ _).2 ⟨ps, g, hp, h2, rfl⟩)
    injection this with this
    injection this with this
    injection this
  · have := ((C77_client_final _ _).2 ⟨ps, f, hp, h1, rfl⟩).symm.trans
      ((C77_client_final _ _).2 ⟨ps, g, hp, h2, rfl⟩)
    injection this with this
    injection this with this
    injection this

example : Fields (b!"p=tls unique,,n=a,r=b") [b!"p=tls unique", [], b!"n=a", b!"r=b"] ∧
    ClientFirstWrong [b!"p=tls unique", [], b!"n=a", b!"r=b"] (.badCBName 32) := by
  refine ⟨fields_iff.2 (by decide +kernel), .cbName (good := b!"tls") (rest := b!"unique") ?_ ?_⟩
  · simp only [← cbNameByte_iff]; decide
  · rw [← cbNameByte_iff]; decide

example : Fields (b!"r=ab,i=4096,s=AAAA") [b!"r=ab", b!"i=4096", b!"s=AAAA"] ∧
    ServerFirstWrong [b!"r=ab", b!"i=4096", b!"s=AAAA"] (.invalidAttribute 105) :=
  ⟨fields_iff.2 (by decide +kernel), .notSalt (n := b!"ab") ⟨61, b!"4096", rfl, by decide⟩⟩

example : Fields (b!"c=biws,r=ab,x=y") [b!"c=biws", b!"r=ab", b!"x=y"] ∧
    ClientFinalWrong [b!"c=biws", b!"r=ab", b!"x=y"] .missingAttributes :=
  ⟨fields_iff.2 (by decide +kernel), .noProof (c := b!"biws") (n := b!"ab") (by
    intro e he
    rw [List.mem_singleton.1 he]
    exact ⟨120, 61, b!"y", rfl, by decide⟩)⟩

example : OtherField [b!"v=", b!"e="] 86 (b!"V=AAAA") := ⟨61, b!"AAAA", rfl, by decide⟩

example : Means (b!"unknown-user") .unknownUser := .named (by decide)

end Scram

end Rsasl

/-
What the SCRAM parsers accept, and what they give for it.
-/
import Verif.Model.Mech.ScramServer
import Verif.Proofs.Bytes

namespace Rsasl

theorem Outcome.bind_eq_ok {α β : Type} {x : Outcome α} {f : α → Outcome β} {b : β} :
    (x >>= f) = .ok b ↔ ∃ a, x = .ok a ∧ f a = .ok b := by
  cases x with
  | ok a => exact ⟨fun h => ⟨a, rfl, h⟩, fun ⟨_, h1, h2⟩ => by cases h1; exact h2⟩
  | err e => exact ⟨fun h => (nomatch h), fun ⟨_, h1, _⟩ => (nomatch h1)⟩
  | panic => exact ⟨fun h => (nomatch h), fun ⟨_, h1, _⟩ => (nomatch h1)⟩

theorem splitOn_intercalate {sep : UInt8} {ps : List Bytes} (hne : ps ≠ [])
    (h : ∀ p ∈ ps, sep ∉ p) : splitOn sep ([sep].intercalate ps) = ps := by
  induction ps with
  | nil => exact absurd rfl hne
  | cons p ps ih =>
    cases ps with
    | nil => simpa [List.intercalate] using splitOn_of_notMem (h p (by simp))
    | cons q ps =>
      have : [sep].intercalate (p :: q :: ps) = p ++ sep :: [sep].intercalate (q :: ps) := by
        simp [List.intercalate, List.intersperse]
      rw [this, splitOn_append_sep (h p (by simp)), ih (by simp) (fun x hx => h x (by simp [hx]))]

/-- Splitting gives `ps` exactly for the `sep`-free pieces `ps` joined by `sep`. -/
theorem splitOn_eq_iff {sep : UInt8} {b : Bytes} {ps : List Bytes} :
    splitOn sep b = ps ↔ ps ≠ [] ∧ (∀ p ∈ ps, sep ∉ p) ∧ b = [sep].intercalate ps := by
  constructor
  · rintro rfl
    exact ⟨splitOn_ne_nil _ _, fun p hp => notMem_of_mem_splitOn hp, (intercalate_splitOn _ _).symm⟩
  · rintro ⟨h1, h2, rfl⟩
    exact splitOn_intercalate h1 h2

namespace Scram

theorem attr_eq_ok {x k v : Bytes} : attr x = .ok (k, v) ↔ k.length = 2 ∧ x = k ++ v := by
  match x with
  | [] =>
    simp only [attr, reduceCtorEq, false_iff, not_and]
    intro h1 h2
    have := congrArg List.length h2
    simp [h1] at this
    omega
  | [a] =>
    simp only [attr, reduceCtorEq, false_iff, not_and]
    intro h1 h2
    have := congrArg List.length h2
    simp [h1] at this
    omega
  | a :: b :: rest =>
    simp only [attr, Outcome.ok.injEq, Prod.mk.injEq]
    constructor
    · rintro ⟨rfl, rfl⟩; simp
    · rintro ⟨h1, h2⟩
      match k, h1 with
      | [x, y], _ => simpa [and_assoc] using h2

theorem firstByte_ne_ok_err {x : Bytes} {α : Type} {g : UInt8 → SParseError} {a : α} :
    (firstByte x >>= fun b => (.err (perr (g b)) : Outcome α)) ≠ .ok a := by
  cases x <;> exact nofun

theorem expectAttr_eq_ok {key x v : Bytes} (hk : key.length = 2) :
    expectAttr key x = .ok v ↔ x = key ++ v := by
  unfold expectAttr
  rw [Outcome.bind_eq_ok]
  constructor
  · rintro ⟨⟨k, u⟩, h1, h2⟩
    rw [attr_eq_ok] at h1
    dsimp only at h2
    split at h2
    · next hkk => cases h2; rw [← hkk]; exact h1.2
    · exact absurd h2 firstByte_ne_ok_err
  · rintro rfl
    exact ⟨(key, v), attr_eq_ok.2 ⟨hk, rfl⟩, by simp⟩

theorem nextPart_eq_ok {e : SParseError} {l ps : List Bytes} {p : Bytes} :
    nextPart e l = .ok (p, ps) ↔ l = p :: ps := by
  cases l <;> simp [nextPart]

theorem utf8_eq_ok {b : Bytes} {s : Str} : utf8 b = .ok s ↔ b = Str.bytes s := by
  unfold utf8
  cases h : fromUtf8 b with
  | none =>
    simp only [orErr, reduceCtorEq, false_iff]
    rintro rfl
    rw [fromUtf8_bytes] at h
    cases h
  | some t =>
    rw [fromUtf8_eq_some_iff] at h
    simp only [orErr, Outcome.ok.injEq]
    subst h
    exact ⟨fun h => by rw [h], fun h => Str.bytes_injective h⟩

/-! ## The server's messages -/

theorem ServerFirst.parse_eq_ok {input : Bytes} {m : ServerFirst} :
    ServerFirst.parse input = .ok m ↔
      m.serverNonce = none ∧ 44 ∉ m.nonce ∧ 44 ∉ m.salt ∧ 44 ∉ m.iterationCount ∧
      input = b!"r=" ++ m.nonce ++ b!",s=" ++ m.salt ++ b!",i=" ++ m.iterationCount := by
  unfold ServerFirst.parse
  constructor
  · intro h
    obtain ⟨⟨n1, p1⟩, h1, h⟩ := Outcome.bind_eq_ok.1 h
    rw [nextPart_eq_ok] at h1
    dsimp only at h
    split at h
    · cases h
    · obtain ⟨⟨k, _⟩, hk, h⟩ := Outcome.bind_eq_ok.1 h
      dsimp only at h
      split at h
      · cases h
      · obtain ⟨nonce, hn, h⟩ := Outcome.bind_eq_ok.1 h
        obtain ⟨⟨n2, p2⟩, h2, h⟩ := Outcome.bind_eq_ok.1 h
        obtain ⟨salt, hs, h⟩ := Outcome.bind_eq_ok.1 h
        obtain ⟨⟨n3, p3⟩, h3, h⟩ := Outcome.bind_eq_ok.1 h
        obtain ⟨it, hi, h⟩ := Outcome.bind_eq_ok.1 h
        rw [nextPart_eq_ok] at h2 h3
        rw [expectAttr_eq_ok rfl] at hn hs hi
        dsimp only at h2 h3 hs hi h
        cases p3 with
        | cons q qs => exact absurd h firstByte_ne_ok_err
        | nil =>
          cases h
          subst h3 h2 hn hs hi
          rw [splitOn_eq_iff] at h1
          obtain ⟨-, h4, h5⟩ := h1
          have a1 := h4 _ (List.mem_cons_self ..)
          have a2 := h4 _ (List.mem_cons_of_mem _ (List.mem_cons_self ..))
          have a3 := h4 _ (List.mem_cons_of_mem _ (List.mem_cons_of_mem _ (List.mem_cons_self ..)))
          simp only [List.mem_append, not_or] at a1 a2 a3
          refine ⟨rfl, a1.2, a2.2, a3.2, ?_⟩
          rw [h5]
          simp [List.intercalate, List.intersperse]
  · rintro ⟨h1, h2, h3, h4, rfl⟩
    obtain ⟨nonce, sn, salt, it⟩ := m
    dsimp only at *
    subst h1
    have hsplit : splitOn 44 (b!"r=" ++ nonce ++ b!",s=" ++ salt ++ b!",i=" ++ it) =
        [b!"r=" ++ nonce, b!"s=" ++ salt, b!"i=" ++ it] := by
      rw [splitOn_eq_iff]
      refine ⟨by simp, ?_, by simp [List.intercalate, List.intersperse]⟩
      intro p hp
      simp only [List.mem_cons, List.not_mem_nil, or_false] at hp
      rcases hp with rfl | rfl | rfl <;>
        simp only [List.mem_append, not_or] <;> exact ⟨by decide, by assumption⟩
    rw [hsplit]
    rfl

theorem ServerFinal.parse_eq_ok {input : Bytes} {m : ServerFinal} :
    ServerFinal.parse input = .ok m ↔
      (∃ v, m = .verifier v ∧ input = b!"v=" ++ v) ∨
      (∃ v, m = .error (parseErrorValue v) ∧ input = b!"e=" ++ v) := by
  unfold ServerFinal.parse
  rw [Outcome.bind_eq_ok]
  constructor
  · rintro ⟨⟨k, v⟩, h1, h2⟩
    rw [attr_eq_ok] at h1
    dsimp only at h2
    split at h2
    · next hk => cases h2; exact .inl ⟨v, rfl, hk ▸ h1.2⟩
    · split at h2
      · next hk => cases h2; exact .inr ⟨v, rfl, hk ▸ h1.2⟩
      · exact absurd h2 firstByte_ne_ok_err
  · rintro (⟨v, rfl, rfl⟩ | ⟨v, rfl, rfl⟩)
    · exact ⟨(b!"v=", v), attr_eq_ok.2 ⟨rfl, rfl⟩, rfl⟩
    · exact ⟨(b!"e=", v), attr_eq_ok.2 ⟨rfl, rfl⟩, rfl⟩

/-! ## The client's messages -/

/-- Extension attributes as they stand in a message, each with its leading comma. -/
def extBytes (exts : List Bytes) : Bytes := exts.flatMap (fun e => 44 :: e)

theorem intercalate_exts (p : Bytes) (exts : List Bytes) :
    [44].intercalate (p :: exts) = p ++ extBytes exts := by
  induction exts generalizing p with
  | nil => simp [List.intercalate, extBytes]
  | cons e es ih =>
    have : ([44] : Bytes).intercalate (p :: e :: es) = p ++ 44 :: [44].intercalate (e :: es) := by
      simp [List.intercalate, List.intersperse]
    rw [this, ih]
    simp [extBytes]

/-- An attribute that may stand between nonce and proof. -/
def ExtAttr (e : Bytes) : Prop :=
  44 ∉ e ∧ ∃ k v : Bytes, k.length = 2 ∧ e = k ++ v ∧ k ≠ b!"p=" ∧ k ≠ b!"m="

theorem findProof_eq_ok {ps rest : List Bytes} {proof : Bytes} :
    findProof ps = .ok (proof, rest) ↔
      ∃ exts, ps = exts ++ (b!"p=" ++ proof) :: rest ∧
        ∀ e ∈ exts, ∃ k v : Bytes, k.length = 2 ∧ e = k ++ v ∧ k ≠ b!"p=" ∧ k ≠ b!"m=" := by
  induction ps with
  | nil => simp [findProof]
  | cons p ps ih =>
    unfold findProof
    rw [Outcome.bind_eq_ok]
    constructor
    · rintro ⟨⟨k, v⟩, h1, h2⟩
      rw [attr_eq_ok] at h1
      dsimp only at h2
      split at h2
      · next hk => cases h2; exact ⟨[], by rw [h1.2, hk]; rfl, nofun⟩
      · next hk =>
        split at h2
        · cases h2
        · next hm =>
          obtain ⟨exts, h3, h4⟩ := ih.1 h2
          refine ⟨p :: exts, by rw [h3]; rfl, ?_⟩
          intro e he
          rcases List.mem_cons.1 he with rfl | he
          · exact ⟨k, v, h1.1, h1.2, hk, hm⟩
          · exact h4 e he
    · rintro ⟨exts, h1, h2⟩
      cases exts with
      | nil =>
        cases h1
        exact ⟨(b!"p=", proof), attr_eq_ok.2 ⟨rfl, rfl⟩, by simp⟩
      | cons e exts =>
        rw [List.cons_append] at h1
        cases h1
        obtain ⟨k, v, h3, h4, h5, h6⟩ := h2 p (by simp)
        refine ⟨(k, v), attr_eq_ok.2 ⟨h3, h4⟩, ?_⟩
        simp only [h5, h6, if_false]
        exact ih.2 ⟨exts, rfl, fun e he => h2 e (by simp [he])⟩

theorem ClientFinal.parse_eq_ok {input : Bytes} {m : ClientFinal} :
    ClientFinal.parse input = .ok m ↔
      44 ∉ m.channelBinding ∧ 44 ∉ m.nonce ∧ 44 ∉ m.proof ∧ ∃ exts, (∀ e ∈ exts, ExtAttr e) ∧
      input = b!"c=" ++ m.channelBinding ++ b!",r=" ++ m.nonce ++ extBytes exts ++ b!",p=" ++ m.proof := by
  unfold ClientFinal.parse
  constructor
  · intro h
    obtain ⟨⟨n1, p1⟩, h1, h⟩ := Outcome.bind_eq_ok.1 h
    obtain ⟨cb, hc, h⟩ := Outcome.bind_eq_ok.1 h
    obtain ⟨⟨n2, p2⟩, h2, h⟩ := Outcome.bind_eq_ok.1 h
    obtain ⟨nonce, hn, h⟩ := Outcome.bind_eq_ok.1 h
    obtain ⟨⟨proof, p3⟩, h3, h⟩ := Outcome.bind_eq_ok.1 h
    rw [nextPart_eq_ok] at h1 h2
    rw [expectAttr_eq_ok rfl] at hc hn
    rw [findProof_eq_ok] at h3
    dsimp only at *
    cases p3 with
    | cons q qs => exact absurd h firstByte_ne_ok_err
    | nil =>
      cases h
      obtain ⟨exts, h3, h4⟩ := h3
      subst hc hn h3 h2
      rw [splitOn_eq_iff] at h1
      obtain ⟨-, h5, h6⟩ := h1
      have a1 := h5 (b!"c=" ++ cb) (by simp)
      have a2 := h5 (b!"r=" ++ nonce) (by simp)
      have a3 := h5 (b!"p=" ++ proof) (by simp)
      simp only [List.mem_append, not_or] at a1 a2 a3
      refine ⟨a1.2, a2.2, a3.2, exts, fun e he => ⟨h5 e (by simp [he]), h4 e he⟩, ?_⟩
      rw [h6, intercalate_exts]
      simp [extBytes]
  · rintro ⟨h1, h2, h3, exts, h4, rfl⟩
    obtain ⟨cb, nonce, proof⟩ := m
    dsimp only at *
    have hsplit : splitOn 44 (b!"c=" ++ cb ++ b!",r=" ++ nonce ++ extBytes exts ++ b!",p=" ++ proof) =
        (b!"c=" ++ cb) :: (b!"r=" ++ nonce) :: (exts ++ [b!"p=" ++ proof]) := by
      rw [splitOn_eq_iff]
      refine ⟨by simp, ?_, ?_⟩
      · intro p hp
        simp only [List.mem_cons, List.mem_append, List.not_mem_nil, or_false] at hp
        rcases hp with rfl | rfl | hp | rfl
        · simp only [List.mem_append, not_or]; exact ⟨by decide, h1⟩
        · simp only [List.mem_append, not_or]; exact ⟨by decide, h2⟩
        · exact (h4 p hp).1
        · simp only [List.mem_append, not_or]; exact ⟨by decide, h3⟩
      · rw [intercalate_exts]
        simp [extBytes]
    rw [hsplit]
    refine Outcome.bind_eq_ok.2 ⟨_, nextPart_eq_ok.2 rfl, ?_⟩
    refine Outcome.bind_eq_ok.2 ⟨cb, (expectAttr_eq_ok rfl).2 rfl, ?_⟩
    refine Outcome.bind_eq_ok.2 ⟨_, nextPart_eq_ok.2 rfl, ?_⟩
    refine Outcome.bind_eq_ok.2 ⟨nonce, (expectAttr_eq_ok rfl).2 rfl, ?_⟩
    refine Outcome.bind_eq_ok.2 ⟨(proof, []),
      findProof_eq_ok.2 ⟨exts, rfl, fun e he => (h4 e he).2⟩, rfl⟩

/-- A channel binding flag with a name the grammar allows. -/
def CbFlag.Valid : CbFlag → Prop
  | .used name => name ≠ [] ∧ ∀ b ∈ name, cbNameByte b = true
  | _ => True

theorem CbFlag.parse_eq_ok {b : Bytes} {f : CbFlag} :
    CbFlag.parse b = .ok f ↔ f.Valid ∧ b = f.bytes := by
  constructor
  · intro h
    unfold CbFlag.parse at h
    split at h
    · cases h; exact ⟨trivial, rfl⟩
    · cases h; exact ⟨trivial, rfl⟩
    · next b rest =>
      split at h
      · next hf =>
        cases h
        refine ⟨⟨by simp, fun x hx => ?_⟩, rfl⟩
        have := List.find?_eq_none.1 hf x hx
        simpa using this
      · cases h
    · cases h
  · rintro ⟨hv, rfl⟩
    cases f with
    | supportedNotUsed => rfl
    | notSupported => rfl
    | used name =>
      cases name with
      | nil => exact absurd rfl hv.1
      | cons x rest =>
        have hf : (x :: rest).find? (fun b => !cbNameByte b) = none := by
          rw [List.find?_eq_none]
          intro y hy
          simp [hv.2 y hy]
        show (match (x :: rest).find? (fun b => !cbNameByte b) with
          | none => (.ok (.used (x :: rest)) : Outcome CbFlag)
          | some bad => .err (perr (.badCBName bad))) = _
        rw [hf]

theorem CbFlag.Valid.comma {f : CbFlag} (h : f.Valid) : 44 ∉ f.bytes := by
  cases f with
  | supportedNotUsed => decide
  | notSupported => decide
  | used name =>
    intro hm
    simp only [CbFlag.bytes, List.mem_append] at hm
    rcases hm with hm | hm
    · exact absurd hm (by decide)
    · exact absurd (h.2 _ hm) (by decide)

/-- How an authzid stands in the gs2 header, as far as the parser looks at it: two bytes and the
name. -/
def AuthzidPart (az : Bytes) : Option Str → Prop
  | none => az = []
  | some s => ∃ k : Bytes, k.length = 2 ∧ az = k ++ Str.bytes s

theorem parseAuthzid_eq_ok {az : Bytes} {a : Option Str} :
    parseAuthzid az = .ok a ↔ AuthzidPart az a := by
  unfold parseAuthzid
  cases az with
  | nil =>
    cases a with
    | none => simp [AuthzidPart]
    | some s =>
      simp only [List.isEmpty_nil, if_true, Outcome.ok.injEq, reduceCtorEq, AuthzidPart, false_iff]
      rintro ⟨k, h1, h2⟩
      have := congrArg List.length h2
      simp [h1] at this
      omega
  | cons x xs =>
    simp only [List.isEmpty_cons, Bool.false_eq_true, if_false]
    rw [Outcome.bind_eq_ok]
    constructor
    · rintro ⟨⟨k, v⟩, h1, h2⟩
      obtain ⟨s, h3, h4⟩ := Outcome.bind_eq_ok.1 h2
      cases h4
      rw [attr_eq_ok] at h1
      rw [utf8_eq_ok] at h3
      dsimp only at h3
      exact ⟨k, h1.1, by rw [h1.2, h3]⟩
    · intro h
      cases a with
      | none => exact nomatch h
      | some s =>
        obtain ⟨k, h1, h2⟩ := h
        exact ⟨(k, Str.bytes s), attr_eq_ok.2 ⟨h1, h2⟩,
          Outcome.bind_eq_ok.2 ⟨s, utf8_eq_ok.2 rfl, rfl⟩⟩

theorem ClientFirst.parse_eq_ok {input : Bytes} {m : ClientFirst} :
    ClientFirst.parse input = .ok m ↔
      m.cbflag.Valid ∧ (∀ b ∈ m.nonce, nonceByte b = true) ∧ 44 ∉ Str.bytes m.username ∧
      ∃ az exts, AuthzidPart az m.authzid ∧ 44 ∉ az ∧ (∀ e ∈ exts, 44 ∉ e) ∧
      input = m.cbflag.bytes ++ b!"," ++ az ++ b!",n=" ++ Str.bytes m.username ++ b!",r=" ++
        m.nonce ++ extBytes exts := by
  unfold ClientFirst.parse
  constructor
  · intro h
    obtain ⟨⟨n1, p1⟩, h1, h⟩ := Outcome.bind_eq_ok.1 h
    obtain ⟨flag, hf, h⟩ := Outcome.bind_eq_ok.1 h
    obtain ⟨⟨az, p2⟩, h2, h⟩ := Outcome.bind_eq_ok.1 h
    obtain ⟨a, ha, h⟩ := Outcome.bind_eq_ok.1 h
    obtain ⟨⟨n3, p3⟩, h3, h⟩ := Outcome.bind_eq_ok.1 h
    obtain ⟨⟨k, _⟩, hk, h⟩ := Outcome.bind_eq_ok.1 h
    dsimp only at h
    split at h
    · cases h
    · obtain ⟨user, hu, h⟩ := Outcome.bind_eq_ok.1 h
      obtain ⟨name, hn, h⟩ := Outcome.bind_eq_ok.1 h
      obtain ⟨⟨n4, p4⟩, h4, h⟩ := Outcome.bind_eq_ok.1 h
      obtain ⟨nonce, hr, h⟩ := Outcome.bind_eq_ok.1 h
      split at h
      · next hnb =>
        cases h
        rw [nextPart_eq_ok] at h1 h2 h3 h4
        rw [expectAttr_eq_ok rfl] at hu hr
        rw [CbFlag.parse_eq_ok] at hf
        rw [utf8_eq_ok] at hn
        rw [parseAuthzid_eq_ok] at ha
        dsimp only at *
        subst hn hu hr h4 h3 h2
        rw [hf.2, splitOn_eq_iff] at h1
        obtain ⟨-, h5, h6⟩ := h1
        have a1 := h5 (b!"n=" ++ Str.bytes name) (by simp)
        simp only [List.mem_append, not_or] at a1
        refine ⟨hf.1, List.all_eq_true.1 hnb, a1.2, az, p4, ha, h5 az (by simp),
          fun e he => h5 e (by simp [he]), ?_⟩
        rw [h6, intercalate_exts]
        simp [extBytes]
      · cases h
  · rintro ⟨hf, hn, hu, az, exts, ha, haz, hex, rfl⟩
    obtain ⟨flag, a, name, nonce⟩ := m
    dsimp only at *
    have hnc : 44 ∉ nonce := fun hm => absurd (hn _ hm) (by decide)
    have hsplit : splitOn 44 (flag.bytes ++ b!"," ++ az ++ b!",n=" ++ Str.bytes name ++ b!",r=" ++
        nonce ++ extBytes exts) =
        flag.bytes :: az :: (b!"n=" ++ Str.bytes name) :: (b!"r=" ++ nonce) :: exts := by
      rw [splitOn_eq_iff]
      refine ⟨by simp, ?_, ?_⟩
      · intro p hp
        simp only [List.mem_cons] at hp
        rcases hp with rfl | rfl | rfl | rfl | hp
        · exact hf.comma
        · exact haz
        · simp only [List.mem_append, not_or]; exact ⟨by decide, hu⟩
        · simp only [List.mem_append, not_or]; exact ⟨by decide, hnc⟩
        · exact hex p hp
      · rw [intercalate_exts]
        simp [extBytes]
    rw [hsplit]
    refine Outcome.bind_eq_ok.2 ⟨_, nextPart_eq_ok.2 rfl, ?_⟩
    refine Outcome.bind_eq_ok.2 ⟨flag, CbFlag.parse_eq_ok.2 ⟨hf, rfl⟩, ?_⟩
    refine Outcome.bind_eq_ok.2 ⟨_, nextPart_eq_ok.2 rfl, ?_⟩
    refine Outcome.bind_eq_ok.2 ⟨a, parseAuthzid_eq_ok.2 ha, ?_⟩
    refine Outcome.bind_eq_ok.2 ⟨_, nextPart_eq_ok.2 rfl, ?_⟩
    refine Outcome.bind_eq_ok.2 ⟨(b!"n=", Str.bytes name), attr_eq_ok.2 ⟨rfl, rfl⟩, ?_⟩
    dsimp only
    rw [if_neg (by decide)]
    refine Outcome.bind_eq_ok.2 ⟨Str.bytes name, (expectAttr_eq_ok rfl).2 rfl, ?_⟩
    refine Outcome.bind_eq_ok.2 ⟨name, utf8_eq_ok.2 rfl, ?_⟩
    refine Outcome.bind_eq_ok.2 ⟨_, nextPart_eq_ok.2 rfl, ?_⟩
    refine Outcome.bind_eq_ok.2 ⟨nonce, (expectAttr_eq_ok rfl).2 rfl, ?_⟩
    rw [if_pos (List.all_eq_true.2 hn)]

theorem parseU32_decimal (n : UInt32) : parseU32 (decimal n) = some n := by
  have hne : decimal n ≠ [] := Nat.toDigits_ne_nil
  have hdig : ∀ c ∈ decimal n, c.isDigit = true := fun c hc =>
    Nat.isDigit_of_mem_toDigits (by decide) (by decide) hc
  have hm : dropPlus (decimal n) = decimal n := by
    unfold dropPlus
    split
    · next ds heq => exact absurd (hdig '+' (by simp [heq])) (by decide)
    · rfl
  unfold parseU32
  simp only [hm]
  rw [if_neg (by simpa using hne), if_pos (List.all_eq_true.2 hdig)]
  have : Nat.ofDigitChars 10 (decimal n) 0 = n.toNat := Nat.ofDigitChars_ten_toDigits
  rw [this, if_pos (UInt32.toNat_lt n)]
  simp

theorem comma_notMem_decimal (n : UInt32) : 44 ∉ Str.bytes (decimal n) := by
  intro h
  rw [mem_bytes_ascii (by decide)] at h
  exact absurd (Nat.isDigit_of_mem_toDigits (by decide) (by decide) h) (by decide)

end Scram

end Rsasl

/-
C53, C54, C55: what the SCRAM parsers accept, refuse as mandatory extension, and panic on.
-/
import Verif.Spec.ScramGrammar
import Verif.Spec.Examples
import Verif.Proofs.ScramErrs
import Verif.Props.Basics
import Verif.Props.ScramMsgs

namespace Rsasl

open Scram

/-! ## From parts to text -/

theorem gs2Flag_iff {flag : CbFlag} {text : Bytes} :
    Spec.FlagText flag text ↔ CbFlag.parse text = .ok flag := by
  rw [CbFlag.parse_eq_ok]
  have key : ∀ name, (CbFlag.used name).Valid ↔ Spec.CbName name := by
    intro name
    unfold CbFlag.Valid Spec.CbName
    refine and_congr_right fun _ => forall_congr' fun b => imp_congr_right fun _ => ?_
    unfold cbNameByte
    simp only [Bool.or_eq_true, Bool.and_eq_true, beq_iff_eq, decide_eq_true_eq]
    constructor
    · rintro ((((h | h) | h) | h) | h)
      · exact .inr (.inr (.inr (.inl h)))
      · exact .inr (.inr (.inr (.inr h)))
      · exact .inr (.inr (.inl h))
      · exact .inl h
      · exact .inr (.inl h)
    · rintro (h | h | h | h | h)
      · exact .inl (.inr h)
      · exact .inr h
      · exact .inl (.inl (.inr h))
      · exact .inl (.inl (.inl (.inl h)))
      · exact .inl (.inl (.inl (.inr h)))
  constructor
  · intro h
    cases h with
    | used name h => exact ⟨(key name).2 h, rfl⟩
    | notSupported => exact ⟨trivial, rfl⟩
    | supportedNotUsed => exact ⟨trivial, rfl⟩
  · rintro ⟨h, rfl⟩
    cases flag with
    | used name => exact .used name ((key name).1 h)
    | notSupported => exact .notSupported
    | supportedNotUsed => exact .supportedNotUsed

theorem authzidPart_iff {az : Bytes} {a : Option Str} :
    AuthzidPart az a ↔ Spec.AnyAuthzid a az := by
  cases a with
  | none => exact Iff.rfl
  | some name =>
    constructor
    · rintro ⟨k, h1, h2⟩
      match k, h1 with
      | [x, y], _ => exact ⟨x, y, h2⟩
    · rintro ⟨x, y, h⟩
      exact ⟨[x, y], rfl, h⟩

theorem gs2Flag_comma {flag : CbFlag} {text : Bytes} (h : Spec.FlagText flag text) : 44 ∉ text := by
  rw [gs2Flag_iff, CbFlag.parse_eq_ok] at h
  rw [h.2]
  exact h.1.comma

/-- The beginning of a message as its first two parts. -/
theorem gs2Start_iff {input x : Bytes} {rest : List Bytes} {flag : CbFlag} {a : Option Str} :
    (∃ f az, splitOn 44 input = f :: az :: x :: rest ∧ CbFlag.parse f = .ok flag ∧
      parseAuthzid az = .ok a) ↔
    ∃ start r, Spec.Gs2Start flag a start ∧ input = start ++ r ∧ splitOn 44 r = x :: rest := by
  constructor
  · rintro ⟨f, az, h1, h2, h3⟩
    obtain ⟨h4, r, rfl, h5⟩ := splitOn_cons_iff.1 h1
    obtain ⟨h6, r', rfl, h7⟩ := splitOn_cons_iff.1 h5
    refine ⟨f ++ b!"," ++ az ++ b!",", r', ⟨f, az, gs2Flag_iff.2 h2, h6, ?_, rfl⟩, ?_, h7⟩
    · exact authzidPart_iff.1 (parseAuthzid_eq_ok.1 h3)
    · simp
  · rintro ⟨start, r, ⟨f, az, h1, h2, h3, rfl⟩, rfl, h4⟩
    refine ⟨f, az, ?_, gs2Flag_iff.1 h1, parseAuthzid_eq_ok.2 (authzidPart_iff.2 h3)⟩
    refine splitOn_cons_iff.2 ⟨gs2Flag_comma h1, az ++ 44 :: r, by simp, ?_⟩
    exact splitOn_cons_iff.2 ⟨h2, r, rfl, h4⟩

theorem short_iff {b : Bytes} : Spec.Short b ↔ ∃ p ps, splitOn 44 b = p :: ps ∧ p.length < 2 := by
  obtain ⟨p, ps, hp⟩ := exists_splitOn (sep := 44) b
  have h1 : (∃ p ps, splitOn 44 b = p :: ps ∧ p.length < 2) ↔ p.length < 2 := by
    rw [hp]
    exact ⟨fun ⟨_, _, h, hl⟩ => by cases h; exact hl, fun h => ⟨p, ps, rfl, h⟩⟩
  rw [h1]
  obtain ⟨-, h2, rfl⟩ := splitOn_eq_iff.1 hp
  have h3 := h2 p (by simp)
  rw [intercalate_exts]
  have h4 : extBytes ps = [] ∨ ∃ r, extBytes ps = 44 :: r := by
    cases ps with
    | nil => exact .inl rfl
    | cons q qs => exact .inr ⟨_, rfl⟩
  match p, h3 with
  | [], _ =>
    rcases h4 with h4 | ⟨r, h4⟩ <;> rw [h4]
    · simp [Spec.Short]
    · cases r <;> simp [Spec.Short]
  | [x], _ =>
    rcases h4 with h4 | ⟨r, h4⟩ <;> rw [h4] <;> simp [Spec.Short]
  | x :: y :: p, h3 =>
    simp only [List.mem_cons, not_or] at h3
    simp [Spec.Short, Ne.symm h3.1, Ne.symm h3.2.1]

theorem empty_iff {b : Bytes} : Spec.Empty b ↔ ∃ ps, splitOn 44 b = [] :: ps := by
  obtain ⟨p, ps, hp⟩ := exists_splitOn (sep := 44) b
  have h1 : (∃ ps, splitOn 44 b = [] :: ps) ↔ p = [] := by
    rw [hp]
    exact ⟨fun ⟨_, h⟩ => by cases h; rfl, fun h => ⟨ps, by rw [h]⟩⟩
  rw [h1]
  obtain ⟨-, h2, rfl⟩ := splitOn_eq_iff.1 hp
  have h3 := h2 p (by simp)
  rw [intercalate_exts]
  cases p with
  | nil =>
    cases ps with
    | nil => simp [extBytes, Spec.Empty]
    | cons q qs => simp [extBytes, Spec.Empty]
  | cons x p =>
    simp only [List.mem_cons, not_or] at h3
    simp [Spec.Empty, Ne.symm h3.1]

theorem tail_eq (exts : List Bytes) : Spec.tail exts = extBytes exts := by
  induction exts with
  | nil => rfl
  | cons e es ih => simp [Spec.tail, extBytes, ih]

theorem skipped_iff {e : Bytes} : Spec.Skipped e ↔ 44 ∉ e ∧
    ∃ k v : Bytes, k.length = 2 ∧ e = k ++ v ∧ k ≠ b!"p=" ∧ k ≠ b!"m=" := by
  refine and_congr_right fun _ => ?_
  constructor
  · rintro ⟨x, y, v, rfl, h1, h2⟩
    exact ⟨[x, y], v, rfl, rfl, h1, h2⟩
  · rintro ⟨k, v, h1, rfl, h2, h3⟩
    match k, h1 with
    | [x, y], _ => exact ⟨x, y, v, rfl, h2, h3⟩

theorem nonceByte_iff {b : UInt8} : nonceByte b = true ↔ Spec.Printable b := by
  unfold nonceByte Spec.Printable
  simp only [Bool.or_eq_true, Bool.and_eq_true, decide_eq_true_eq]
  constructor
  · rintro (h | h)
    · exact ⟨h.1, by omega, by rintro rfl; exact absurd h.2 (by decide)⟩
    · exact ⟨by omega, h.2, by rintro rfl; exact absurd h.1 (by decide)⟩
  · rintro ⟨h1, h2, h3⟩
    have : b.toNat ≠ 44 := fun h => h3 (UInt8.toNat_inj.1 h)
    omega

/-! ## C53: what is accepted -/

/-- The server takes as client-first message exactly: a gs2 header, a user name and a nonce of
printable characters, then anything. -/
theorem C53_client_first_partial (input : Bytes) (flag : CbFlag) (authzid : Option Str) (user : Str)
    (nonce : Bytes) :
    ClientFirst.parse input = .ok ⟨flag, authzid, user, nonce⟩ ↔
      ∃ start exts, Spec.Gs2Start flag authzid start ∧ 44 ∉ Str.bytes user ∧
        (∀ b ∈ nonce, Spec.Printable b) ∧ (∀ e ∈ exts, 44 ∉ e) ∧
        input = start ++ b!"n=" ++ Str.bytes user ++ b!",r=" ++ nonce ++ Spec.tail exts := by
  rw [ClientFirst.parse_eq_ok]
  constructor
  · rintro ⟨h1, h2, h3, az, exts, h4, h5, h6, h7⟩
    refine ⟨flag.bytes ++ b!"," ++ az ++ b!",", exts, ⟨flag.bytes, az, ?_, h5,
      authzidPart_iff.1 h4, rfl⟩, h3, fun b hb => nonceByte_iff.1 (h2 b hb), h6, ?_⟩
    · exact gs2Flag_iff.2 (CbFlag.parse_eq_ok.2 ⟨h1, rfl⟩)
    · rw [h7, tail_eq]; simp
  · rintro ⟨start, exts, ⟨f, az, h1, h2, h3, rfl⟩, h4, h5, h6, h7⟩
    obtain ⟨h8, rfl⟩ := CbFlag.parse_eq_ok.1 (gs2Flag_iff.1 h1)
    refine ⟨h8, fun b hb => nonceByte_iff.2 (h5 b hb), h4, az, exts, authzidPart_iff.2 h3, h2, h6, ?_⟩
    rw [h7, tail_eq]; simp

/-- The client takes as server-first message exactly a nonce, a salt and an iteration count (which
it checks later). -/
theorem C53_server_first_partial (input nonce salt count : Bytes) :
    ServerFirst.parse input = .ok ⟨nonce, none, salt, count⟩ ↔
      44 ∉ nonce ∧ 44 ∉ salt ∧ 44 ∉ count ∧ input = Spec.serverFirst nonce salt count := by
  rw [ServerFirst.parse_eq_ok]
  exact ⟨fun ⟨_, h⟩ => h, fun h => ⟨rfl, h⟩⟩

/-- The server takes as client-final message exactly: channel binding, nonce, attributes other than
a proof and mandatory extensions, and the proof as the last one. -/
theorem C53_client_final_partial (input cb nonce proof : Bytes) :
    ClientFinal.parse input = .ok ⟨cb, nonce, proof⟩ ↔
      44 ∉ cb ∧ 44 ∉ nonce ∧ 44 ∉ proof ∧ ∃ exts, (∀ e ∈ exts, Spec.Skipped e) ∧
        input = Spec.clientFinalBare cb nonce ++ Spec.tail exts ++ b!",p=" ++ proof := by
  rw [ClientFinal.parse_eq_ok]
  refine and_congr_right fun _ => and_congr_right fun _ => and_congr_right fun _ =>
    exists_congr fun exts => ?_
  rw [tail_eq]
  refine and_congr ?_ Iff.rfl
  exact forall_congr' fun e => imp_congr_right fun _ => skipped_iff.symm

/-- The client takes as server-final message exactly an error or a verifier that extend to the end
of the message. -/
theorem C53_server_final_partial (input : Bytes) (m : ServerFinal) :
    ServerFinal.parse input = .ok m ↔
      (∃ v, m = .verifier v ∧ input = b!"v=" ++ v) ∨
      (∃ v, m = .error (parseErrorValue v) ∧ input = b!"e=" ++ v) := ServerFinal.parse_eq_ok

theorem comma_notMem_bytes {v : Str} (h : ',' ∉ v) : 44 ∉ Str.bytes v := by
  rw [mem_bytes_ascii (by decide)]
  exact h

theorem attrVal_comma {e : Bytes} (h : Spec.AttrVal e) : 44 ∉ e := by
  obtain ⟨a, v, h1, h2, rfl⟩ := h
  simp only [List.mem_cons, not_or]
  refine ⟨?_, by decide, comma_notMem_bytes h2.2.2⟩
  rintro rfl
  exact absurd h1 (by decide)

theorem base64_comma {raw text : Bytes} (h : Spec.Base64 raw text) : 44 ∉ text := by
  have key : ∀ {i : Nat} {s : UInt8}, Spec.base64Alphabet[i]? = some s → s ≠ 44 := by
    rintro i s h rfl
    exact absurd (List.mem_of_getElem? h) (by decide)
  induction h with
  | nil => simp
  | one a s0 s1 h0 h1 => simp [(key h0).symm, (key h1).symm]
  | two a b s0 s1 s2 h0 h1 h2 => simp [(key h0).symm, (key h1).symm, (key h2).symm]
  | group a b c s0 s1 s2 s3 rest text h0 h1 h2 h3 _ ih =>
    simp [(key h0).symm, (key h1).symm, (key h2).symm, (key h3).symm, ih]

theorem printable_comma {n : Bytes} (h : ∀ b ∈ n, Spec.Printable b) : 44 ∉ n :=
  fun hm => (h 44 hm).2.2 rfl

theorem authzid_any {a : Option Str} {az : Bytes} (h : Spec.Authzid a az) :
    Spec.AnyAuthzid a az ∧ 44 ∉ az := by
  cases h with
  | none => exact ⟨rfl, by simp⟩
  | some name h1 h2 =>
    refine ⟨⟨_, _, rfl⟩, ?_⟩
    simp only [List.mem_append, not_or]
    exact ⟨by decide, comma_notMem_bytes h2.notMem.1⟩

/-- Every client-first message of the RFC (without mandatory extension) is accepted and understood. -/
theorem C53_rfc_client_first (input : Bytes) (flag : CbFlag) (authzid : Option Str) (user : Str)
    (nonce : Bytes) (h : Spec.ClientFirstMsg flag authzid user nonce input) :
    ClientFirst.parse input = .ok ⟨flag, authzid, user, nonce⟩ := by
  obtain ⟨f, az, exts, h1, h2, h3, h4, h5, h6, rfl⟩ := h
  rw [C53_client_first_partial]
  refine ⟨f ++ b!"," ++ az ++ b!",", exts, ⟨f, az, h1, (authzid_any h2).2, (authzid_any h2).1, rfl⟩,
    comma_notMem_bytes h4.notMem.1, h5.2, fun e he => attrVal_comma (h6 e he), ?_⟩
  simp

/-- Every client-final message of the RFC (without mandatory extension) is accepted and understood. -/
theorem C53_rfc_client_final (input cb nonce proof : Bytes)
    (h : Spec.ClientFinalMsg cb nonce proof input) :
    ClientFinal.parse input = .ok ⟨cb, nonce, proof⟩ := by
  obtain ⟨exts, rawCb, rawProof, h1, h2, h3, h4, rfl⟩ := h
  rw [C53_client_final_partial]
  refine ⟨base64_comma h1, printable_comma h2.2, base64_comma h3, exts, fun e he => ?_, ?_⟩
  · obtain ⟨h5, h6, h7⟩ := h4 e he
    refine ⟨attrVal_comma h5, ?_⟩
    obtain ⟨a, v, -, -, rfl⟩ := h5
    exact ⟨a, 61, _, rfl, h6, h7⟩
  · simp [Spec.clientFinalBare]

/-- A server-first message of the RFC without any extension is accepted and understood. -/
theorem C53_rfc_server_first_partial (nonce salt raw : Bytes) (count : Str) (h1 : Spec.Nonce nonce)
    (h2 : Spec.Base64 raw salt) (h3 : Spec.Value count) :
    ServerFirst.parse (Spec.serverFirst nonce salt (Str.bytes count)) =
      .ok ⟨nonce, none, salt, Str.bytes count⟩ :=
  (C53_server_first_partial _ _ _ _).2
    ⟨printable_comma h1.2, base64_comma h2, comma_notMem_bytes h3.2.2, rfl⟩

/-- A server-first message with an optional extension is refused, although the RFC asks clients to
ignore those. -/
theorem C53_server_first_false : ¬ ∀ input nonce salt count,
    Spec.ServerFirstMsg nonce salt count input →
      ServerFirst.parse input = .ok ⟨nonce, none, salt, count⟩ := by
  intro h
  have := h (b!"r=ab,s=AAAA,i=1,x=y") (b!"ab") (b!"AAAA") (b!"1")
    ⟨[b!"x=y"], [0, 0, 0], c!"1", ⟨by decide, by unfold Spec.Printable; decide⟩, C24_rfc4648 [0, 0, 0],
      ⟨by decide, by decide, by decide⟩, rfl, by
        intro e he
        rw [List.mem_singleton.1 he]
        exact ⟨120, c!"y", by decide, ⟨by decide, by decide, by decide⟩, rfl⟩, rfl⟩
  exact absurd this (by decide)

/-- An optional extension in a server-final message is taken for a part of the verifier. -/
theorem C53_server_final_false : ¬ ∀ input verifier,
    Spec.ServerFinalMsg verifier input → ServerFinal.parse input = .ok (.verifier verifier) := by
  intro h
  have := h (b!"v=AAAA,x=y") (b!"AAAA")
    ⟨[b!"x=y"], [0, 0, 0], C24_rfc4648 [0, 0, 0], by
        intro e he
        rw [List.mem_singleton.1 he]
        exact ⟨120, c!"y", by decide, ⟨by decide, by decide, by decide⟩, rfl⟩, rfl⟩
  exact absurd this (by decide)

/-- The server accepts client-first messages the RFC does not allow: the nonce may be empty. -/
theorem C53_client_first_false : ¬ ∀ input flag authzid user nonce,
    ClientFirst.parse input = .ok ⟨flag, authzid, user, nonce⟩ →
      Spec.ClientFirstMsg flag authzid user nonce input := by
  intro h
  obtain ⟨_, _, _, _, _, _, _, h5, _⟩ := h (b!"n,,n=bob,r=") .notSupported none (c!"bob") []
    (by decide +kernel)
  exact h5.1 rfl

/-- The server accepts client-first messages the RFC does not allow: an authzid need not be marked
as one. -/
theorem C53_authzid_false : ¬ ∀ input flag authzid user nonce,
    ClientFirst.parse input = .ok ⟨flag, authzid, user, nonce⟩ →
      Spec.ClientFirstMsg flag authzid user nonce input := by
  intro h
  obtain ⟨f, az, exts, h1, h2, _, _, _, _, h7⟩ :=
    h (b!"n,x:eve,n=bob,r=a") .notSupported (some (c!"eve")) (c!"bob") (b!"a") (by decide +kernel)
  cases h1
  cases h2
  have h8 := congrArg (fun l => (l.drop 2).head?) h7
  have h9 : some (120 : UInt8) = some 97 := h8
  exact absurd h9 (by decide)

example : Spec.ClientFirstMsg (.used (b!"tls-exporter")) (some (c!"root")) (c!"a=2Cb") (b!"xyz")
    (b!"p=tls-exporter,a=root,n=a=2Cb,r=xyz,e=f") := by
  refine ⟨_, _, [b!"e=f"], .used _ ⟨by decide, by decide⟩, .some _ (by decide) ?_, by decide, ?_,
    ⟨by decide, by unfold Spec.Printable; decide⟩, ?_, rfl⟩
  · exact .safe _ (by decide) (by decide) (by decide) (.safe _ (by decide) (by decide) (by decide)
      (.safe _ (by decide) (by decide) (by decide) (.safe _ (by decide) (by decide) (by decide) .nil)))
  · exact .safe _ (by decide) (by decide) (by decide)
      (.comma (.safe _ (by decide) (by decide) (by decide) .nil))
  · intro e he
    rw [List.mem_singleton.1 he]
    exact ⟨101, c!"f", by decide, ⟨by decide, by decide, by decide⟩, rfl⟩

/-! ## C54: mandatory extensions -/

/-- The server refuses a client-first message for a mandatory extension exactly if one stands in
the place the RFC reserves for it. -/
theorem C54_client_first (input : Bytes) :
    ClientFirst.parse input = .err (perr .unknownMandatoryExtensions) ↔
      ∃ flag authzid start rest, Spec.Gs2Start flag authzid start ∧
        input = start ++ b!"m=" ++ rest := by
  rw [ClientFirst.parse_mext_parts]
  constructor
  · rintro ⟨f, az, x, rest, flag, a, v, h1, h2, h3, rfl⟩
    obtain ⟨start, r, h4, rfl, h5⟩ := gs2Start_iff.1 ⟨f, az, h1, h2, h3⟩
    refine ⟨flag, a, start, v ++ extBytes rest, h4, ?_⟩
    obtain ⟨-, -, rfl⟩ := splitOn_eq_iff.1 h5
    rw [intercalate_exts]
    simp
  · rintro ⟨flag, a, start, rest, h1, rfl⟩
    obtain ⟨p, ps, hp⟩ := exists_splitOn (sep := 44) rest
    have hs : splitOn 44 (b!"m=" ++ rest) = (b!"m=" ++ p) :: ps := by
      obtain ⟨-, h2, h3⟩ := splitOn_eq_iff.1 hp
      rw [splitOn_eq_iff]
      refine ⟨by simp, ?_, ?_⟩
      · intro q hq
        rcases List.mem_cons.1 hq with rfl | hq
        · simp only [List.mem_append, not_or]; exact ⟨by decide, h2 p (by simp)⟩
        · exact h2 q (by simp [hq])
      · rw [h3, intercalate_exts, intercalate_exts, List.append_assoc]
    rw [List.append_assoc]
    obtain ⟨f, az, h2, h3, h4⟩ := gs2Start_iff.2 ⟨start, _, h1, rfl, hs⟩
    exact ⟨f, az, _, ps, flag, a, p, h2, h3, h4, rfl⟩

/-- The client refuses a server-first message for a mandatory extension exactly if it starts with
one. -/
theorem C54_server_first (input : Bytes) :
    ServerFirst.parse input = .err (perr .unknownMandatoryExtensions) ↔
      ∃ rest, input = b!"m=" ++ rest := ServerFirst.parse_mext

/-- Splitting after a list of comma-free parts. -/
theorem splitOn_parts {ps : List Bytes} {r : Bytes} (h : ∀ p ∈ ps, 44 ∉ p) :
    splitOn 44 (ps.flatMap (fun p => p ++ [44]) ++ r) = ps ++ splitOn 44 r := by
  induction ps with
  | nil => rfl
  | cons p ps ih =>
    rw [List.flatMap_cons, List.append_assoc, List.append_assoc, List.singleton_append,
      splitOn_append_sep (h p (by simp)), ih (fun q hq => h q (by simp [hq]))]
    rfl

theorem exts_comma (a : Bytes) (exts : List Bytes) (r : Bytes) :
    a ++ extBytes exts ++ 44 :: r = a ++ 44 :: (exts.flatMap (fun p => p ++ [44]) ++ r) := by
  induction exts generalizing a with
  | nil => simp [extBytes]
  | cons e es ih =>
    have := ih (a ++ 44 :: e)
    simp only [extBytes, List.flatMap_cons, List.append_assoc, List.cons_append,
      List.singleton_append] at this ⊢
    exact this

/-- A list of parts with one singled out, as text. -/
theorem splitOn_mid {input : Bytes} {ps qs : List Bytes} (hq : qs ≠ []) :
    splitOn 44 input = ps ++ qs ↔ (∀ p ∈ ps, 44 ∉ p) ∧ ∃ r,
      input = ps.flatMap (fun p => p ++ [44]) ++ r ∧ splitOn 44 r = qs := by
  induction ps generalizing input with
  | nil => simp
  | cons p ps ih =>
    rw [List.cons_append, splitOn_tail_iff (by simp [hq])]
    constructor
    · rintro ⟨h1, r, rfl, h2⟩
      obtain ⟨h3, r', rfl, h4⟩ := ih.1 h2
      refine ⟨fun q hq => ?_, r', by simp, h4⟩
      rcases List.mem_cons.1 hq with rfl | hq
      · exact h1
      · exact h3 q hq
    · rintro ⟨h1, r, rfl, h2⟩
      refine ⟨h1 p (by simp), ps.flatMap (fun p => p ++ [44]) ++ r, by simp, ?_⟩
      exact ih.2 ⟨fun q hq => h1 q (by simp [hq]), r, rfl, h2⟩

/-- The first part of a text after two fixed bytes. -/
theorem splitOn_prefix {x y : UInt8} (hx : x ≠ 44) (hy : y ≠ 44) {r v : Bytes} {ps : List Bytes} :
    splitOn 44 r = (x :: y :: v) :: ps ↔ ∃ r', r = x :: y :: r' ∧ splitOn 44 r' = v :: ps := by
  constructor
  · intro h
    obtain ⟨-, h2, rfl⟩ := splitOn_eq_iff.1 h
    refine ⟨v ++ extBytes ps, by rw [intercalate_exts]; simp, ?_⟩
    rw [splitOn_eq_iff]
    refine ⟨by simp, ?_, by rw [intercalate_exts]⟩
    intro q hq
    rcases List.mem_cons.1 hq with rfl | hq
    · have := h2 (x :: y :: q) (by simp)
      simp only [List.mem_cons, not_or] at this
      exact this.2.2
    · exact h2 q (by simp [hq])
  · rintro ⟨r', rfl, h⟩
    obtain ⟨-, h2, rfl⟩ := splitOn_eq_iff.1 h
    rw [splitOn_eq_iff]
    refine ⟨by simp, ?_, by rw [intercalate_exts, intercalate_exts]; simp⟩
    intro q hq
    rcases List.mem_cons.1 hq with rfl | hq
    · simp only [List.mem_cons, not_or]
      exact ⟨hx.symm, hy.symm, h2 v (by simp)⟩
    · exact h2 q (by simp [hq])

/-- The parts after the nonce of a client-final message, as text. -/
theorem clientFinal_text {input cb nonce : Bytes} {exts qs : List Bytes} (hq : qs ≠ []) :
    splitOn 44 input = (b!"c=" ++ cb) :: (b!"r=" ++ nonce) :: (exts ++ qs) ↔
      44 ∉ cb ∧ 44 ∉ nonce ∧ (∀ e ∈ exts, 44 ∉ e) ∧ ∃ r,
        input = Spec.clientFinalBare cb nonce ++ Spec.tail exts ++ 44 :: r ∧ splitOn 44 r = qs := by
  have := splitOn_mid (input := input) (ps := (b!"c=" ++ cb) :: (b!"r=" ++ nonce) :: exts) hq
  refine Iff.trans this ?_
  constructor
  · rintro ⟨h1, r, rfl, h2⟩
    have h3 := h1 (b!"c=" ++ cb) (by simp)
    have h4 := h1 (b!"r=" ++ nonce) (by simp)
    simp only [List.mem_append, not_or] at h3 h4
    refine ⟨h3.2, h4.2, fun e he => h1 e (by simp [he]), r, ?_, h2⟩
    rw [tail_eq, exts_comma]
    simp [Spec.clientFinalBare]
  · rintro ⟨h1, h2, h3, r, rfl, h4⟩
    refine ⟨fun p hp => ?_, r, ?_, h4⟩
    · simp only [List.mem_cons] at hp
      rcases hp with rfl | rfl | hp
      · simp only [List.mem_append, not_or]; exact ⟨by decide, h1⟩
      · simp only [List.mem_append, not_or]; exact ⟨by decide, h2⟩
      · exact h3 p hp
    · rw [tail_eq, exts_comma]
      simp [Spec.clientFinalBare]

/-- The server refuses a client-final message for a mandatory extension exactly if one stands
between nonce and proof. -/
theorem C54_client_final (input : Bytes) :
    ClientFinal.parse input = .err (perr .unknownMandatoryExtensions) ↔
      ∃ cb nonce exts rest, 44 ∉ cb ∧ 44 ∉ nonce ∧ (∀ e ∈ exts, Spec.Skipped e) ∧
        input = Spec.clientFinalBare cb nonce ++ Spec.tail exts ++ b!",m=" ++ rest := by
  rw [ClientFinal.parse_mext_parts]
  constructor
  · rintro ⟨cb, nonce, exts, v, rest, h1, h2⟩
    obtain ⟨h3, h4, h5, r, rfl, h6⟩ := (clientFinal_text (by simp)).1 h1
    obtain ⟨r', rfl, -⟩ := (splitOn_prefix (by decide) (by decide)).1 h6
    exact ⟨cb, nonce, exts, r', h3, h4, fun e he => skipped_iff.2 ⟨h5 e he, h2 e he⟩, by simp⟩
  · rintro ⟨cb, nonce, exts, rest, h1, h2, h3, rfl⟩
    obtain ⟨v, ps, hv⟩ := exists_splitOn (sep := 44) rest
    refine ⟨cb, nonce, exts, v, ps, (clientFinal_text (by simp)).2 ⟨h1, h2,
      fun e he => (skipped_iff.1 (h3 e he)).1, b!"m=" ++ rest, by simp, ?_⟩,
      fun e he => (skipped_iff.1 (h3 e he)).2⟩
    exact (splitOn_prefix (by decide) (by decide)).2 ⟨rest, rfl, hv⟩

/-- A server waiting for the client's first message answers a mandatory extension with this error;
nothing is written and nobody is asked. -/
theorem C54_server_step (d : Digest) (env : Env) (canCb : Bool) (w : World) (flag : CbFlag)
    (authzid : Option Str) (start rest : Bytes) (h : Spec.Gs2Start flag authzid start) :
    (server d).step env (some (start ++ b!"m=" ++ rest)) (some (.waitingClientFirst canCb)) w =
      (.err (.mechanismError (.scramParse .unknownMandatoryExtensions)), none, w) := by
  have h := (C54_client_first (start ++ b!"m=" ++ rest)).2 ⟨flag, authzid, start, rest, h, rfl⟩
  show M.bind (M.liftOutcome (ClientFirst.parse _)) _ _ _ = _
  rw [h]
  rfl

/-- A server waiting for the client's last message answers a mandatory extension with this error,
without looking at the proof. -/
theorem C54_server_final_step (d : Digest) (env : Env) (data : Option FinalInner) (w : World)
    (cb nonce rest : Bytes) (exts : List Bytes) (h1 : 44 ∉ cb) (h2 : 44 ∉ nonce)
    (h3 : ∀ e ∈ exts, Spec.Skipped e) :
    (server d).step env
        (some (Spec.clientFinalBare cb nonce ++ Spec.tail exts ++ b!",m=" ++ rest))
        (some (.waitingClientFinal data)) w =
      (.err (.mechanismError (.scramParse .unknownMandatoryExtensions)), none, w) := by
  have h := (C54_client_final _).2 ⟨cb, nonce, exts, rest, h1, h2, h3, rfl⟩
  show M.bind (M.bind (M.liftOutcome (ClientFinal.parse _)) _) _ _ _ = _
  rw [h]
  rfl

/-- A client waiting for the server's first message answers a mandatory extension with this error,
before any secret is asked for. -/
theorem C54_client_step (d : Digest) (env : Env) (cb nonce : Bytes) (user : Str) (w : World)
    (rest : Bytes) :
    (client d).step env (some (b!"m=" ++ rest)) (some (.clientFirst cb nonce user)) w =
      (.err (.mechanismError (.scramParse .unknownMandatoryExtensions)), none, w) := by
  have h := (C54_server_first (b!"m=" ++ rest)).2 ⟨rest, rfl⟩
  have h' : checkServerFirst nonce (b!"m=" ++ rest) =
      .err (perr .unknownMandatoryExtensions) := by
    unfold checkServerFirst
    rw [h]
    rfl
  show M.bind (M.bind (M.liftOutcome (checkServerFirst _ _)) _) _ _ _ = _
  rw [h']
  rfl

example : Spec.Gs2Start .notSupported none (b!"n,,") :=
  ⟨b!"n", [], .notSupported, by decide, rfl, rfl⟩

/-! ## C55: panics -/

/-- The server panics on a client-first message exactly if, after a valid channel binding flag,
the authzid part is one byte long; or, after a valid gs2 header, the part of the user name has
less than two bytes; or, after a valid user name, the part of the nonce does. -/
theorem C55_client_first (input : Bytes) :
    ClientFirst.parse input = .panic ↔
      (∃ flag text x rest, Spec.FlagText flag text ∧ x ≠ 44 ∧ Spec.Empty rest ∧
        input = text ++ b!"," ++ x :: rest) ∨
      (∃ flag authzid start rest, Spec.Gs2Start flag authzid start ∧ Spec.Short rest ∧
        input = start ++ rest) ∨
      (∃ flag authzid start user rest, Spec.Gs2Start flag authzid start ∧ 44 ∉ Str.bytes user ∧
        Spec.Short rest ∧ input = start ++ b!"n=" ++ Str.bytes user ++ b!"," ++ rest) := by
  rw [ClientFirst.parse_panic_parts]
  constructor
  · rintro ⟨f, az, rest, flag, h1, h2, h⟩
    rcases h with h | ⟨a, x, rest', h3, rfl, h⟩
    · left
      obtain ⟨h4, r, rfl, h5⟩ := splitOn_cons_iff.1 h1
      match az, h with
      | [x], _ =>
        obtain ⟨-, h6, rfl⟩ := splitOn_eq_iff.1 h5
        have h7 := h6 [x] (by simp)
        rw [intercalate_exts]
        refine ⟨flag, f, x, extBytes rest, gs2Flag_iff.2 h2, ?_, ?_, by simp⟩
        · rintro rfl; exact h7 (by simp)
        · cases rest with
          | nil => trivial
          | cons q qs => rfl
    · right
      obtain ⟨start, r, h4, rfl, h5⟩ := gs2Start_iff.1 ⟨f, az, h1, h2, h3⟩
      rcases h with h | ⟨user, y, rest'', rfl, rfl, h⟩
      · exact .inl ⟨flag, a, start, r, h4, short_iff.2 ⟨x, rest', h5, h⟩, rfl⟩
      · right
        obtain ⟨h6, r', rfl, h7⟩ := splitOn_cons_iff.1 h5
        simp only [List.mem_append, not_or] at h6
        exact ⟨flag, a, start, user, r', h4, h6.2, short_iff.2 ⟨y, rest'', h7, h⟩, by simp⟩
  · rintro (⟨flag, text, x, rest, h1, h2, h3, rfl⟩ | ⟨flag, a, start, rest, h1, h2, rfl⟩ |
      ⟨flag, a, start, user, rest, h1, h2, h3, rfl⟩)
    · have : ∃ ps, splitOn 44 (x :: rest) = [x] :: ps := by
        obtain ⟨ps, hps⟩ := empty_iff.1 h3
        refine ⟨ps, ?_⟩
        obtain ⟨-, h4, rfl⟩ := splitOn_eq_iff.1 hps
        rw [splitOn_eq_iff]
        refine ⟨by simp, fun q hq => ?_, by rw [intercalate_exts, intercalate_exts]; rfl⟩
        rcases List.mem_cons.1 hq with rfl | hq
        · simpa using h2.symm
        · exact h4 q (by simp [hq])
      obtain ⟨ps, hps⟩ := this
      refine ⟨text, [x], ps, flag, ?_, gs2Flag_iff.1 h1, .inl rfl⟩
      exact splitOn_cons_iff.2 ⟨gs2Flag_comma h1, x :: rest, by simp, hps⟩
    · obtain ⟨p, ps, h4, h5⟩ := short_iff.1 h2
      obtain ⟨f, az, h6, h7, h8⟩ := gs2Start_iff.2 ⟨start, rest, h1, rfl, h4⟩
      exact ⟨f, az, _, flag, h6, h7, .inr ⟨a, p, ps, h8, rfl, .inl h5⟩⟩
    · obtain ⟨p, ps, h4, h5⟩ := short_iff.1 h3
      have h9 : splitOn 44 (b!"n=" ++ Str.bytes user ++ b!"," ++ rest) =
          (b!"n=" ++ Str.bytes user) :: p :: ps := by
        refine splitOn_cons_iff.2 ⟨?_, rest, by simp, h4⟩
        simp only [List.mem_append, not_or]
        exact ⟨by decide, h2⟩
      obtain ⟨f, az, h6, h7, h8⟩ := gs2Start_iff.2 ⟨start, _, h1, rfl, h9⟩
      refine ⟨f, az, _, flag, ?_, h7, .inr ⟨a, _, _, h8, rfl, .inr ⟨user, p, ps, rfl, rfl, h5⟩⟩⟩
      simpa using h6

/-- The client panics on a server-first message exactly if the part of the salt or of the iteration
count has less than two bytes, or the message has an empty part after the iteration count. -/
theorem C55_server_first (input : Bytes) :
    ServerFirst.parse input = .panic ↔
      ∃ nonce rest, 44 ∉ nonce ∧ input = b!"r=" ++ nonce ++ b!"," ++ rest ∧ (Spec.Short rest ∨
        ∃ salt rest', 44 ∉ salt ∧ rest = b!"s=" ++ salt ++ b!"," ++ rest' ∧ (Spec.Short rest' ∨
          ∃ count rest'', 44 ∉ count ∧ rest' = b!"i=" ++ count ++ b!"," ++ rest'' ∧
            Spec.Empty rest'')) := by
  rw [ServerFirst.parse_panic_parts]
  have key : ∀ (k v : Bytes), 44 ∉ k → (44 ∉ k ++ v ↔ 44 ∉ v) := by
    intro k v h
    simp [h]
  constructor
  · rintro ⟨nonce, x, rest, h1, h⟩
    obtain ⟨h2, r, rfl, h3⟩ := splitOn_cons_iff.1 h1
    refine ⟨nonce, r, (key _ _ (by decide)).1 h2, by simp, ?_⟩
    rcases h with h | ⟨salt, y, rest', rfl, rfl, h⟩
    · exact .inl (short_iff.2 ⟨x, rest, h3, h⟩)
    right
    obtain ⟨h4, r', rfl, h5⟩ := splitOn_cons_iff.1 h3
    refine ⟨salt, r', (key _ _ (by decide)).1 h4, by simp, ?_⟩
    rcases h with h | ⟨count, rest'', rfl, rfl⟩
    · exact .inl (short_iff.2 ⟨y, rest', h5, h⟩)
    right
    obtain ⟨h6, r'', rfl, h7⟩ := splitOn_cons_iff.1 h5
    exact ⟨count, r'', (key _ _ (by decide)).1 h6, by simp, empty_iff.2 ⟨_, h7⟩⟩
  · rintro ⟨nonce, rest, h1, rfl, h⟩
    have start : ∀ {x ps}, splitOn 44 rest = x :: ps →
        splitOn 44 (b!"r=" ++ nonce ++ b!"," ++ rest) = (b!"r=" ++ nonce) :: x :: ps :=
      fun h => splitOn_cons_iff.2 ⟨(key _ _ (by decide)).2 h1, rest, by simp, h⟩
    rcases h with h | ⟨salt, rest', h2, rfl, h⟩
    · obtain ⟨p, ps, h3, h4⟩ := short_iff.1 h
      exact ⟨nonce, p, ps, start h3, .inl h4⟩
    have next : ∀ {x ps}, splitOn 44 rest' = x :: ps →
        splitOn 44 (b!"s=" ++ salt ++ b!"," ++ rest') = (b!"s=" ++ salt) :: x :: ps :=
      fun h => splitOn_cons_iff.2 ⟨(key _ _ (by decide)).2 h2, rest', by simp, h⟩
    rcases h with h | ⟨count, rest'', h3, rfl, h⟩
    · obtain ⟨p, ps, h3, h4⟩ := short_iff.1 h
      exact ⟨nonce, _, _, start (next h3), .inr ⟨salt, p, ps, rfl, rfl, .inl h4⟩⟩
    · obtain ⟨ps, h4⟩ := empty_iff.1 h
      have last : splitOn 44 (b!"i=" ++ count ++ b!"," ++ rest'') = (b!"i=" ++ count) :: [] :: ps :=
        splitOn_cons_iff.2 ⟨(key _ _ (by decide)).2 h3, rest'', by simp, h4⟩
      exact ⟨nonce, _, _, start (next last), .inr ⟨salt, _, _, rfl, rfl, .inr ⟨count, ps, rfl, rfl⟩⟩⟩

/-- The server panics on a client-final message exactly if one of its parts up to the proof has
less than two bytes (and those before it are as expected), or an empty part follows the proof. -/
theorem C55_client_final (input : Bytes) :
    ClientFinal.parse input = .panic ↔
      Spec.Short input ∨
      (∃ cb rest, 44 ∉ cb ∧ input = b!"c=" ++ cb ++ b!"," ++ rest ∧ Spec.Short rest) ∨
      (∃ cb nonce exts rest, 44 ∉ cb ∧ 44 ∉ nonce ∧ (∀ e ∈ exts, Spec.Skipped e) ∧
        Spec.Short rest ∧
        input = Spec.clientFinalBare cb nonce ++ Spec.tail exts ++ b!"," ++ rest) ∨
      (∃ cb nonce exts proof rest, 44 ∉ cb ∧ 44 ∉ nonce ∧ (∀ e ∈ exts, Spec.Skipped e) ∧
        44 ∉ proof ∧ Spec.Empty rest ∧
        input = Spec.clientFinalBare cb nonce ++ Spec.tail exts ++ b!",p=" ++ proof ++ b!"," ++
          rest) := by
  rw [ClientFinal.parse_panic_parts]
  have key : ∀ (k v : Bytes), 44 ∉ k → (44 ∉ k ++ v ↔ 44 ∉ v) := by
    intro k v h
    simp [h]
  constructor
  · rintro ⟨x, rest, h1, h⟩
    rcases h with h | ⟨cb, y, rest', rfl, rfl, h⟩
    · exact .inl (short_iff.2 ⟨x, rest, h1, h⟩)
    right
    rcases h with h | ⟨nonce, exts, z, rest'', rfl, rfl, he, h⟩
    · obtain ⟨h2, r, rfl, h3⟩ := splitOn_cons_iff.1 h1
      exact .inl ⟨cb, r, (key _ _ (by decide)).1 h2, by simp, short_iff.2 ⟨y, rest', h3, h⟩⟩
    right
    obtain ⟨h2, h3, h4, r, rfl, h5⟩ := (clientFinal_text (by simp)).1 h1
    have h6 : ∀ e ∈ exts, Spec.Skipped e := fun e he' => skipped_iff.2 ⟨h4 e he', he e he'⟩
    rcases h with h | ⟨proof, tl, rfl, rfl⟩
    · exact .inl ⟨cb, nonce, exts, r, h2, h3, h6, short_iff.2 ⟨z, rest'', h5, h⟩, by simp⟩
    · obtain ⟨h7, r', rfl, h8⟩ := splitOn_cons_iff.1 h5
      exact .inr ⟨cb, nonce, exts, proof, r', h2, h3, h6, (key _ _ (by decide)).1 h7,
        empty_iff.2 ⟨_, h8⟩, by simp⟩
  · rintro (h | ⟨cb, rest, h1, rfl, h⟩ | ⟨cb, nonce, exts, rest, h1, h2, h3, h, rfl⟩ |
      ⟨cb, nonce, exts, proof, rest, h1, h2, h3, h4, h, rfl⟩)
    · obtain ⟨p, ps, h1, h2⟩ := short_iff.1 h
      exact ⟨p, ps, h1, .inl h2⟩
    · obtain ⟨p, ps, h2, h3⟩ := short_iff.1 h
      exact ⟨_, _, splitOn_cons_iff.2 ⟨(key _ _ (by decide)).2 h1, rest, by simp, h2⟩,
        .inr ⟨cb, p, ps, rfl, rfl, .inl h3⟩⟩
    · obtain ⟨p, ps, h5, h6⟩ := short_iff.1 h
      refine ⟨_, _, (clientFinal_text (cb := cb) (nonce := nonce) (exts := exts)
        (qs := p :: ps) (by simp)).2 ⟨h1, h2, fun e he => (skipped_iff.1 (h3 e he)).1, rest,
          by simp, h5⟩, .inr ⟨cb, _, _, rfl, rfl, .inr ⟨nonce, exts, p, ps, rfl, rfl,
          fun e he => (skipped_iff.1 (h3 e he)).2, .inl h6⟩⟩⟩
    · obtain ⟨ps, h5⟩ := empty_iff.1 h
      refine ⟨_, _, (clientFinal_text (cb := cb) (nonce := nonce) (exts := exts)
        (qs := (b!"p=" ++ proof) :: [] :: ps) (by simp)).2 ⟨h1, h2,
          fun e he => (skipped_iff.1 (h3 e he)).1, b!"p=" ++ proof ++ 44 :: rest,
          by simp, splitOn_cons_iff.2 ⟨(key _ _ (by decide)).2 h4, rest, by simp, h5⟩⟩,
          .inr ⟨cb, _, _, rfl, rfl, .inr ⟨nonce, exts, _, _, rfl, rfl,
          fun e he => (skipped_iff.1 (h3 e he)).2, .inr ⟨proof, ps, rfl, rfl⟩⟩⟩⟩

/-- The client panics on a server-final message exactly if it has less than two bytes. -/
theorem C55_server_final (input : Bytes) :
    ServerFinal.parse input = .panic ↔ input.length < 2 := ServerFinal.parse_panic

/-- What panics in the parser panics in the session: a server waiting for the client's messages, a
client waiting for the server's. -/
theorem C55_steps (d : Digest) (env : Env) (w : World) (input : Bytes) :
    (∀ canCb, ClientFirst.parse input = .panic →
      (server d).step env (some input) (some (.waitingClientFirst canCb)) w = (.panic, none, w)) ∧
    (∀ data, ClientFinal.parse input = .panic →
      (server d).step env (some input) (some (.waitingClientFinal data)) w = (.panic, none, w)) ∧
    (∀ cb nonce user, ServerFirst.parse input = .panic →
      (client d).step env (some input) (some (.clientFirst cb nonce user)) w =
        (.panic, none, w)) ∧
    (∀ v ck sk salt it, ServerFinal.parse input = .panic →
      (client d).step env (some input) (some (.serverFirst v ck sk salt it)) w =
        (.panic, none, w)) := by
  refine ⟨fun canCb h => ?_, fun data h => ?_, fun cb nonce user h => ?_,
    fun v ck sk salt it h => ?_⟩
  · show M.bind (M.liftOutcome (ClientFirst.parse _)) _ _ _ = _
    rw [h]
    rfl
  · show M.bind (M.bind (M.liftOutcome (ClientFinal.parse _)) _) _ _ _ = _
    rw [h]
    rfl
  · have h' : checkServerFirst nonce input = .panic := by
      unfold checkServerFirst
      rw [h]
      rfl
    show M.bind (M.bind (M.liftOutcome (checkServerFirst _ _)) _) _ _ _ = _
    rw [h']
    rfl
  · show M.bind (M.bind (M.liftOutcome (ServerFinal.parse _)) _) _ _ _ = _
    rw [h]
    rfl

example : ClientFirst.parse (b!"n,a,n=bob,r=abc") = .panic :=
  (C55_client_first _).2 (.inl ⟨.notSupported, b!"n", 97, b!",n=bob,r=abc", .notSupported,
    by decide, rfl, rfl⟩)

end Rsasl

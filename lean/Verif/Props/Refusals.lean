/-
C87: the error of a server names what is wrong with the message.
-/
import Verif.Spec.Refusals
import Verif.Props.Simple

namespace Rsasl

open Spec

theorem notUtf8_iff {b : Bytes} : NotUtf8 b ↔ fromUtf8 b = none := by
  constructor
  · intro h
    cases hu : fromUtf8 b with
    | none => rfl
    | some s => exact absurd (bytes_of_fromUtf8 _ _ hu).symm (h s)
  · rintro h s rfl
    rw [fromUtf8_bytes] at h
    cases h

theorem stripPrefix_eq_none {p b : Bytes} : stripPrefix p b = none ↔ ¬ p <+: b := by
  constructor
  · rintro h ⟨r, rfl⟩
    rw [stripPrefix_append] at h
    cases h
  · intro h
    cases hs : stripPrefix p b with
    | none => rfl
    | some r => exact absurd ⟨r, (stripPrefix_eq_some.1 hs).symm⟩ h

theorem stripSuffix_eq_none {p b : Bytes} : stripSuffix p b = none ↔ ¬ p <:+ b := by
  constructor
  · rintro h ⟨r, rfl⟩
    rw [stripSuffix_append] at h
    cases h
  · intro h
    cases hs : stripSuffix p b with
    | none => rfl
    | some r => exact absurd ⟨r, (stripSuffix_eq_some.1 hs).symm⟩ h

theorem length_splitOn (sep : UInt8) (b : Bytes) : (splitOn sep b).length = b.count sep + 1 := by
  induction b with
  | nil => rfl
  | cons x b ih =>
    simp only [splitOn]
    split
    · next h => subst h; simp [ih]
    · next h =>
      rw [List.count_cons_of_ne h, ← ih]
      cases hs : splitOn sep b with
      | nil => exact absurd hs (splitOn_ne_nil _ _)
      | cons p ps => rfl

/-! ## OAUTHBEARER -/

namespace OAuthBearer

theorem splitOn_parts (items : List Bytes) (h : ∀ i ∈ items, (1 : UInt8) ∉ i) (pre : Bytes)
    (hpre : (1 : UInt8) ∉ pre) :
    splitOn 1 (pre ++ items.flatMap (1 :: ·)) = pre :: items := by
  induction items generalizing pre with
  | nil => simp [splitOn_of_notMem hpre]
  | cons i items ih =>
    rw [List.flatMap_cons, List.cons_append, splitOn_append_sep hpre,
      ih (fun j hj => h j (by simp [hj])) _ (h i (by simp))]

/-- The part of the parser that looks at the gs2 header. -/
def parseHeader (gs2 : Bytes) : Except OParseError (Option Str) :=
  match splitOn 44 gs2 with
  | [] => .error .invalidGs2
  | gs2First :: rest =>
    if gs2First ≠ b!"n" then .error .channelBindings
    else
      match rest with
      | [] => .error .invalidGs2
      | gs2Authzid :: _ => parseAuthzid gs2Authzid

theorem parse_parts {message h : Bytes} {is : List Bytes} (hp : OAuthParts message h is) :
    Msg.parse message =
      match parseHeader h with
      | .error e => .error e
      | .ok authzid =>
        match parseKVs none [] is with
        | .error e => .error e
        | .ok (none, _) => .error .missingToken
        | .ok (some token, fields) => .ok ⟨authzid, token, fields⟩ := by
  unfold Msg.parse
  rw [hp.eq, stripSuffix_append]
  simp only [splitOn_parts is hp.noSep.2 h hp.noSep.1]
  unfold parseHeader
  cases splitOn 44 h with
  | nil => rfl
  | cons f rest =>
    simp only
    split
    · rfl
    · cases rest <;> rfl

theorem parts_exist {message : Bytes} (h : [1, 1] <:+ message) :
    ∃ header is, OAuthParts message header is := by
  obtain ⟨body, rfl⟩ := h
  cases hp : splitOn 1 body with
  | nil => exact absurd hp (splitOn_ne_nil _ _)
  | cons p ps =>
    refine ⟨p, ps, by rw [← splitOn_cons hp], ?_, fun i hi => ?_⟩
    · exact notMem_of_mem_splitOn (b := body) (by simp [hp])
    · exact notMem_of_mem_splitOn (b := body) (by simp [hp, hi])

theorem splitOn_flag {header : Bytes} :
    (∃ rest, splitOn 44 header = b!"n" :: rest) ↔ header = b!"n" ∨ b!"n," <+: header := by
  constructor
  · rintro ⟨rest, h⟩
    have := splitOn_cons h
    cases rest with
    | nil => exact .inl (by simpa using this)
    | cons r rs =>
      refine .inr ⟨r ++ rs.flatMap (44 :: ·), ?_⟩
      rw [this]
      simp
  · rintro (rfl | ⟨r, rfl⟩)
    · exact ⟨[], by decide +kernel⟩
    · exact ⟨splitOn 44 r, by
        rw [show b!"n," ++ r = b!"n" ++ 44 :: r from rfl, splitOn_append_sep (by decide +kernel)]⟩

/-- The authorization id, if a gs2 header has one, and what comes after it. -/
theorem splitOn_authzid {header z : Bytes} :
    (∃ rest, splitOn 44 header = b!"n" :: z :: rest) ↔
      (44 : UInt8) ∉ z ∧ ∃ junk, header = b!"n," ++ z ++ junk ∧ AfterAuthzid junk := by
  constructor
  · rintro ⟨rest, h⟩
    refine ⟨notMem_of_mem_splitOn (b := header) (by simp [h]), rest.flatMap (44 :: ·), ?_, ?_⟩
    · rw [splitOn_cons h]
      simp
    · cases rest with
      | nil => exact .inl rfl
      | cons r rs => exact .inr ⟨r ++ rs.flatMap (44 :: ·), by simp⟩
  · rintro ⟨hz, junk, rfl, hj⟩
    rw [show b!"n," ++ z ++ junk = b!"n" ++ 44 :: (z ++ junk) by simp,
      splitOn_append_sep (by decide +kernel)]
    rcases hj with rfl | ⟨r, rfl⟩
    · exact ⟨[], by rw [List.append_nil, splitOn_of_notMem hz]⟩
    · exact ⟨_, by rw [splitOn_append_sep hz]⟩

theorem parseHeader_authzid {header z : Bytes} (hz : (44 : UInt8) ∉ z) {junk : Bytes}
    (h : header = b!"n," ++ z ++ junk) (hj : AfterAuthzid junk) :
    parseHeader header = parseAuthzid z := by
  obtain ⟨rest, hs⟩ := splitOn_authzid.2 ⟨hz, junk, h, hj⟩
  unfold parseHeader
  rw [hs]
  simp

theorem parseAuthzid_error {z : Bytes} {e : OParseError} :
    parseAuthzid z = .error e ↔
      (e = .invalidGs2 ∧ z ≠ [] ∧ ¬ b!"a=" <+: z) ∨
      (e = .invalidUtf8 ∧ ∃ x, z = b!"a=" ++ x ∧ NotUtf8 x) := by
  unfold parseAuthzid
  cases z with
  | nil => simp
  | cons c z =>
    simp only [List.isEmpty_cons, Bool.false_eq_true, if_false]
    cases hp : stripPrefix (b!"a=") (c :: z) with
    | none =>
      have hn := stripPrefix_eq_none.1 hp
      simp only [Except.error.injEq]
      constructor
      · rintro rfl
        exact .inl ⟨rfl, by simp, hn⟩
      · rintro (⟨rfl, -⟩ | ⟨-, x, hx, -⟩)
        · rfl
        · exact absurd ⟨x, hx.symm⟩ hn
    | some r =>
      have hr := stripPrefix_eq_some.1 hp
      rw [hr]
      dsimp only
      cases hu : fromUtf8 r with
      | none =>
        simp only [Except.error.injEq]
        constructor
        · rintro rfl
          exact .inr ⟨rfl, r, rfl, notUtf8_iff.2 hu⟩
        · rintro (⟨-, -, h⟩ | ⟨rfl, -⟩)
          · exact absurd ⟨r, rfl⟩ h
          · rfl
      | some a =>
        constructor
        · nofun
        · rintro (⟨-, -, h⟩ | ⟨-, x, hx, hn⟩)
          · exact absurd ⟨r, rfl⟩ h
          · rw [← List.append_cancel_left hx, notUtf8_iff, hu] at hn
            cases hn

theorem parseHeader_ok {header : Bytes} :
    (∃ z, parseHeader header = .ok z) ↔ OAuthHeader header := by
  constructor
  · rintro ⟨a, h⟩
    unfold parseHeader at h
    rcases hs : splitOn 44 header with _ | ⟨f, _ | ⟨z, rest⟩⟩ <;> rw [hs] at h
    · cases h
    · simp only at h
      split at h <;> cases h
    · simp only at h
      split at h
      · cases h
      · next hf =>
        cases (Decidable.not_not.1 hf : f = b!"n")
        obtain ⟨hz, junk, he, hj⟩ := splitOn_authzid.1 ⟨rest, hs⟩
        rw [parseAuthzid_eq_ok] at h
        subst h
        refine ⟨a, junk, he, fun s hs => ?_, hj⟩
        cases (hs : a = some s)
        rw [← comma_mem_bytes]
        exact fun hc => hz (List.mem_append_right _ hc)
  · rintro ⟨a, junk, he, ha, hj⟩
    refine ⟨a, ?_⟩
    rw [parseHeader_authzid ?_ he hj, parseAuthzid_eq_ok]
    cases a with
    | none => simp [gs2Authzid]
    | some a =>
      simp only [gs2Authzid, List.mem_append, comma_mem_bytes, not_or]
      exact ⟨by decide +kernel, ha a rfl⟩

theorem parseHeader_error {header : Bytes} {e : OParseError} :
    parseHeader header = .error e ↔ OAuthHeaderFault header e := by
  constructor
  · intro h
    by_cases hf : header = b!"n" ∨ b!"n," <+: header
    · obtain ⟨rest, hs⟩ := splitOn_flag.2 hf
      cases rest with
      | nil =>
        unfold parseHeader at h
        rw [hs] at h
        cases h
        exact .cut (by simpa using splitOn_cons hs)
      | cons z rest =>
        obtain ⟨hz, junk, he, hj⟩ := splitOn_authzid.1 ⟨rest, hs⟩
        rw [parseHeader_authzid hz he hj, parseAuthzid_error] at h
        rcases h with ⟨rfl, h1, h2⟩ | ⟨rfl, x, rfl, hx⟩
        · exact .authzid he hz hj h1 h2
        · refine .text (z := x) (junk := junk) ?_ (fun hc => hz (List.mem_append_right _ hc)) hj hx
          rw [he]
          simp
    · unfold parseHeader at h
      rcases hs : splitOn 44 header with _ | ⟨f, rest⟩
      · exact absurd hs (splitOn_ne_nil _ _)
      · rw [hs] at h
        simp only at h
        split at h
        · cases h
          exact .flag (fun h => hf (.inl h)) (fun h => hf (.inr h))
        · next hn =>
          cases (Decidable.not_not.1 hn : f = b!"n")
          exact absurd (splitOn_flag.1 ⟨rest, hs⟩) hf
  · intro h
    cases h with
    | flag h1 h2 =>
      unfold parseHeader
      rcases hs : splitOn 44 header with _ | ⟨f, rest⟩
      · exact absurd hs (splitOn_ne_nil _ _)
      · simp only
        rw [if_pos]
        rintro rfl
        rcases splitOn_flag.1 ⟨rest, hs⟩ with h | h
        · exact h1 h
        · exact h2 h
    | cut h =>
      subst h
      rfl
    | authzid he hz hj h1 h2 =>
      rw [parseHeader_authzid hz he hj, parseAuthzid_error]
      exact .inl ⟨rfl, h1, h2⟩
    | text he hz hj hx =>
      rename_i z junk
      rw [parseHeader_authzid (z := b!"a=" ++ z) (junk := junk) ?_ ?_ hj, parseAuthzid_error]
      · exact .inr ⟨rfl, z, rfl, hx⟩
      · simp only [List.mem_append, not_or]
        exact ⟨by decide +kernel, hz⟩
      · rw [he]
        simp

theorem parseKV_error {t : Option Str} {fs : List (Str × Str)} {kv : Bytes} {e : OParseError} :
    parseKV t fs kv = .error e ↔ OAuthItemFault kv e := by
  unfold parseKV
  cases hp : stripPrefix (b!"auth=") kv with
  | some r =>
    have hr := stripPrefix_eq_some.1 hp
    have hpre : b!"auth=" <+: kv := ⟨r, hr.symm⟩
    dsimp only
    cases hu : fromUtf8 r with
    | none =>
      constructor
      · intro h
        cases h
        exact .auth hr (notUtf8_iff.2 hu)
      · rintro (⟨-, -⟩ | ⟨h, -⟩ | ⟨h, -⟩)
        · rfl
        · exact absurd hpre h
        · exact absurd hpre h
    | some v =>
      constructor
      · nofun
      · intro h
        cases h with
        | auth hv hn =>
          rw [hr] at hv
          rw [← List.append_cancel_left hv, notUtf8_iff, hu] at hn
          cases hn
        | pair h => exact absurd hpre h
        | text h => exact absurd hpre h
  | none =>
    have hpre := stripPrefix_eq_none.1 hp
    have hlen := length_splitOn 61 kv
    have hcount : ∀ k v, splitOn 61 kv = [k, v] → kv.count 61 = 1 := by
      intro k v hs
      rw [hs] at hlen
      simpa using hlen.symm
    constructor
    · intro h
      dsimp only at h
      split at h
      · next k v hs =>
        obtain ⟨he, hk, hv⟩ := splitOn_two.1 hs
        cases hu : fromUtf8 k with
        | none =>
          rw [hu] at h
          cases h
          exact .text hpre he hk hv (.inl (notUtf8_iff.2 hu))
        | some k' =>
          rw [hu] at h
          dsimp only at h
          cases hu' : fromUtf8 v with
          | none =>
            rw [hu'] at h
            cases h
            exact .text hpre he hk hv (.inr (notUtf8_iff.2 hu'))
          | some v' =>
            rw [hu'] at h
            cases h
      · next hs =>
        cases h
        refine .pair hpre fun hc => ?_
        rw [hc] at hlen
        rcases hl : splitOn 61 kv with _ | ⟨k, _ | ⟨v, _ | _⟩⟩ <;> rw [hl] at hlen <;>
          simp at hlen
        exact hs k v hl
    · intro h
      dsimp only
      cases h with
      | auth hv => exact absurd ⟨_, hv.symm⟩ hpre
      | pair _ hc =>
        split
        · next k v hs => exact absurd (hcount k v hs) hc
        · rfl
      | text _ he hk hv hn =>
        rename_i k v _
        rw [splitOn_two.2 ⟨he, hk, hv⟩]
        dsimp only
        cases hu : fromUtf8 k with
        | none => rfl
        | some k' =>
          dsimp only
          rcases hn with hn | hn
          · rw [notUtf8_iff, hu] at hn
            cases hn
          · rw [notUtf8_iff.1 hn]

theorem parseKVs_error {t : Option Str} {fs : List (Str × Str)} {kvs : List Bytes}
    (h1 : ∀ kv ∈ kvs, (1 : UInt8) ∉ kv) {e : OParseError} :
    parseKVs t fs kvs = .error e ↔
      ∃ (good : List OAuthItem) (i : Bytes) (after : List Bytes),
        kvs = good.map OAuthItem.wire ++ i :: after ∧ (∀ g ∈ good, g.Plain) ∧
        OAuthItemFault i e := by
  induction kvs generalizing t fs with
  | nil =>
    constructor
    · nofun
    · rintro ⟨good, i, after, h, -⟩
      simp at h
  | cons kv kvs ih =>
    have hkvs : ∀ kv ∈ kvs, (1 : UInt8) ∉ kv := fun k hk => h1 k (by simp [hk])
    rw [parseKVs]
    constructor
    · intro h
      cases hk : parseKV t fs kv with
      | error e' =>
        rw [hk] at h
        cases h
        exact ⟨[], kv, kvs, rfl, by simp, parseKV_error.1 hk⟩
      | ok r =>
        obtain ⟨t₁, fs₁⟩ := r
        rw [hk] at h
        obtain ⟨g, rfl, hg, -⟩ := parseKV_ok (h1 _ (by simp)) hk
        obtain ⟨good, i, after, rfl, hp, hi⟩ := (ih hkvs).1 h
        exact ⟨g :: good, i, after, rfl, by simpa using ⟨hg, hp⟩, hi⟩
    · rintro ⟨good, i, after, he, hp, hi⟩
      cases good with
      | nil =>
        obtain ⟨rfl, rfl⟩ := List.cons.inj he
        rw [parseKV_error.2 hi]
      | cons g good =>
        obtain ⟨rfl, rfl⟩ := List.cons.inj he
        rw [parseKV_item (hp g (by simp))]
        exact (ih hkvs).2 ⟨good, i, after, rfl, fun j hj => hp j (by simp [hj]), hi⟩

/-- C87, OAUTHBEARER: the parser refuses exactly the messages with a fault, for the first one. -/
theorem C87_oauthbearer_parse (message : Bytes) (e : OParseError) :
    Msg.parse message = .error e ↔ OAuthFault message e := by
  constructor
  · intro h
    by_cases hend : [1, 1] <:+ message
    · obtain ⟨header, is, hp⟩ := parts_exist hend
      rw [parse_parts hp] at h
      cases hh : parseHeader header with
      | error e' =>
        rw [hh] at h
        cases h
        exact .header hp (parseHeader_error.1 hh)
      | ok a =>
        have hg := parseHeader_ok.1 ⟨a, hh⟩
        rw [hh] at h
        dsimp only at h
        cases hk : parseKVs none [] is with
        | error e' =>
          rw [hk] at h
          cases h
          obtain ⟨good, i, after, rfl, hgood, hi⟩ := (parseKVs_error hp.noSep.2).1 hk
          exact .item hp hg hgood hi
        | ok r =>
          obtain ⟨_ | t, fs⟩ := r
          · rw [hk] at h
            cases h
            obtain ⟨items, rfl, hpl, ht, -⟩ := (parseKVs_eq_ok hp.noSep.2).1 hk
            refine .noToken hp hg fun g hgm => ⟨hpl g hgm, ?_⟩
            rw [Option.or_none, eq_comm, List.getLast?_eq_none_iff] at ht
            exact (List.filterMap_eq_nil_iff.1 ht) g hgm
          · rw [hk] at h
            cases h
    · unfold Msg.parse at h
      rw [stripSuffix_eq_none.2 hend] at h
      cases h
      exact .notEnded hend
  · intro h
    cases h with
    | notEnded h =>
      unfold Msg.parse
      rw [stripSuffix_eq_none.2 h]
    | header hp hf => rw [parse_parts hp, parseHeader_error.2 hf]
    | item hp hg hgood hi =>
      obtain ⟨a, ha⟩ := parseHeader_ok.2 hg
      rw [parse_parts hp, ha, (parseKVs_error hp.noSep.2).2 ⟨_, _, _, rfl, hgood, hi⟩]
    | noToken hp hg hgood =>
      obtain ⟨a, ha⟩ := parseHeader_ok.2 hg
      rename_i h good
      rw [parse_parts hp, ha, (parseKVs_eq_ok hp.noSep.2 (t' := none)
        (fs' := good.filterMap OAuthItem.field?)).2 ⟨good, rfl, fun g hg => (hgood g hg).1, ?_,
          by simp⟩]
      rw [List.filterMap_eq_nil_iff.2 fun g hg => (hgood g hg).2]
      rfl

end OAuthBearer

/-! ## XOAUTH2 -/

namespace XOAuth2

theorem parse_parts {message u t : Bytes} (h : XOAuth2Parts message u t) :
    parse message =
      match fromUtf8 u with
      | none => .error (.mechanismError .xoauth2User)
      | some authid =>
        match fromUtf8 t with
        | none => .error (.mechanismError .xoauth2Token)
        | some token => .ok (authid, token) := by
  have hn : (1 : UInt8) ∉ b!"user=" ++ u := by
    rw [List.mem_append, not_or]
    exact ⟨by decide +kernel, h.noSep⟩
  have hform : message = (b!"user=" ++ u) ++ 1 :: (b!"auth=Bearer " ++ t ++ [1, 1]) := by
    rw [h.eq]
    simp
  unfold parse
  rw [hform, findIdx?_one hn]
  simp only [List.take_left, List.drop_left]
  rw [show userPrefix = b!"user=" from rfl, stripPrefix_append]
  have : 1 :: (b!"auth=Bearer " ++ t ++ [1, 1]) = authPrefix ++ (t ++ endMark) := by
    simp [authPrefix, endMark]
  rw [this, stripPrefix_append]
  simp only [Option.bind_some, stripSuffix_append]
  cases fromUtf8 u <;> rfl

theorem parse_noParts {message : Bytes} (h : ∀ u t, ¬ XOAuth2Parts message u t) :
    parse message = .error (.mechanismError .xoauth2Format) := by
  unfold parse
  cases hi : message.findIdx? (· == 1) with
  | none => rfl
  | some mid =>
    simp only
    obtain ⟨hn, r, hr⟩ := findIdx?_one_eq hi
    cases h1 : stripPrefix userPrefix (message.take mid) with
    | none => rfl
    | some u =>
      simp only
      cases h2 : (stripPrefix authPrefix (message.drop mid)).bind (stripSuffix endMark) with
      | none => rfl
      | some t =>
        have h1 := stripPrefix_eq_some.1 h1
        rw [Option.bind_eq_some_iff] at h2
        obtain ⟨x, h5, h6⟩ := h2
        have h5 := stripPrefix_eq_some.1 h5
        have h6 := stripSuffix_eq_some.1 h6
        refine absurd ⟨?_, ?_⟩ (h u t)
        · rw [← List.take_append_drop mid message, h1, h5, h6]
          simp [userPrefix, authPrefix, endMark]
        · exact fun hm => hn (h1 ▸ List.mem_append_right _ hm)

/-- C87, XOAUTH2: the parser refuses exactly the messages with a fault. -/
theorem C87_xoauth2_parse (message : Bytes) (e : SessionError) :
    parse message = .error e ↔ ∃ m, e = .mechanismError m ∧ XOAuth2Fault message m := by
  constructor
  · intro h
    by_cases hp : ∃ u t, XOAuth2Parts message u t
    · obtain ⟨u, t, hp⟩ := hp
      rw [parse_parts hp] at h
      cases hu : fromUtf8 u with
      | none =>
        rw [hu] at h
        cases h
        exact ⟨_, rfl, .user hp (notUtf8_iff.2 hu)⟩
      | some a =>
        rw [hu] at h
        dsimp only at h
        cases ht : fromUtf8 t with
        | none =>
          rw [ht] at h
          cases h
          cases bytes_of_fromUtf8 _ _ hu
          exact ⟨_, rfl, .token hp (notUtf8_iff.2 ht)⟩
        | some t =>
          rw [ht] at h
          cases h
    · have hp : ∀ u t, ¬ XOAuth2Parts message u t := fun u t h => hp ⟨u, t, h⟩
      rw [parse_noParts hp] at h
      cases h
      exact ⟨_, rfl, .format hp⟩
  · rintro ⟨m, rfl, h⟩
    cases h with
    | format h => exact parse_noParts h
    | user h hu => rw [parse_parts h, notUtf8_iff.1 hu]
    | token h ht => rw [parse_parts h, fromUtf8_bytes, notUtf8_iff.1 ht]

end XOAuth2

/-! ## PLAIN -/

namespace Plain

theorem parts_iff {message z a p : Bytes} :
    PlainParts message z a p ↔ splitOn 0 message = [z, a, p] := by
  rw [splitOn_three]
  exact ⟨fun h => ⟨h.eq, h.noNul⟩, fun h => ⟨h.1, h.2⟩⟩

theorem parts_exist {message : Bytes} (h : message.count 0 = 2) :
    ∃ z a p, PlainParts message z a p := by
  have hl := length_splitOn 0 message
  rw [h] at hl
  rcases hs : splitOn 0 message with _ | ⟨z, _ | ⟨a, _ | ⟨p, _ | _⟩⟩⟩ <;> rw [hs] at hl <;>
    simp at hl
  exact ⟨z, a, p, parts_iff.2 hs⟩

/-- A message has a fault or is of the right form. -/
theorem fault_or (prep : Str → Option Str) (message : Bytes) :
    (∃ e, PlainFault prep message e) ∨
      4 ≤ message.length ∧ ∃ z a p, PlainMessage prep message z a p := by
  by_cases hl : message.length < 4
  · exact .inl ⟨_, .short hl⟩
  by_cases hc : message.count 0 = 2
  case neg => exact .inl ⟨_, .parts hc⟩
  have hl : 4 ≤ message.length := by omega
  obtain ⟨z, a, p, hp⟩ := parts_exist hc
  cases hz : fromUtf8 z with
  | none => exact .inl ⟨_, .authzid hl hp (notUtf8_iff.2 hz)⟩
  | some z' =>
    cases bytes_of_fromUtf8 _ _ hz
    cases ha : fromUtf8 a with
    | none => exact .inl ⟨_, .authid hl hp (notUtf8_iff.2 ha)⟩
    | some a' =>
      cases bytes_of_fromUtf8 _ _ ha
      cases hpa : prep a' with
      | none => exact .inl ⟨_, .prepAuthid hl hp hpa⟩
      | some a'' =>
        by_cases he : a'' = []
        · subst he
          exact .inl ⟨_, .noAuthid hl hp hpa⟩
        have hform : message = Str.bytes z' ++ 0 :: (Str.bytes a' ++ 0 :: p) := by
          rw [hp.eq]
          simp
        cases hu : fromUtf8 p with
        | none =>
          refine .inr ⟨hl, z', a'', p, a', p, hform, hp.noNul.1, hp.noNul.2.1, hp.noNul.2.2, hpa, he,
            .inr ⟨notUtf8_iff.2 hu, rfl⟩, ?_⟩
          rintro rfl
          cases hu
        | some p' =>
          cases bytes_of_fromUtf8 _ _ hu
          cases hpp : prep p' with
          | none => exact .inl ⟨_, .prepPassword hl hp hpa he hpp⟩
          | some p'' =>
            by_cases hpe : p'' = []
            · subst hpe
              exact .inl ⟨_, .noPassword hl hp hpa he hpp⟩
            · exact .inr ⟨hl, z', a'', Str.bytes p'', a', _, hform, hp.noNul.1, hp.noNul.2.1,
                hp.noNul.2.2, hpa, he, .inl ⟨p', p'', rfl, hpp, rfl⟩,
                by rwa [Ne, Str.bytes_eq_nil]⟩

/-- With a fault the step fails with its error. -/
theorem step_fault {prep : Str → Option Str} {message : Bytes} {e : PlainError}
    (h : PlainFault prep message e) (env : Env) (s : Unit) (w : World) :
    serverStep prep env (some message) s w = (.err (.mechanismError (.plain e)), s, w) := by
  unfold serverStep
  rw [M.bind_ok (M.okOr_some ..)]
  by_cases hl : message.length < 4
  · rw [if_pos hl]
    cases h with
    | short => rfl
    | parts => rfl
    | _ => omega
  rw [if_neg hl]
  cases h with
  | short h => exact absurd h hl
  | parts h =>
    have hlen := length_splitOn 0 message
    rcases hs : splitOn 0 message with _ | ⟨z, _ | ⟨a, _ | ⟨p, _ | _⟩⟩⟩ <;> rw [hs] at hlen
    all_goals first
      | rfl
      | exact absurd (by simpa using hlen.symm) h
  | authzid _ hp hz =>
    rw [parts_iff.1 hp]
    simp only [notUtf8_iff.1 hz]
    rfl
  | authid _ hp ha =>
    rw [parts_iff.1 hp]
    simp only [fromUtf8_bytes, notUtf8_iff.1 ha]
    rw [M.bind_ok (M.okOr_some ..)]
    rfl
  | prepAuthid _ hp ha =>
    rw [parts_iff.1 hp]
    simp only [fromUtf8_bytes]
    rw [M.bind_ok (M.okOr_some ..), M.bind_ok (M.okOr_some ..), ha]
    rfl
  | noAuthid _ hp ha =>
    rw [parts_iff.1 hp]
    simp only [fromUtf8_bytes]
    rw [M.bind_ok (M.okOr_some ..), M.bind_ok (M.okOr_some ..), ha, M.bind_ok (M.okOr_some ..)]
    rfl
  | prepPassword _ hp ha he hpw =>
    rw [parts_iff.1 hp]
    simp only [fromUtf8_bytes]
    rw [M.bind_ok (M.okOr_some ..), M.bind_ok (M.okOr_some ..), ha, M.bind_ok (M.okOr_some ..),
      if_neg (by simpa using he), hpw]
    rfl
  | noPassword _ hp ha he hpw =>
    rw [parts_iff.1 hp]
    simp only [fromUtf8_bytes]
    rw [M.bind_ok (M.okOr_some ..), M.bind_ok (M.okOr_some ..), ha, M.bind_ok (M.okOr_some ..),
      if_neg (by simpa using he), hpw, M.bind_ok (M.okOr_some ..)]
    rfl

end Plain

/-! ## C87 -/

theorem log_grows {S : Type} {ses : Session S} {e : Event} {es : List Event}
    {r : Reply State × Session S} (hl : r.2.log = ses.log ++ e :: es) : r.2 ≠ ses := by
  intro h
  rw [h] at hl
  have := congrArg List.length hl
  simp at this

/-- C87, PLAIN: a server refuses a message, without asking for its validation and staying as it was,
exactly if it has a fault, and then with the error of the fault. -/
theorem C87_plain (prep : Str → Option Str) (env : Env) (ses : Session Unit) (message : Bytes)
    (sched : List WResp) (e : SessionError) :
    ses.step (Plain.server prep) env ⟨some message, sched⟩ = (⟨.err e, []⟩, ses) ↔
      ∃ f, e = .mechanismError (.plain f) ∧ PlainFault prep message f := by
  have hstep : ∀ f, PlainFault prep message f →
      ses.step (Plain.server prep) env ⟨some message, sched⟩ =
        (⟨.err (.mechanismError (.plain f)), []⟩, ses) := by
    intro f hf
    unfold Session.step Session.exec
    simp only [Plain.server, Plain.step_fault hf]
  constructor
  · intro h
    rcases Plain.fault_or prep message with ⟨f, hf⟩ | ⟨hl, z, a, p, hm⟩
    · rw [hstep f hf] at h
      cases h
      exact ⟨f, rfl, hf⟩
    · obtain ⟨es, -, hlog⟩ := (Plain.server_accepts (env := env) (ses := ses) hm hl sched).log
      exact absurd (by rw [h]) (log_grows hlog)
  · rintro ⟨f, rfl, hf⟩
    exact hstep f hf

/-- C87, PLAIN: every other message is shown to the callback. -/
theorem C87_plain_shown (prep : Str → Option Str) (env : Env) (ses : Session Unit) (message : Bytes)
    (sched : List WResp) (h : ∀ f, ¬ PlainFault prep message f) :
    ∃ z a p, PlainMessage prep message z a p ∧ ∃ ctx : Provider, ctx.Exactly (plainOffer z a p) ∧
      EndsValidated env ses ctx (.finished .no) []
        (ses.step (Plain.server prep) env ⟨some message, sched⟩) := by
  rcases Plain.fault_or prep message with ⟨f, hf⟩ | ⟨hl, z, a, p, hm⟩
  · exact absurd hf (h f)
  · exact ⟨z, a, p, hm, _, plain_provider_exactly _ _ _, Plain.server_accepts hm hl sched⟩

/-- C87, XOAUTH2. -/
theorem C87_xoauth2 (env : Env) (ses : Session OAuthSState) (hs : ses.st = .initial)
    (message : Bytes) (sched : List WResp) (e : SessionError) :
    ses.step XOAuth2.server env ⟨some message, sched⟩ = (⟨.err e, []⟩, ses) ↔
      ∃ f, e = .mechanismError f ∧ XOAuth2Fault message f := by
  rw [← XOAuth2.C87_xoauth2_parse]
  have hstep : ∀ e, XOAuth2.parse message = .error e →
      ses.step XOAuth2.server env ⟨some message, sched⟩ = (⟨.err e, []⟩, ses) := by
    intro e he
    obtain ⟨st, slot, rng, log⟩ := ses
    cases hs
    unfold Session.step Session.exec
    simp only [XOAuth2.server]
    unfold XOAuth2.serverStep
    rw [M.bind_ok (M.get_apply ..)]
    simp only
    rw [M.bind_ok (M.okOr_some ..), he]
    rfl
  constructor
  · intro h
    cases hp : XOAuth2.parse message with
    | error e' =>
      rw [hstep e' hp] at h
      cases h
      rfl
    | ok r =>
      obtain ⟨es, hlog, -⟩ := XOAuth2.server_offers (senv := env) hs hp sched
      exact absurd (by rw [h]) (log_grows hlog)
  · exact hstep e

/-- C87, OAUTHBEARER. -/
theorem C87_oauthbearer (json : OAuthBearer.Json) (env : Env) (ses : Session OAuthSState)
    (hs : ses.st = .initial) (message : Bytes) (sched : List WResp) (e : SessionError) :
    ses.step (OAuthBearer.server json) env ⟨some message, sched⟩ = (⟨.err e, []⟩, ses) ↔
      ∃ f, e = .mechanismError (.oauthParse f) ∧ OAuthFault message f := by
  have hstep : ∀ f, OAuthBearer.Msg.parse message = .error f →
      ses.step (OAuthBearer.server json) env ⟨some message, sched⟩ =
        (⟨.err (.mechanismError (.oauthParse f)), []⟩, ses) := by
    intro f hf
    obtain ⟨st, slot, rng, log⟩ := ses
    cases hs
    unfold Session.step Session.exec
    simp only [OAuthBearer.server]
    unfold OAuthBearer.serverStep
    rw [M.bind_ok (M.get_apply ..)]
    simp only
    rw [M.bind_ok (M.okOr_some ..), hf]
    rfl
  constructor
  · intro h
    cases hp : OAuthBearer.Msg.parse message with
    | error f =>
      rw [hstep f hp] at h
      cases h
      exact ⟨f, rfl, (OAuthBearer.C87_oauthbearer_parse _ _).1 hp⟩
    | ok m =>
      obtain ⟨es, hlog, -⟩ := OAuthBearer.server_offers (json := json) (senv := env) hs hp sched
      exact absurd (by rw [h]) (log_grows hlog)
  · rintro ⟨f, rfl, hf⟩
    exact hstep f ((OAuthBearer.C87_oauthbearer_parse _ _).2 hf)

/-- C87, EXTERNAL and ANONYMOUS: the only fault is a text that is none. -/
theorem C87_text (env : Env) (ses : Session Unit) (c : Call) (e : SessionError) :
    (ses.step External.server env c = (⟨.err e, []⟩, ses) ↔
      e = .mechanismError .externalUtf8 ∧ NotUtf8 (c.input.getD [])) ∧
    (ses.step Anonymous.server env c = (⟨.err e, []⟩, ses) ↔
      e = .mechanismError .anonymousUtf8 ∧ NotUtf8 (c.input.getD [])) := by
  constructor
  · rcases C11_external_server env ses c with ⟨z, hz, ctx, -, he⟩ | ⟨hn, he⟩
    · obtain ⟨es, -, hlog⟩ := he.log
      exact ⟨fun h => absurd (by rw [h]) (log_grows hlog), fun h => absurd hz (h.2 z)⟩
    · rw [he]
      exact ⟨fun h => by cases h; exact ⟨rfl, hn⟩, fun h => by rw [h.1]⟩
  · rcases C11_anonymous_server env ses c with ⟨z, hz, ctx, -, he⟩ | ⟨hn, he⟩
    · obtain ⟨es, -, hlog⟩ := he.log
      exact ⟨fun h => absurd (by rw [h]) (log_grows hlog), fun h => absurd hz (h.2 z)⟩
    · rw [he]
      exact ⟨fun h => by cases h; exact ⟨rfl, hn⟩, fun h => by rw [h.1]⟩

/-- C87, LOGIN: nor has a user name another one; every other name is answered with the question for
the password, or with an error of the writer. -/
theorem C87_login (env : Env) (ses : Session Login.SState) (hs : ses.st = .waitingForUsername)
    (name : Bytes) (sched : List WResp) :
    (NotUtf8 name → ses.step Login.server env ⟨some name, sched⟩ =
      (⟨.err (.mechanismError .loginUtf8), []⟩, ses)) ∧
    (¬ NotUtf8 name →
      (ses.step Login.server env ⟨some name, sched⟩).1.res = .ok .running ∨
      ∃ e, (ses.step Login.server env ⟨some name, sched⟩).1.res = .err (.io e)) := by
  obtain ⟨st, slot, rng, log⟩ := ses
  cases hs
  have hstep : ∀ w, Login.serverStep env (some name) .waitingForUsername w =
      (do
        let username ← M.okOr (.mechanismError .loginUtf8) (fromUtf8 name)
        M.writeAll Login.passwordPrompt
        M.set (.waitingForPassword username)
        pure .running : M Login.SState State) .waitingForUsername w := by
    intro w
    unfold Login.serverStep
    rw [M.bind_ok (M.get_apply ..)]
  unfold Session.step Session.exec
  simp only [Login.server, hstep]
  constructor
  · intro h
    rw [notUtf8_iff.1 h]
    rfl
  · intro h
    cases hu : fromUtf8 name with
    | none => exact absurd (notUtf8_iff.2 hu) h
    | some u =>
      rw [M.bind_ok (M.okOr_some ..)]
      obtain ⟨n, sc, -, -, hw | ⟨e, hw⟩⟩ := M.writeAll_cases Login.passwordPrompt
        Login.SState.waitingForUsername ⟨⟨[], sched⟩, rng, slot, log⟩
      · rw [M.bind_ok hw]
        exact .inl rfl
      · rw [M.bind_err hw]
        exact .inr ⟨e, rfl⟩

/-- C87: a message has one fault only. -/
theorem C87_one (prep : Str → Option Str) (message : Bytes) :
    (∀ e e', PlainFault prep message e → PlainFault prep message e' → e = e') ∧
    (∀ e e', XOAuth2Fault message e → XOAuth2Fault message e' → e = e') ∧
    (∀ e e', OAuthFault message e → OAuthFault message e' → e = e') := by
  refine ⟨fun e e' h h' => ?_, fun e e' h h' => ?_, fun e e' h h' => ?_⟩
  · have h1 := Plain.step_fault h (exampleEnv []) () ⟨⟨[], []⟩, id, none, []⟩
    rw [Plain.step_fault h'] at h1
    cases h1
    rfl
  · have h1 := (XOAuth2.C87_xoauth2_parse message _).2 ⟨e, rfl, h⟩
    rw [(XOAuth2.C87_xoauth2_parse message _).2 ⟨e', rfl, h'⟩] at h1
    cases h1
    rfl
  · have h1 := (OAuthBearer.C87_oauthbearer_parse message _).2 h
    rw [(OAuthBearer.C87_oauthbearer_parse message _).2 h'] at h1
    cases h1
    rfl

/-- C87: two of the documented errors are never given: by a PLAIN server that the message contains
a NUL byte too many (it says that the format is bad), by an OAUTHBEARER server that a part is
missing. -/
theorem C87_unused (prep : Str → Option Str) (message : Bytes) :
    ¬ PlainFault prep message .containsNull ∧ ¬ OAuthFault message .missingPart := by
  refine ⟨nofun, fun h => ?_⟩
  cases h with
  | header _ h => cases h
  | item _ _ _ h => cases h

/-! ## Messages with faults -/

/-- An authentication id that preparation leaves nothing of. -/
example : PlainFault (fun s => if s = c!"-" then some [] else some s) (b!"\x00-\x00pw") .empty :=
  .noAuthid (z := []) (a := c!"-") (p := b!"pw") (by decide) ⟨by decide +kernel, by decide⟩ rfl

/-- A password that is refused. -/
example : PlainFault (fun s => if s = c!"p\n" then none else some s) (b!"\x00tim\x00p\n") .saslprep :=
  .prepPassword (z := []) (a := c!"tim") (p := c!"p\n") (a' := c!"tim") (by decide)
    ⟨by decide +kernel, by decide +kernel⟩ rfl (by decide) rfl

example : XOAuth2Fault (b!"user=tim\x01auth=Basic x\x01\x01") .xoauth2Format := by
  obtain ⟨m, hm, h⟩ := (XOAuth2.C87_xoauth2_parse (b!"user=tim\x01auth=Basic x\x01\x01") _).1 rfl
  cases hm
  exact h

/-- The client asks for channel binding. -/
example : OAuthFault (b!"p=tls-exporter,,\x01auth=Bearer x\x01\x01") .channelBindings :=
  .header (h := b!"p=tls-exporter,,") (is := [b!"auth=Bearer x"])
    ⟨by decide +kernel, by decide, by decide⟩ (.flag (by decide) (by decide))

/-- A field with two equals signs. -/
example : OAuthFault (b!"n,,\x01host=a=b\x01auth=Bearer x\x01\x01") .invalidKVPair :=
  .item (h := b!"n,,") (good := []) (i := b!"host=a=b") (after := [b!"auth=Bearer x"])
    ⟨by decide +kernel, by decide, by decide⟩ ⟨none, b!",", by decide +kernel, by simp, .inr ⟨[], rfl⟩⟩
    (by simp) (.pair (by decide) (by decide))

/-- No token. -/
example : OAuthFault (b!"n,a=u,\x01host=h\x01\x01") .missingToken :=
  .noToken (h := b!"n,a=u,") (good := [.field (c!"host") (c!"h")])
    ⟨by decide +kernel, by decide, by decide +kernel⟩
    ⟨some (c!"u"), b!",", by decide +kernel, by simp, .inr ⟨[], rfl⟩⟩
    (by simp [OAuthItem.Plain, PlainKV, OAuthItem.auth?])

end Rsasl

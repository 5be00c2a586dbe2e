/-
C52: exactly which messages an OAUTHBEARER server accepts.
-/
import Verif.Props.OAuthBearer
import Verif.Spec.Examples

namespace Rsasl

/-! ## Specification -/

/-- One part of an OAUTHBEARER message after its gs2 header. -/
inductive Spec.OAuthItem where
  | auth (value : Str)
  | field (key value : Str)

namespace Spec.OAuthItem

/-- How it is written. -/
def wire : OAuthItem → Bytes
  | auth v => b!"auth=" ++ Str.bytes v
  | field k v => kv (k, v)

/-- Without the separators; and a field is not called `auth`. -/
def Plain : OAuthItem → Prop
  | auth v => '\x01' ∉ v
  | field k v => PlainKV (k, v)

/-- The value of an `auth` item. -/
def auth? : OAuthItem → Option Str
  | auth v => some v
  | field .. => none

/-- The key and value of a field. -/
def field? : OAuthItem → Option (Str × Str)
  | auth _ => none
  | field k v => some (k, v)

end Spec.OAuthItem

/-- `bytes` is an OAUTHBEARER message saying `authzid`, `token` and `fields`: a gs2 header for "no
channel binding", items each after a byte 1, and two bytes 1. The token is the last `auth` item.
What follows a second comma in the gs2 header is not looked at. -/
def Spec.OAuthWire (bytes : Bytes) (authzid : Option Str) (token : Str)
    (fields : List (Str × Str)) : Prop :=
  ∃ (junk : Bytes) (items : List OAuthItem),
    bytes = b!"n," ++ gs2Authzid authzid ++ junk ++ items.flatMap (fun i => 1 :: i.wire) ++ [1, 1] ∧
    (∀ a ∈ authzid, ',' ∉ a ∧ '\x01' ∉ a) ∧
    (junk = [] ∨ ∃ r, junk = 44 :: r ∧ (1 : UInt8) ∉ r) ∧
    (∀ i ∈ items, i.Plain) ∧
    (items.filterMap OAuthItem.auth?).getLast? = some token ∧
    items.filterMap OAuthItem.field? = fields

/-! ## Parsing -/

namespace OAuthBearer

open Spec

theorem parseKV_ok {t t' : Option Str} {fs fs' : List (Str × Str)} {kv : Bytes}
    (h1 : (1 : UInt8) ∉ kv) (h : parseKV t fs kv = .ok (t', fs')) :
    ∃ i : OAuthItem, kv = i.wire ∧ i.Plain ∧ t' = i.auth?.or t ∧ fs' = fs ++ i.field?.toList := by
  unfold parseKV at h
  cases hp : stripPrefix (b!"auth=") kv with
  | some r =>
    rw [hp] at h
    simp only at h
    have hk := stripPrefix_eq_some.1 hp
    cases hu : fromUtf8 r with
    | none => rw [hu] at h; cases h
    | some v =>
      rw [hu] at h
      cases h
      rw [fromUtf8_eq_some_iff] at hu
      subst hu
      refine ⟨.auth v, hk, ?_, rfl, by simp [OAuthItem.field?]⟩
      show '\x01' ∉ v
      rw [← one_mem_bytes]
      intro hc
      exact h1 (hk ▸ List.mem_append_right _ hc)
  | none =>
    rw [hp] at h
    simp only at h
    rcases hs : splitOn 61 kv with _ | ⟨k, _ | ⟨v, _ | _⟩⟩ <;> rw [hs] at h <;> try cases h
    simp only at h
    cases hu : fromUtf8 k with
    | none => rw [hu] at h; cases h
    | some k' =>
      rw [hu] at h
      simp only at h
      cases hv : fromUtf8 v with
      | none => rw [hv] at h; cases h
      | some v' =>
        rw [hv] at h
        cases h
        rw [fromUtf8_eq_some_iff] at hu hv
        subst hu hv
        obtain ⟨he, hk, hv⟩ := splitOn_two.1 hs
        refine ⟨.field k' v', by simpa [OAuthItem.wire, Spec.kv] using he, ?_, rfl, rfl⟩
        rw [he] at h1
        simp only [List.mem_append, List.mem_cons, one_mem_bytes, not_or] at h1
        refine ⟨h1.1, by rwa [equals_mem_bytes] at hk, ?_, h1.2.2, by rwa [equals_mem_bytes] at hv⟩
        rintro h
        simp only at h
        subst h
        rw [he, show Str.bytes (c!"auth") ++ 61 :: Str.bytes v' = b!"auth=" ++ Str.bytes v' from rfl,
          stripPrefix_append] at hp
        cases hp

theorem parseKV_item {i : OAuthItem} (h : i.Plain) (t : Option Str) (fs : List (Str × Str)) :
    parseKV t fs i.wire = .ok (i.auth?.or t, fs ++ i.field?.toList) := by
  cases i with
  | auth v =>
    simp only [parseKV, OAuthItem.wire, stripPrefix_append, fromUtf8_bytes, OAuthItem.auth?,
      OAuthItem.field?]
    simp
  | field k v => exact parseKV_plain h t fs

theorem parseKVs_eq_ok {t t' : Option Str} {fs fs' : List (Str × Str)} {kvs : List Bytes}
    (h1 : ∀ kv ∈ kvs, (1 : UInt8) ∉ kv) :
    parseKVs t fs kvs = .ok (t', fs') ↔
      ∃ items : List OAuthItem, kvs = items.map OAuthItem.wire ∧ (∀ i ∈ items, i.Plain) ∧
        t' = ((items.filterMap OAuthItem.auth?).getLast?).or t ∧
        fs' = fs ++ items.filterMap OAuthItem.field? := by
  induction kvs generalizing t fs with
  | nil =>
    constructor
    · intro h
      cases h
      exact ⟨[], rfl, by simp, by simp, by simp⟩
    · rintro ⟨items, hi, -, rfl, rfl⟩
      have : items = [] := by simpa using hi.symm
      subst this
      simp [parseKVs]
  | cons kv kvs ih =>
    have hor : ∀ (i : OAuthItem) (items : List OAuthItem),
        (((i :: items).filterMap OAuthItem.auth?).getLast?).or t =
          ((items.filterMap OAuthItem.auth?).getLast?).or (i.auth?.or t) := by
      intro i items
      cases i with
      | auth v =>
        simp only [List.filterMap_cons, OAuthItem.auth?, Option.some_or, List.getLast?_cons]
        cases (items.filterMap OAuthItem.auth?).getLast? <;> rfl
      | field k v => simp [OAuthItem.auth?]
    have hfs : ∀ (i : OAuthItem) (items : List OAuthItem),
        fs ++ (i :: items).filterMap OAuthItem.field? =
          (fs ++ i.field?.toList) ++ items.filterMap OAuthItem.field? := by
      intro i items
      cases i <;> simp [OAuthItem.field?, List.filterMap_cons]
    have hkvs : ∀ kv ∈ kvs, (1 : UInt8) ∉ kv := fun k hk => h1 k (by simp [hk])
    constructor
    · intro h
      rw [parseKVs] at h
      cases hk : parseKV t fs kv with
      | error e => rw [hk] at h; cases h
      | ok r =>
        obtain ⟨t₁, fs₁⟩ := r
        rw [hk] at h
        obtain ⟨i, rfl, hp, rfl, rfl⟩ := parseKV_ok (h1 _ (by simp)) hk
        obtain ⟨items, rfl, hps, rfl, rfl⟩ := (ih hkvs).1 h
        exact ⟨i :: items, rfl, by simpa using ⟨hp, hps⟩, (hor _ _).symm, (hfs _ _).symm⟩
    · rintro ⟨items, hi, hp, rfl, rfl⟩
      cases items with
      | nil => cases hi
      | cons i items =>
        obtain ⟨rfl, rfl⟩ := List.cons.inj hi
        rw [parseKVs, parseKV_item (hp i (by simp))]
        exact (ih hkvs).2 ⟨items, rfl, fun j hj => hp j (by simp [hj]), hor _ _, hfs _ _⟩

theorem wire_notMem {i : OAuthItem} (h : i.Plain) : (1 : UInt8) ∉ i.wire := by
  cases i with
  | auth v =>
    have h : '\x01' ∉ v := h
    simp only [OAuthItem.wire, List.mem_append, one_mem_bytes, not_or]
    exact ⟨by decide +kernel, h⟩
  | field k v =>
    simp only [OAuthItem.wire, kv, List.mem_append, one_mem_bytes, not_or]
    exact ⟨⟨h.1, by decide +kernel⟩, h.2.2.2.1⟩

theorem splitOn_items (items : List OAuthItem) (h : ∀ i ∈ items, i.Plain) (pre : Bytes)
    (hpre : (1 : UInt8) ∉ pre) :
    splitOn 1 (pre ++ items.flatMap fun i => 1 :: i.wire) = pre :: items.map OAuthItem.wire := by
  induction items generalizing pre with
  | nil => simp [splitOn_of_notMem hpre]
  | cons i items ih =>
    rw [List.flatMap_cons, List.map_cons, List.cons_append, splitOn_append_sep hpre,
      ih (fun j hj => h j (by simp [hj])) _ (wire_notMem (h i (by simp)))]

/-- Splitting, turned round: the first part, then each other part after a separator. -/
theorem splitOn_cons {sep : UInt8} {b p : Bytes} {ps : List Bytes} (h : splitOn sep b = p :: ps) :
    b = p ++ ps.flatMap (sep :: ·) := by
  have hi := intercalate_splitOn sep b
  rw [h] at hi
  rw [← hi]
  clear hi h
  induction ps generalizing p with
  | nil => simp [List.intercalate]
  | cons q qs ih =>
    have := ih (p := q)
    simp only [List.intercalate, List.intersperse, List.flatMap_cons] at this ⊢
    cases qs <;> simp at this ⊢
    exact this

theorem parseAuthzid_eq_ok {b : Bytes} {authzid : Option Str} :
    parseAuthzid b = .ok authzid ↔ b = gs2Authzid authzid := by
  unfold parseAuthzid
  cases b with
  | nil =>
    constructor
    · intro h; cases h; rfl
    · intro h
      cases authzid with
      | none => rfl
      | some a => simp [gs2Authzid] at h
  | cons x b =>
    simp only [List.isEmpty_cons, Bool.false_eq_true, if_false]
    cases hp : stripPrefix (b!"a=") (x :: b) with
    | none =>
      constructor
      · nofun
      · intro h
        cases authzid with
        | none => simp [gs2Authzid] at h
        | some a =>
          rw [h, gs2Authzid, stripPrefix_append] at hp
          cases hp
    | some r =>
      rw [stripPrefix_eq_some.1 hp]
      dsimp only
      cases hu : fromUtf8 r with
      | none =>
        constructor
        · intro h; cases h
        · intro h
          cases authzid with
          | none => simp [gs2Authzid] at h
          | some a =>
            have := List.append_cancel_left h
            rw [this, fromUtf8_bytes] at hu
            cases hu
      | some a' =>
        dsimp only
        rw [fromUtf8_eq_some_iff] at hu
        subst hu
        constructor
        · intro h; cases h; rfl
        · intro h
          cases authzid with
          | none => simp [gs2Authzid] at h
          | some a => rw [Str.bytes_injective (List.append_cancel_left h)]

/-- C52: the parser accepts exactly the messages of `OAuthWire`, and reads them as meant. -/
theorem C52_parse (bytes : Bytes) (authzid : Option Str) (token : Str) (fields : List (Str × Str)) :
    Msg.parse bytes = .ok ⟨authzid, token, fields⟩ ↔ OAuthWire bytes authzid token fields := by
  constructor
  · intro h
    unfold Msg.parse at h
    cases hs : stripSuffix [1, 1] bytes with
    | none => rw [hs] at h; cases h
    | some body =>
      rw [hs] at h
      rw [stripSuffix_eq_some.1 hs]
      simp only at h
      cases hp : splitOn 1 body with
      | nil => rw [hp] at h; cases h
      | cons gs2 it =>
        rw [hp] at h
        simp only at h
        have hbody := splitOn_cons hp
        have hgs2 : (1 : UInt8) ∉ gs2 := notMem_of_mem_splitOn (b := body) (by simp [hp])
        have hit : ∀ kv ∈ it, (1 : UInt8) ∉ kv := fun kv hk =>
          notMem_of_mem_splitOn (b := body) (by simp [hp, hk])
        rcases hg : splitOn 44 gs2 with _ | ⟨f, _ | ⟨az, rest⟩⟩ <;> rw [hg] at h
        · cases h
        · simp only at h
          split at h <;> cases h
        · simp only at h
          split at h
          · cases h
          · next hf =>
            have hf : f = b!"n" := Decidable.not_not.1 hf
            subst hf
            have hge := splitOn_cons hg
            have haz : (44 : UInt8) ∉ az := notMem_of_mem_splitOn (b := gs2) (by simp [hg])
            cases ha : parseAuthzid az with
            | error e => rw [ha] at h; cases h
            | ok a =>
              rw [ha] at h
              simp only at h
              rw [parseAuthzid_eq_ok] at ha
              subst ha
              cases hk : parseKVs none [] it with
              | error e => rw [hk] at h; cases h
              | ok r =>
                obtain ⟨_ | t, fs⟩ := r
                · rw [hk] at h; cases h
                · rw [hk] at h
                  cases h
                  obtain ⟨items, rfl, hpl, ht, hfs⟩ := (parseKVs_eq_ok hit).1 hk
                  have hgs2' := hgs2
                  rw [hge] at hgs2'
                  simp only [List.flatMap_cons, List.mem_append, List.mem_cons, not_or] at hgs2'
                  refine ⟨rest.flatMap (44 :: ·), items, ?_, ?_, ?_, hpl, by simpa using ht.symm,
                    by simpa using hfs.symm⟩
                  · rw [hbody, hge]
                    simp [List.flatMap_map]
                  · intro a haa
                    have haa : authzid = some a := haa
                    subst haa
                    rw [← comma_mem_bytes, ← one_mem_bytes]
                    refine ⟨fun hc => haz ?_, fun hc => hgs2'.2.1.2 ?_⟩ <;>
                      exact List.mem_append_right _ hc
                  · cases rest with
                    | nil => exact .inl rfl
                    | cons r rs =>
                      refine .inr ⟨r ++ rs.flatMap (44 :: ·), by simp, ?_⟩
                      have := hgs2'.2.2
                      simp only [List.flatMap_cons, List.cons_append, List.mem_cons,
                        List.mem_append, not_or] at this
                      simp only [List.mem_append, not_or]
                      exact this.2
  · rintro ⟨junk, items, rfl, ha, hj, hp, ht, rfl⟩
    have haz1 : (1 : UInt8) ∉ gs2Authzid authzid := by
      cases authzid with
      | none => simp [gs2Authzid]
      | some a =>
        simp only [gs2Authzid, List.mem_append, one_mem_bytes, not_or]
        exact ⟨by decide +kernel, (ha a rfl).2⟩
    have haz2 : (44 : UInt8) ∉ gs2Authzid authzid := by
      cases authzid with
      | none => simp [gs2Authzid]
      | some a =>
        simp only [gs2Authzid, List.mem_append, comma_mem_bytes, not_or]
        exact ⟨by decide +kernel, (ha a rfl).1⟩
    have hj1 : (1 : UInt8) ∉ junk := by
      rcases hj with rfl | ⟨r, rfl, hr⟩
      · simp
      · simpa using hr
    unfold Msg.parse
    rw [stripSuffix_append]
    simp only
    rw [splitOn_items items hp _ (by
      simp only [List.mem_append, not_or]; exact ⟨⟨by decide +kernel, haz1⟩, hj1⟩)]
    have hsplit : ∃ rest, splitOn 44 (b!"n," ++ gs2Authzid authzid ++ junk) =
        b!"n" :: gs2Authzid authzid :: rest := by
      rw [show b!"n," ++ gs2Authzid authzid ++ junk = b!"n" ++ 44 :: (gs2Authzid authzid ++ junk) by
        simp, splitOn_append_sep (by decide +kernel)]
      rcases hj with rfl | ⟨r, rfl, hr⟩
      · exact ⟨[], by rw [List.append_nil, splitOn_of_notMem haz2]⟩
      · exact ⟨_, by rw [splitOn_append_sep haz2]⟩
    obtain ⟨rest, hsplit⟩ := hsplit
    simp only [hsplit]
    rw [if_neg (by simp), parseAuthzid_eq_ok.2 rfl]
    have hk := (parseKVs_eq_ok (t := none) (fs := []) (t' := some token)
      (fs' := items.filterMap OAuthItem.field?) (kvs := items.map OAuthItem.wire) (by
        simp only [List.mem_map, forall_exists_index, and_imp, forall_apply_eq_imp_iff₂]
        exact fun i hi => wire_notMem (hp i hi))).2 ⟨items, rfl, hp, by simp [ht], by simp⟩
    simp only [hk]

/-- C52: a message in any other form is refused, without any callback or validate call and without
output. -/
theorem C52_rejects (json : Json) (senv : Env) (server : Session OAuthSState) (c : Call)
    (hs : server.st = .initial)
    (h : ∀ b authzid token fields, c.input = some b → ¬ OAuthWire b authzid token fields) :
    ∃ e, server.step (OAuthBearer.server json) senv c = (⟨.err e, []⟩, server) := by
  obtain ⟨st, slot, rng, log⟩ := server
  simp only at hs
  subst hs
  unfold Session.step Session.exec
  simp only [OAuthBearer.server]
  unfold serverStep
  rw [M.bind_ok (M.get_apply ..)]
  simp only
  cases hi : c.input with
  | none => exact ⟨_, rfl⟩
  | some b =>
    rw [M.bind_ok (M.okOr_some ..)]
    cases hp : Msg.parse b with
    | error e => exact ⟨_, rfl⟩
    | ok m =>
      obtain ⟨a, t, f⟩ := m
      exact absurd ((C52_parse _ _ _ _).1 hp) (h b a t f hi)

/-- C52: for a message in this form the callbacks are offered just what it says. -/
theorem C52_accepts (json : Json) (senv : Env) (server : Session OAuthSState) (b : Bytes)
    (sched : List WResp) (authzid : Option Str) (token : Str) (fields : List (Str × Str))
    (hs : server.st = .initial) (h : OAuthWire b authzid token fields) :
    ∃ ctx rest, ctx.Exactly (oauthbearerOffer authzid token fields) ∧
      (server.step (OAuthBearer.server json) senv ⟨some b, sched⟩).2.log =
        server.log ++ .asked .oauthBearerValidate ctx :: rest ∧ askedProps rest = [] ∧
      (validations rest = [] ∨ validations rest = [ctx]) := by
  obtain ⟨rest, h1, h2, h3⟩ := server_offers (json := json) (senv := senv) hs
    ((C52_parse _ _ _ _).2 h) sched
  exact ⟨_, rest, provider_exactly _, h1, h2, h3⟩

/-- A message of this form. -/
example : OAuthWire (b!"n,a=u,\x01host=h\x01auth=Bearer x\x01\x01") (some (c!"u")) (c!"Bearer x")
    [(c!"host", c!"h")] :=
  ⟨[44], [.field (c!"host") (c!"h"), .auth (c!"Bearer x")], by decide +kernel, by simp,
    .inr ⟨[], rfl, by simp⟩, by simp [OAuthItem.Plain, PlainKV], rfl, rfl⟩

/-- A message asking for channel binding is not of this form. -/
example (authzid : Option Str) (token : Str) (fields : List (Str × Str)) :
    ¬ OAuthWire (b!"p=tls-unique,,\x01auth=Bearer x\x01\x01") authzid token fields := by
  rw [← C52_parse]
  intro h
  exact nomatch h

/-! ## The round trip, exactly -/

theorem append_sep_inj_right {α : Type} {x : α} {a b c d : List α} (hc : x ∉ c) (hd : x ∉ d)
    (h : a ++ x :: c = b ++ x :: d) : a = b ∧ c = d := by
  have h := congrArg List.reverse h
  simp only [List.reverse_append, List.reverse_cons, List.append_assoc, List.cons_append,
    List.nil_append] at h
  obtain ⟨h1, h2⟩ := append_sep_inj (by simpa using hc) (by simpa using hd) h
  exact ⟨List.reverse_inj.1 h2, List.reverse_inj.1 h1⟩

theorem wire_auth {i : OAuthItem} (hi : i.Plain) {v : Str}
    (h : i.wire = b!"auth=" ++ Str.bytes v) : i = .auth v := by
  cases i with
  | auth w => rw [Str.bytes_injective (List.append_cancel_left h)]
  | field k w =>
    exfalso
    obtain ⟨-, h2, h3, -, -⟩ := hi
    have h : Str.bytes k ++ 61 :: Str.bytes w = b!"auth" ++ 61 :: Str.bytes v := by
      simpa [OAuthItem.wire, kv] using h
    have := (append_sep_inj (by rwa [equals_mem_bytes]) (by decide +kernel) h).1
    exact h3 (Str.bytes_injective this)

/-- The token that is read from a client's message: the one it was given with `Bearer ` in front, if
that has no `^A`; otherwise at most a part of it. -/
theorem parse_message_token {authzid : Option Str} {token : Str} {kvs : List (Str × Str)} {m : Msg}
    (h : Msg.parse (oauthbearerMessage authzid token kvs) = .ok m) :
    ('\x01' ∉ token → m.token = c!"Bearer " ++ token) ∧ '\x01' ∉ m.token := by
  obtain ⟨a, t, f⟩ := m
  obtain ⟨junk, items, h1, h2, h3, h4, h5, h6⟩ := (C52_parse _ _ _ _).1 h
  have hmem : OAuthItem.auth t ∈ items := by
    have := List.mem_of_getLast? h5
    obtain ⟨i, hi, ht⟩ := List.mem_filterMap.1 this
    cases i <;> cases ht
    exact hi
  refine ⟨fun hn => ?_, h4 _ hmem⟩
  obtain ⟨init, last, rfl⟩ : ∃ init last, items = init ++ [last] := by
    rcases List.eq_nil_or_concat items with rfl | ⟨i, l, h⟩
    · cases hmem
    · exact ⟨i, l, by rw [h, List.concat_eq_append]⟩
  have hb : b!"Bearer " ++ Str.bytes token = Str.bytes (c!"Bearer " ++ token) := by
    rw [Str.bytes_append]; rfl
  have hform : oauthbearerMessage authzid token kvs =
      (b!"n," ++ gs2Authzid authzid ++ b!"," ++ Spec.kvs kvs ++
        1 :: (b!"auth=" ++ Str.bytes (c!"Bearer " ++ token))) ++ [1, 1] := by
    rw [← hb]
    simp [oauthbearerMessage]
  rw [hform, List.flatMap_append, List.flatMap_cons, List.flatMap_nil, List.append_nil,
    ← List.append_assoc] at h1
  have h1 := List.append_cancel_right h1
  have hl := (append_sep_inj_right (by
      rw [List.mem_append, one_mem_bytes]
      rintro (h | h)
      · exact absurd h (by decide +kernel)
      · rw [List.mem_append] at h
        rcases h with h | h
        · exact absurd h (by decide)
        · exact hn h) (wire_notMem (h4 last (by simp))) h1).2
  have := wire_auth (h4 last (by simp)) hl.symm
  subst this
  simp only [List.filterMap_append, List.filterMap_cons, List.filterMap_nil, OAuthItem.auth?,
    List.getLast?_append, List.getLast?_singleton, Option.some_or, Option.some.injEq] at h5
  exact h5.symm

/-- What the server makes of a client's first message. -/
theorem first_message (json : Json) {cenv : Env} (senv : Env) {authzid : Option Str} {token : Str}
    {kvs : Option (List (Str × Str))} (ha : cenv.Offers .authzId authzid)
    (hk : cenv.Offers .oauthBearerKV kvs) (ht : cenv.Gives .oauthBearerToken token)
    (client : Session OAuthCState) (server : Session OAuthSState) (input : Option Bytes)
    (sched sched' : List WResp) (hc : client.st = .initial) (hs : server.st = .initial)
    (hw : Cooperative sched) :
    let c := client.step (OAuthBearer.client json) cenv ⟨input, sched⟩
    let r := server.step (OAuthBearer.server json) senv ⟨some c.1.out, sched'⟩
    ∀ ctx rest, r.2.log = server.log ++ .asked .oauthBearerValidate ctx :: rest →
      ∃ m, Msg.parse (oauthbearerMessage authzid token (kvs.getD [])) = .ok m ∧
        ctx.Exactly (oauthbearerOffer m.authzid m.token m.fields) := by
  have hd := client_does (json := json) ha hk ht input
  rw [← hc] at hd
  obtain ⟨es, _, he⟩ := hd.exec hw
  have he : client.step (OAuthBearer.client json) cenv ⟨input, sched⟩ = _ := he
  simp only [he]
  intro ctx rest hl
  cases hp : Msg.parse (oauthbearerMessage authzid token (kvs.getD [])) with
  | ok m =>
    obtain ⟨rest', h1, -⟩ := server_offers (json := json) (senv := senv) hs hp sched'
    have := hl.symm.trans h1
    simp only [List.append_cancel_left_eq, List.cons.injEq, Event.asked.injEq, true_and] at this
    obtain ⟨h, -⟩ := this
    subst h
    exact ⟨m, rfl, provider_exactly m⟩
  | error e =>
    exfalso
    obtain ⟨e', hr⟩ := C52_rejects json senv server ⟨some (oauthbearerMessage authzid token
      (kvs.getD [])), sched'⟩ hs (fun b a t f hb hw => by
        cases hb
        rw [← C52_parse, hp] at hw
        cases hw)
    rw [hr] at hl
    simp at hl

/-- C14 exactly, but for the token's prefix: the server's callbacks are offered the values the client was
given (the token with `Bearer ` in front) if and only if these have none of the separators
and no key is `auth`. -/
theorem C14_exact (json : Json) (cenv senv : Env) (authzid : Option Str) (token : Str)
    (kvs : Option (List (Str × Str))) (ha : cenv.Offers .authzId authzid)
    (hk : cenv.Offers .oauthBearerKV kvs) (ht : cenv.Gives .oauthBearerToken token)
    (client : Session OAuthCState) (server : Session OAuthSState) (input : Option Bytes)
    (sched sched' : List WResp) (hc : client.st = .initial) (hs : server.st = .initial)
    (hw : Cooperative sched) :
    let c := client.step (OAuthBearer.client json) cenv ⟨input, sched⟩
    let r := server.step (OAuthBearer.server json) senv ⟨some c.1.out, sched'⟩
    (∃ ctx rest, ctx.Exactly (oauthbearerOffer authzid (c!"Bearer " ++ token) (kvs.getD [])) ∧
      r.2.log = server.log ++ .asked .oauthBearerValidate ctx :: rest) ↔
    (∀ a ∈ authzid, ',' ∉ a ∧ '\x01' ∉ a) ∧ '\x01' ∉ token ∧ ∀ kv ∈ kvs.getD [], PlainKV kv := by
  intro c r
  constructor
  · rintro ⟨ctx, rest, hx, hl⟩
    obtain ⟨⟨a, t, f⟩, hp, hx'⟩ := first_message json senv ha hk ht client server input sched sched'
      hc hs hw ctx rest hl
    have e1 := (hx .authzId).symm.trans (hx' .authzId)
    have e2 := (hx .oauthBearerToken).symm.trans (hx' .oauthBearerToken)
    have e3 := (hx .oauthBearerKV).symm.trans (hx' .oauthBearerKV)
    simp only [oauthbearerOffer, Option.some.injEq] at e1 e2 e3
    subst e1 e2 e3
    have htok := (parse_message_token hp).2
    obtain ⟨junk, items, -, h2, -, h4, -, h6⟩ := (C52_parse _ _ _ _).1 hp
    refine ⟨h2, fun h => htok (List.mem_append_right _ h), fun kv hkv => ?_⟩
    rw [← h6] at hkv
    obtain ⟨i, hi, he⟩ := List.mem_filterMap.1 hkv
    have := h4 i hi
    cases i with
    | auth v => cases he
    | field k v => cases he; exact this
  · rintro ⟨h1, h2, h3⟩
    obtain ⟨-, -, ctx, rest, h, h', -⟩ := C14_partial json cenv senv authzid token kvs ha hk ht
      h1 h2 h3 client server input sched sched' hc hs hw
    exact ⟨ctx, rest, h, h'⟩

/-- C14, the token: whatever the values, the server's callbacks are never offered the token the
client was given. -/
theorem C14_token_never (json : Json) (cenv senv : Env) (authzid : Option Str) (token : Str)
    (kvs : Option (List (Str × Str))) (ha : cenv.Offers .authzId authzid)
    (hk : cenv.Offers .oauthBearerKV kvs) (ht : cenv.Gives .oauthBearerToken token)
    (client : Session OAuthCState) (server : Session OAuthSState) (input : Option Bytes)
    (sched sched' : List WResp) (hc : client.st = .initial) (hs : server.st = .initial)
    (hw : Cooperative sched) :
    let c := client.step (OAuthBearer.client json) cenv ⟨input, sched⟩
    let r := server.step (OAuthBearer.server json) senv ⟨some c.1.out, sched'⟩
    ¬ ∃ ctx rest, r.2.log = server.log ++ .asked .oauthBearerValidate ctx :: rest ∧
      ctx.getRef .oauthBearerToken = some token := by
  rintro c r ⟨ctx, rest, hl, he⟩
  obtain ⟨m, hp, hx⟩ := first_message json senv ha hk ht client server input sched sched' hc hs hw
    ctx rest hl
  rw [hx .oauthBearerToken] at he
  have he : m.token = token := Option.some.inj he
  obtain ⟨h1, h2⟩ := parse_message_token hp
  have := h1 (he ▸ h2)
  rw [he] at this
  have := congrArg List.length this
  simp at this
  omega

end OAuthBearer

end Rsasl

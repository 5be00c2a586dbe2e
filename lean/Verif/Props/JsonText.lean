/-
C102: what an OAUTHBEARER client reads of a server's error. `Model/Json` has `serde_json` in place of the
parameter of `Model/Mech/OAuth`.
-/
import Verif.Proofs.Json
import Verif.Props.OAuthErrors

namespace Rsasl.SerdeJson

open Spec

/-! ### Which texts are read, and as what -/

/-- C102: the text is read as this error exactly if it is a JSON text of it. -/
theorem C102_reads (b : Bytes) (e : OAuthBearerError) : de b = some e ↔ ErrorJson b e := de_iff b e

/-- C102: no text is the text of two errors. -/
theorem C102_one {b : Bytes} {e e' : OAuthBearerError} (h : ErrorJson b e) (h' : ErrorJson b e') : e = e' :=
  Option.some.inj (((C102_reads b e).2 h).symm.trans ((C102_reads b e').2 h'))

/-- C102: a text of no error is refused. -/
theorem C102_refuses (b : Bytes) : de b = none ↔ ∀ e, ¬ ErrorJson b e := by
  cases h : de b with
  | none => simp only [true_iff]; intro e he; rw [(C102_reads b e).2 he] at h; cases h
  | some e => simp only [reduceCtorEq, false_iff]; exact fun hn => hn e ((C102_reads b e).1 h)

theorem statuses_asIs {t : Bytes} {es : List Entry} (h : Entries t es) :
    (∀ s ∈ Entry.statuses es, ∀ c ∈ s, ¬ NeedsEscape c) ∧
    (∀ o ∈ Entry.scopes es, ∀ s ∈ o, ∀ c ∈ s, ¬ NeedsEscape c) ∧
    ∀ o ∈ Entry.configs es, ∀ s ∈ o, ∀ c ∈ s, ¬ NeedsEscape c := by
  have one : ∀ {key t e}, EntryText key t e →
      (∀ s ∈ Entry.statuses [e], ∀ c ∈ s, ¬ NeedsEscape c) ∧
      (∀ o ∈ Entry.scopes [e], ∀ s ∈ o, ∀ c ∈ s, ¬ NeedsEscape c) ∧
      ∀ o ∈ Entry.configs [e], ∀ s ∈ o, ∀ c ∈ s, ¬ NeedsEscape c := by
    intro key t e h
    cases h with
    | status h => simpa [Entry.statuses, Entry.scopes, Entry.configs] using h.2
    | @scope _ s h =>
      cases s with
      | none => simp [Entry.statuses, Entry.scopes, Entry.configs]
      | some s => simpa [Entry.statuses, Entry.scopes, Entry.configs] using h.2
    | @config _ s h =>
      cases s with
      | none => simp [Entry.statuses, Entry.scopes, Entry.configs]
      | some s => simpa [Entry.statuses, Entry.scopes, Entry.configs] using h.2
    | other => simp [Entry.statuses, Entry.scopes, Entry.configs]
  have app : ∀ {α} (f : Entry → Option α) e es, List.filterMap f (e :: es) =
      List.filterMap f [e] ++ List.filterMap f es := by
    intro α f e es
    rw [← List.filterMap_append]
    rfl
  induction h with
  | last _ _ _ _ h _ => exact one h
  | more _ _ _ _ h _ _ ih =>
    obtain ⟨a, b, c⟩ := one h
    obtain ⟨a', b', c'⟩ := ih
    simp only [Entry.statuses, Entry.scopes, Entry.configs] at *
    refine ⟨fun s hs => ?_, fun s hs => ?_, fun s hs => ?_⟩
    · rw [app] at hs
      exact (List.mem_append.1 hs).elim (a s) (a' s)
    · rw [app] at hs
      exact (List.mem_append.1 hs).elim (b s) (b' s)
    · rw [app] at hs
      exact (List.mem_append.1 hs).elim (c s) (c' s)

/-- C102: in whatever way a server writes its error: if it has a quote, a backslash or a control character
no client reads it. -/
theorem C102_unescaped {b : Bytes} {e : OAuthBearerError} (h : de b = some e) : Unescaped e := by
  have orNull : ∀ {t o}, OrNull t o → ∀ s ∈ o, ∀ c ∈ s, ¬ NeedsEscape c := by
    rintro t o h s hs
    obtain rfl : o = some s := hs
    exact h.2
  cases (C102_reads b e).1 h with
  | object hw ht hs hw' =>
    obtain ⟨h1, h2, h3⟩ := hs
    obtain ⟨a, b, c⟩ := statuses_asIs ht
    refine ⟨a _ (by rw [h1]; simp), ?_, ?_⟩
    · rcases h2 with h2 | ⟨_, h2⟩
      · exact b _ (by rw [h2]; simp)
      · rw [h2]; simp
    · rcases h3 with h3 | ⟨_, h3⟩
      · exact c _ (by rw [h3]; simp)
      · rw [h3]; simp
  | array hw ht hw' =>
    cases ht with
    | one _ h' _ => exact ⟨h'.2, by simp, by simp⟩
    | two _ h' _ _ h₁ _ => exact ⟨h'.2, orNull h₁, by simp⟩
    | three _ h' _ _ h₁ _ _ h₂ _ => exact ⟨h'.2, orNull h₁, orNull h₂⟩

/-- C102: nor if its first field is `status`, with any escape sequence in it, also one for a character that does
not need it: `\/` is how some encoders write a slash. -/
theorem C102_escaped {raw s : Bytes} (h : Content raw s true) (rest : Bytes) :
    de (b!"{\"status\":\"" ++ raw ++ 34 :: rest) = none := by
  have hb : borrowed (34 :: (raw ++ 34 :: rest)) = none := by
    cases hb : borrowed (34 :: (raw ++ 34 :: rest)) with
    | none => rfl
    | some x =>
      exfalso
      unfold borrowed at hb
      rw [skipWs_of (by decide), strip_same] at hb
      have hn := strN_complete h rest (raw ++ 34 :: rest).length (by simp)
      simp only [parseStr, hn] at hb
      cases hs : fromUtf8 s <;> simp only [hs, reduceCtorEq] at hb
  have hk : parseStr (b!"status" ++ 34 :: 58 :: 34 :: (raw ++ 34 :: rest)) =
      some (c!"status", false, 58 :: 34 :: (raw ++ 34 :: rest)) :=
    (parseStr_iff ..).2 ⟨b!"status", rfl, content_false.2 ⟨rfl, by unfold PlainByte; decide⟩⟩
  have hf : ∀ n f, fieldsN n f (34 :: (b!"status" ++ 34 :: 58 :: 34 :: (raw ++ 34 :: rest))) = none := by
    intro n f
    cases n with
    | zero => rfl
    | succ n =>
      unfold fieldsN
      rw [skipWs_of (by decide), strip_same]
      simp only [hk]
      rw [skipWs_of (by decide), strip_same]
      simp only [fieldValue, hb, if_true]
      cases f.status <;> rfl
  have ht : b!"{\"status\":\"" ++ raw ++ 34 :: rest =
      123 :: 34 :: (b!"status" ++ 34 :: 58 :: 34 :: (raw ++ 34 :: rest)) := by
    simp [Str.bytes]
  rw [ht]
  unfold de
  rw [skipWs_of (by decide)]
  simp only [if_true, hf]

/-! ### What is written -/

/-- A byte of a string, as it is written. -/
def written (b : UInt8) : Bytes := (escapedByte b).getD [b]

theorem contentPieces_flatten : ∀ (b run : Bytes), (contentPieces run b).flatten = run ++ b.flatMap written := by
  intro b
  induction b with
  | nil =>
    intro run
    unfold contentPieces
    split
    · next h => subst h; rfl
    · simp
  | cons x b ih =>
    intro run
    unfold contentPieces
    cases h : escapedByte x with
    | none => simp only [ih]; simp [written, h]
    | some y =>
      simp only [List.flatten_append, List.flatten_cons, ih]
      by_cases hr : run = [] <;> simp [hr, written, h]

theorem escapedByte_high {b : UInt8} (h : 128 ≤ b.toNat) : escapedByte b = none := by
  unfold escapedByte
  rw [if_neg, if_neg, if_neg, if_neg, if_neg, if_neg, if_neg, if_neg]
  · rw [UInt8.lt_iff_toNat_lt]; simp; omega
  all_goals rintro rfl; simp at h

set_option maxRecDepth 100000 in
theorem written_ascii : ∀ i < 128, written (UInt8.ofNat i) = Str.bytes (jsonChar (Char.ofNat i)) := by
  decide +kernel

theorem written_char (c : Char) : (encodeChar c).flatMap written = Str.bytes (jsonChar c) := by
  by_cases h : c.toNat < 128
  · have he : encodeChar c = [UInt8.ofNat c.toNat] := by unfold encodeChar; simp only [h, if_true]
    have := written_ascii c.toNat h
    rw [Char.ofNat_toNat] at this
    rw [he, ← this]
    simp
  · have hj : jsonChar c = [c] := by
      unfold jsonChar
      rw [if_neg]
      rintro (rfl | rfl | hc)
      · exact h (by decide)
      · exact h (by decide)
      · omega
    have hall : ∀ l : Bytes, (∀ b ∈ l, 128 ≤ b.toNat) → l.flatMap written = l := by
      intro l hl
      induction l with
      | nil => rfl
      | cons b l ih =>
        rw [List.flatMap_cons, ih fun x hx => hl x (by simp [hx]), written, escapedByte_high (hl b (by simp))]
        rfl
    rw [hj, hall]
    · simp [Str.bytes]
    · intro b hb
      apply Classical.byContradiction
      intro hlt
      have := (mem_encodeChar_ascii (by omega) c).1 hb
      omega

theorem written_str (s : Str) : (Str.bytes s).flatMap written = Str.bytes (s.flatMap jsonChar) := by
  induction s with
  | nil => rfl
  | cons c s ih => rw [Str.bytes_cons, List.flatMap_append, ih, written_char, List.flatMap_cons, Str.bytes_append]

theorem strPieces_flatten (s : Str) : (strPieces (Str.bytes s)).flatten = jsonStr s := by
  simp only [strPieces, List.flatten_append, contentPieces_flatten, written_str]
  simp [jsonStr]

set_option maxRecDepth 100000 in
theorem escape_json_ascii : ∀ i < 128, NeedsEscape (Char.ofNat i) →
    Str.bytes (jsonChar (Char.ofNat i)) = 92 :: (Str.bytes (jsonChar (Char.ofNat i))).tail ∧
    escape (Str.bytes (jsonChar (Char.ofNat i))).tail = some (Char.ofNat i, []) := by
  decide +kernel

theorem escape_json {c : Char} (h : NeedsEscape c) :
    ∃ x, Str.bytes (jsonChar c) = 92 :: x ∧ JsonEscape x c := by
  have hc : c.toNat < 128 := by
    rcases h with rfl | rfl | h
    · decide
    · decide
    · omega
  obtain ⟨h1, h2⟩ := escape_json_ascii c.toNat hc (by rwa [Char.ofNat_toNat])
  rw [Char.ofNat_toNat] at h1 h2
  obtain ⟨x, hx, he⟩ := (escape_iff ..).1 h2
  rw [List.append_nil] at hx
  exact ⟨x, by rw [h1, hx], he⟩

/-- A string that is written stands for itself, and has escape sequences exactly if it needs them. -/
theorem content_json (s : Str) : Content (Str.bytes (s.flatMap jsonChar)) (Str.bytes s)
    (decide (∃ c ∈ s, NeedsEscape c)) := by
  have plain : ∀ (l t s : Bytes) (e : Bool), (∀ b ∈ l, PlainByte b) → Content t s e →
      Content (l ++ t) (l ++ s) e := by
    intro l t s e hl h
    induction l with
    | nil => exact h
    | cons b l ih => exact .plain (hl b (by simp)) (ih fun x hx => hl x (by simp [hx]))
  induction s with
  | nil => exact .nil
  | cons c s ih =>
    rw [List.flatMap_cons, Str.bytes_append]
    by_cases hc : NeedsEscape c
    · obtain ⟨x, hx, he⟩ := escape_json hc
      have := Content.escape he ih
      rw [← Str.bytes_append] at this
      rw [show decide (∃ c' ∈ c :: s, NeedsEscape c') = true by simp [hc], hx]
      exact this
    · rw [show decide (∃ c' ∈ c :: s, NeedsEscape c') = decide (∃ c ∈ s, NeedsEscape c) by simp [hc],
        show jsonChar c = [c] by unfold jsonChar; rw [if_neg hc]]
      have := plain (Str.bytes [c]) _ _ _ (plain_bytes.2 (by simpa using hc)) ih
      rw [← Str.bytes_append (s := [c]) (t := s)] at this
      exact this

theorem borrowed_json (s : Str) (r : Bytes) :
    borrowed (jsonStr s ++ r) = if ∀ c ∈ s, ¬ NeedsEscape c then some (s, r) else none := by
  have hp := (parseStr_iff (Str.bytes (s.flatMap jsonChar) ++ 34 :: r) s _ r).2 ⟨_, rfl, content_json s⟩
  unfold borrowed jsonStr
  rw [show 34 :: Str.bytes (s.flatMap jsonChar) ++ [34] ++ r = 34 :: (Str.bytes (s.flatMap jsonChar) ++ 34 :: r) by
    simp, skipWs_of (by decide), strip_same]
  simp only [hp]
  by_cases h : ∃ c ∈ s, NeedsEscape c
  · rw [if_neg (by simpa using h)]
    simp only [h, decide_true]
  · rw [if_pos (by simpa using h)]
    simp only [h, decide_false]

theorem optional_json (s : Str) (r : Bytes) :
    optional (jsonStr s ++ r) = if ∀ c ∈ s, ¬ NeedsEscape c then some (some s, r) else none := by
  have : stripPrefix (b!"null") (skipWs (jsonStr s ++ r)) = none := by
    unfold jsonStr
    rw [List.cons_append, List.cons_append, skipWs_of (by decide)]
    unfold stripPrefix
    rw [if_neg]
    simp [Str.bytes]
  unfold optional
  rw [this, borrowed_json]
  by_cases h : ∀ c ∈ s, ¬ NeedsEscape c
  · simp only [if_pos h, Option.map_some]
  · simp only [if_neg h, Option.map_none]

/-- A member with a name that has nothing special. -/
theorem fieldsN_named {key : Str} (hk : ∀ c ∈ key, ¬ NeedsEscape c) (n : Nat) (f : Fields) (r : Bytes) :
    fieldsN (n + 1) f (34 :: (Str.bytes key ++ 34 :: 58 :: r)) =
      match fieldValue f key r with
      | none => none
      | some (f, r) =>
        match skipWs r with
        | [] => none
        | c :: r => if c = 125 then some (f, r) else if c = 44 then fieldsN n f r else none := by
  have := (parseStr_iff (Str.bytes key ++ 34 :: 58 :: r) key false (58 :: r)).2
    ⟨_, rfl, content_false.2 ⟨rfl, plain_bytes.2 hk⟩⟩
  conv => lhs; unfold fieldsN
  rw [skipWs_of (by decide), strip_same]
  simp only [this]
  rw [skipWs_of (by decide), strip_same]
  rfl

/-- What is done after a member. -/
def next (n : Nat) (f : Fields) (b : Bytes) : Option (Fields × Bytes) :=
  match skipWs b with
  | [] => none
  | c :: r => if c = 125 then some (f, r) else if c = 44 then fieldsN n f r else none

theorem next_comma (n : Nat) (f : Fields) (r : Bytes) : next n f (44 :: r) = fieldsN n f r := rfl

theorem jsonMember_some (key : Bytes) (v : Str) (r : Bytes) :
    jsonMember key (some v) ++ r = 44 :: 34 :: (key ++ 34 :: 58 :: (jsonStr v ++ r)) := by
  simp [jsonMember]

open Classical in
theorem next_config (n : Nat) (s : Str) (x : Option (Option Str)) (v : Option Str) :
    next (n + 1) ⟨some s, x, none⟩ (jsonMember (b!"openid-configuration") v ++ b!"}") =
      if ∀ u ∈ v, ∀ c ∈ u, ¬ NeedsEscape c then some (⟨some s, x, v.map some⟩, []) else none := by
  cases v with
  | none => rw [if_pos (by simp)]; rfl
  | some v =>
    rw [jsonMember_some, next_comma]
    refine (fieldsN_named (key := c!"openid-configuration") (by decide) n _ _).trans ?_
    rw [fieldValue, if_neg (by decide), if_neg (by decide), if_pos rfl, if_neg (by simp), optional_json]
    by_cases h : ∀ c ∈ v, ¬ NeedsEscape c
    · rw [if_pos h, if_pos (show ∀ u ∈ some v, ∀ c ∈ u, ¬ NeedsEscape c by simpa using h)]
      rfl
    · rw [if_neg h, if_neg (show ¬ ∀ u ∈ some v, ∀ c ∈ u, ¬ NeedsEscape c by simpa using h)]
      rfl

open Classical in
theorem next_scope (n : Nat) (s : Str) (x v : Option Str) :
    next (n + 2) ⟨some s, none, none⟩
      (jsonMember (b!"scope") x ++ (jsonMember (b!"openid-configuration") v ++ b!"}")) =
      if (∀ u ∈ x, ∀ c ∈ u, ¬ NeedsEscape c) ∧ ∀ u ∈ v, ∀ c ∈ u, ¬ NeedsEscape c then
        some (⟨some s, x.map some, v.map some⟩, []) else none := by
  cases x with
  | none =>
    refine (next_config (n + 1) s none v).trans ?_
    simp
  | some x =>
    rw [jsonMember_some, next_comma]
    refine (fieldsN_named (key := c!"scope") (by decide) (n + 1) _ _).trans ?_
    rw [fieldValue, if_neg (by decide), if_pos rfl, if_neg (by simp), optional_json]
    by_cases h : ∀ c ∈ x, ¬ NeedsEscape c
    · simp only [if_pos h, Option.map_some]
      refine (next_config n s (some (some x)) v).trans ?_
      have hx : ∀ u ∈ some x, ∀ c ∈ u, ¬ NeedsEscape c := by simpa using h
      by_cases hv : ∀ u ∈ v, ∀ c ∈ u, ¬ NeedsEscape c
      · rw [if_pos hv, if_pos ⟨hx, hv⟩]
      · rw [if_neg hv, if_neg (fun h' => hv h'.2)]
    · rw [if_neg h, if_neg (fun h' : (∀ u ∈ some x, ∀ c ∈ u, ¬ NeedsEscape c) ∧ _ => h (h'.1 x rfl))]
      rfl

open Classical in
theorem de_errorText (e : OAuthBearerError) : de (errorText e) = if Unescaped e then some e else none := by
  obtain ⟨s, x, v⟩ := e
  have ht : errorText ⟨s, x, v⟩ = 123 :: 34 :: (b!"status" ++ 34 :: 58 :: (jsonStr s ++
      (jsonMember (b!"scope") x ++ (jsonMember (b!"openid-configuration") v ++ b!"}")))) := by
    simp [errorText]
  have hl : ∃ n, (34 :: (b!"status" ++ 34 :: 58 :: (jsonStr s ++
      (jsonMember (b!"scope") x ++ (jsonMember (b!"openid-configuration") v ++ b!"}"))))).length = n + 3 :=
    ⟨_, by simp [Str.bytes]; rfl⟩
  obtain ⟨n, hl⟩ := hl
  rw [ht]
  unfold de
  rw [skipWs_of (by decide)]
  simp only [if_true, hl]
  have hf := fieldsN_named (key := c!"status") (by decide) (n + 2) {} (jsonStr s ++
      (jsonMember (b!"scope") x ++ (jsonMember (b!"openid-configuration") v ++ b!"}")))
  rw [fieldValue, if_pos rfl, if_neg (by simp), borrowed_json] at hf
  rw [show b!"status" = Str.bytes (c!"status") from rfl, hf]
  by_cases h : ∀ c ∈ s, ¬ NeedsEscape c
  · simp only [if_pos h, Option.map_some]
    have := next_scope n s x v
    unfold next at this
    simp only [this]
    by_cases h' : (∀ u ∈ x, ∀ c ∈ u, ¬ NeedsEscape c) ∧ ∀ u ∈ v, ∀ c ∈ u, ¬ NeedsEscape c
    · rw [if_pos h', if_pos (show Unescaped ⟨s, x, v⟩ from ⟨h, h'.1, h'.2⟩)]
      cases x <;> cases v <;> rfl
    · rw [if_neg h', if_neg (fun hu : Unescaped ⟨s, x, v⟩ => h' ⟨hu.2.1, hu.2.2⟩)]
  · simp only [if_neg h, Option.map_none]
    rw [if_neg (fun hu : Unescaped ⟨s, x, v⟩ => h hu.1)]

/-- C102: `serde_json` has the properties C60 assumes. -/
theorem C102_serde : Serde json where
  writes e := by
    obtain ⟨s, x, v⟩ := e
    have hm : ∀ (key : Str) (o : Option Str), (∀ c ∈ key, ¬ NeedsEscape c) →
        (memberPieces (Str.bytes key) o).flatten = jsonMember (Str.bytes key) o := by
      intro key o hk
      have : jsonStr key = 34 :: Str.bytes key ++ [34] := by
        unfold jsonStr
        have : key.flatMap jsonChar = key := by
          induction key with
          | nil => rfl
          | cons c s ih =>
            rw [List.flatMap_cons, ih fun x hx => hk x (by simp [hx]), jsonChar, if_neg (hk c (by simp))]
            rfl
        rw [this]
      cases o with
      | none => rfl
      | some o =>
        simp only [memberPieces, List.flatten_append, strPieces_flatten, this]
        simp [jsonMember]
    show (ser ⟨s, x, v⟩).flatten = _
    simp only [ser, List.flatten_append, strPieces_flatten]
    have h1 := hm (c!"scope") x (by decide)
    have h2 := hm (c!"openid-configuration") v (by decide)
    rw [show Str.bytes (c!"scope") = b!"scope" from rfl] at h1
    rw [show Str.bytes (c!"openid-configuration") = b!"openid-configuration" from rfl] at h2
    rw [h1, h2, show (strPieces (b!"status")).flatten = b!"\"status\"" by decide]
    simp [errorText]
  reads e h := by
    show de (errorText e) = _
    rw [de_errorText, if_pos h]
  borrows e h := by
    show de (errorText e) = _
    rw [de_errorText, if_neg h]

theorem escapedByte_ne {b : UInt8} {x : Bytes} (h : escapedByte b = some x) : x ≠ [] := by
  rintro rfl
  unfold escapedByte at h
  repeat' split at h
  all_goals simp at h

theorem contentPieces_ne : ∀ (b run : Bytes), [] ∉ contentPieces run b := by
  intro b
  induction b with
  | nil =>
    intro run
    unfold contentPieces
    split
    · simp
    · next h => simpa using h
  | cons c b ih =>
    intro run
    unfold contentPieces
    split
    · next x hx =>
      have := escapedByte_ne hx
      have := ih []
      split <;> simp_all
    · exact ih _

/-- C102: the server hands its writer no empty buffer. -/
theorem C102_pieces (e : OAuthBearerError) : [] ∉ ser e := by
  have hs : ∀ b, [] ∉ strPieces b := by
    intro b h
    simp only [strPieces, List.mem_append, List.mem_singleton] at h
    rcases h with (h | h) | h
    · cases h
    · exact contentPieces_ne _ _ h
    · cases h
  have hm : ∀ key o, [] ∉ memberPieces key o := by
    intro key o h
    cases o with
    | none => cases h
    | some v =>
      simp only [memberPieces, List.mem_append, List.mem_singleton] at h
      rcases h with ((h | h) | h) | h
      · cases h
      · exact hs _ h
      · cases h
      · exact hs _ h
  intro h
  simp only [ser, List.mem_append, List.mem_singleton] at h
  rcases h with (((((h | h) | h) | h) | h) | h) | h
  · cases h
  · exact hs _ h
  · cases h
  · exact hs _ h
  · exact hm _ _ h
  · exact hm _ _ h
  · cases h

/-! ### The client -/

/-- C102: a client that waits for the response, for every callback: it asks the callback exactly if the response is
the text of an error, shows it that error and no other, and fails with everything else that is not empty. -/
theorem C102_client (env : Env) (client : Session OAuthCState) (hs : client.st = .waitingServerResponse)
    (b : Bytes) (hb : b ≠ []) (sched : List WResp) :
    let r := client.step (OAuthBearer.client json) env ⟨some b, sched⟩
    (∀ e, ErrorJson b e → ∃ ctx,
      (r.2.log = client.log ++ [.notified .oauthBearerErrored ctx, .delivered .oauthBearerErrored e] ∧
        (r.1.res = .ok (.finished .yes) ∨ ∃ x, r.1.res = .err x)) ∨
      (r.2.log = client.log ++ [.notified .oauthBearerErrored ctx] ∧ ∃ x, r.1.res = .err x)) ∧
    ((∀ e, ¬ ErrorJson b e) → r.1.res = .err (.mechanismError .oauthSerde) ∧ r.2.log = client.log) := by
  obtain ⟨_, _, ⟨h, _⟩ | ⟨_, hn, h1, h2⟩ | ⟨e', ctx, _, hd, h⟩⟩ :=
    OAuthBearer.C60_client json env client hs ⟨some b, sched⟩
  · exact absurd h hb
  · refine ⟨fun e he => ?_, fun _ => ⟨h1, h2⟩⟩
    have : de b = none := hn
    rw [(C102_reads b e).2 he] at this
    cases this
  · have hd : de b = some e' := hd
    refine ⟨fun e he => ?_, fun hn => absurd ((C102_reads b e').1 hd) (hn e')⟩
    obtain rfl := C102_one ((C102_reads b e').1 hd) he
    exact ⟨ctx, h⟩

/-- C102: between a server and a client of this crate: the error reaches the client's callback exactly if none of
its fields has a character that JSON escapes. -/
theorem C102_exchange (cenv senv : Env) (client : Session OAuthCState) (server : Session OAuthSState) (b : Bytes)
    (authzid : Option Str) (token : Str) (fields : List (Str × Str)) (error : OAuthBearerError)
    (sched sched' : List WResp) (hc : client.st = .waitingServerResponse)
    (hs : server.st = .initial) (hb : OAuthWire b authzid token fields)
    (hcb : senv.GivesAt (oauthbearerOffer authzid token fields) .oauthBearerValidate (.error error))
    (hw : Patient sched) :
    let r := server.step (OAuthBearer.server json) senv ⟨some b, sched⟩
    let c := client.step (OAuthBearer.client json) cenv ⟨some r.1.out, sched'⟩
    (Unescaped error → ∃ ctx l, c.2.log = client.log ++ .notified .oauthBearerErrored ctx :: l ∧
      ∀ x ∈ l, x = .delivered .oauthBearerErrored error) ∧
    (¬ Unescaped error → c.1.res = .err (.mechanismError .oauthSerde) ∧ c.2.log = client.log) := by
  refine ⟨fun hu => ?_, fun hu => OAuthBearer.C60_false_escaped json C102_serde cenv senv client server b authzid
    token fields error hu sched sched' hc hs hb hcb hw⟩
  obtain ⟨⟨_, _, _, _, he⟩, _⟩ := OAuthBearer.C60_server json senv server hs b authzid token fields hb error hcb
    sched hw
  simp only [he.out, C102_serde.writes]
  obtain ⟨h, _⟩ := C102_client cenv client hc (errorText error) (by simp [errorText]) sched'
  obtain ⟨ctx, ⟨h, _⟩ | ⟨h, _⟩⟩ := h error ((C102_reads ..).1 (C102_serde.reads _ hu))
  · exact ⟨ctx, _, h, by simp⟩
  · exact ⟨ctx, [], h, by simp⟩

/-! ### Texts of other servers -/

section Examples

/-- RFC 7628, 3.2.2 -/
def rfcText : Bytes :=
  b!"{\n\"status\":\"invalid_token\",\n\"scope\":\"example_scope\",\n\"openid-configuration\":\"https://example.com/.well-known/openid-configuration\"\n}"

set_option maxRecDepth 20000 in
example : de rfcText = some ⟨c!"invalid_token", some (c!"example_scope"),
    some (c!"https://example.com/.well-known/openid-configuration")⟩ := by decide +kernel

/-- Gmail's have the status as a string of digits and no other fields of ours. -/
example : de (b!"{\"status\":\"401\",\"schemes\":\"bearer\",\"scope\":\"https://mail.google.com/\"}") =
    some ⟨c!"401", some (c!"https://mail.google.com/"), none⟩ := by decide +kernel

/-- Unknown members may be anything. -/
example : de (b!" { \"x\\u0079\": [ -0.5e+3, {\"a\":null}, [ ], \"\\ud800\" ], \"status\" : \"s\" } ") =
    some ⟨c!"s", none, none⟩ := by decide +kernel

/-- Numbers for the status are refused, as are fields given twice, missing ones, and texts that go on. -/
example : de (b!"{\"status\":401}") = none := by decide +kernel
example : de (b!"{\"status\":\"a\",\"status\":\"a\"}") = none := by decide +kernel
example : de (b!"{\"scope\":\"a\"}") = none := by decide +kernel
example : de (b!"{\"status\":\"a\"}x") = none := by decide +kernel

/-- Arrays are read. -/
example : de (b!"[\"a\",null]") = some ⟨c!"a", none, none⟩ := by decide +kernel

/-- What comes from encoders that escape slashes is refused. -/
example : de (b!"{\"status\":\"a\",\"openid-configuration\":\"https:\\/\\/example.com\"}") = none := by
  decide +kernel

/-- The conditions of `C102_escaped` can be met. -/
example : Content (b!"a\\/b") (b!"a/b") true :=
  .plain (by unfold PlainByte; decide) (.escape (.letter .slash) (.plain (by unfold PlainByte; decide) .nil))

/-- Those of `C102_client` as well. -/
example : ErrorJson (b!"[ \"a\" ]") ⟨c!"a", none, none⟩ := (C102_reads ..).1 (by decide +kernel)
example : ∀ e, ¬ ErrorJson (b!"{}") e := (C102_refuses _).1 (by decide +kernel)

/-- And those of `C102_exchange`. -/
example := C102_exchange OAuthBearer.taking (OAuthBearer.refusing ⟨c!"invalid_token", none, none⟩)
  { st := .waitingServerResponse, rng := fun _ => 0 } { st := .initial, rng := fun _ => 0 }
  (b!"n,,\x01auth=Bearer x\x01\x01") none (c!"Bearer x") [] _ [] [] rfl rfl ((OAuthBearer.C52_parse _ _ _ _).1 rfl)
  (OAuthBearer.refusing_gives _ _) (by unfold Patient; simp)

end Examples

end Rsasl.SerdeJson

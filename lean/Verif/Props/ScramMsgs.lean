/-
C32, C34, C42, C49: SCRAM names, nonces and messages.
-/
import Verif.Spec.Scram
import Verif.Spec.Session
import Verif.Proofs.ScramParse
import Verif.Proofs.Base64
import Verif.Proofs.Callback

namespace Rsasl

open Scram

/-! ## C32: escaping -/

theorem escapeChar_eq (c : Char) : escapeChar c =
    if c = ',' then ['=', '2', 'C'] else if c = '=' then ['=', '3', 'D'] else [c] := by
  unfold escapeChar EscState.escape
  split
  · rfl
  split
  · rfl
  · rfl

theorem escapes_flatMap (s : Str) (h : '\x00' ∉ s) : Spec.Escapes s (s.flatMap escapeChar) := by
  induction s with
  | nil => exact .nil
  | cons c s ih =>
    have ih := ih (fun hm => h (List.mem_cons_of_mem _ hm))
    have h0 : c ≠ '\x00' := fun hc => h (hc ▸ List.mem_cons_self ..)
    rw [List.flatMap_cons]
    rw [escapeChar_eq]
    split
    · next hc => subst hc; exact .comma ih
    · next hc =>
      split
      · next hc => subst hc; exact .equals ih
      · next hc' => exact .other c hc hc' h0 ih

theorem flatMap_escapeChar_of_plain (s : Str) (h1 : ',' ∉ s) (h2 : '=' ∉ s) :
    s.flatMap escapeChar = s := by
  induction s with
  | nil => rfl
  | cons c s ih =>
    simp only [List.mem_cons, not_or] at h1 h2
    rw [List.flatMap_cons, ih h1.2 h2.2]
    rw [escapeChar_eq]
    rw [if_neg (fun h => h1.1 h.symm), if_neg (fun h => h2.1 h.symm)]
    rfl

theorem escape_eq (s : Str) (h1 : s ≠ []) (h2 : '\x00' ∉ s) :
    escape s = .ok (s.flatMap escapeChar) := by
  unfold escape
  rw [if_neg (by simpa using h1), if_neg (by simpa using h2)]
  split
  · rfl
  · next h =>
    simp only [Bool.or_eq_true, List.contains_iff_mem, not_or] at h
    rw [flatMap_escapeChar_of_plain s h.1 h.2]

/-- The items an iterator still has to give: `next` gives them one after the other, and then `None`. -/
inductive Items : EscState → Str → Prop
  | none {s s' : EscState} (h : s.next = (none, s')) : Items s []
  | some {s s' : EscState} {c : Char} {l : Str} (h : s.next = (some c, s')) (t : Items s' l) :
      Items s (c :: l)

/-- C32, the escaping iterator: from every state it ends, and `len` (hence `size_hint`) is exactly the
number of items left; after its end it stays there. What it gives for a character is what `escape`
puts in its place. -/
theorem C32_iterator :
    (∀ s : EscState, ∃ l, Items s l ∧ l.length = s.len) ∧
    (∀ s s' : EscState, s.next = (none, s') → s' = s) ∧
    (∀ c l, Items (EscState.escape c) l → l = escapeChar c) := by
  refine ⟨?_, ?_, ?_⟩
  · intro s
    cases s
    · exact ⟨[], .none rfl, rfl⟩
    · exact ⟨_, .some rfl (.none rfl), rfl⟩
    · exact ⟨_, .some rfl (.some rfl (.some rfl (.none rfl))), rfl⟩
    · exact ⟨_, .some rfl (.some rfl (.none rfl)), rfl⟩
    · exact ⟨_, .some rfl (.some rfl (.some rfl (.none rfl))), rfl⟩
    · exact ⟨_, .some rfl (.some rfl (.none rfl)), rfl⟩
  · intro s s' h
    cases s <;> cases h
    rfl
  · have one : ∀ {s s' : EscState} {c l}, s.next = (some c, s') → Items s l →
        ∃ t, l = c :: t ∧ Items s' t := by
      intro s s' c l h i
      cases i with
      | none h' => rw [h] at h'; exact absurd (congrArg Prod.fst h') (by simp)
      | some h' t =>
        rw [h] at h'
        cases h'
        exact ⟨_, rfl, t⟩
    have last : ∀ {l}, Items .done l → l = [] := by
      intro l i
      cases i with
      | none _ => rfl
      | some h _ => cases h
    intro c l i
    rw [escapeChar_eq]
    unfold EscState.escape at i
    split
    · rename_i h
      rw [if_pos h] at i
      obtain ⟨_, rfl, i1⟩ := one (s := .comma) rfl i
      obtain ⟨_, rfl, i2⟩ := one (s := .comma1) rfl i1
      obtain ⟨_, rfl, i3⟩ := one (s := .char _) rfl i2
      rw [last i3]
    rename_i h
    rw [if_neg h] at i
    split
    · rename_i h
      rw [if_pos h] at i
      obtain ⟨_, rfl, i1⟩ := one (s := .equals) rfl i
      obtain ⟨_, rfl, i2⟩ := one (s := .equals1) rfl i1
      obtain ⟨_, rfl, i3⟩ := one (s := .char _) rfl i2
      rw [last i3]
    · rename_i h
      rw [if_neg h] at i
      obtain ⟨_, rfl, i1⟩ := one (s := .char _) rfl i
      rw [last i1]

example : Items (EscState.escape ',') (c!"=2C") :=
  .some rfl (.some rfl (.some rfl (.none rfl)))

/-- Escaping succeeds exactly on non-empty NUL-free names. -/
theorem C32_iff (s : Str) : (∃ e, escape s = .ok e) ↔ s ≠ [] ∧ '\x00' ∉ s := by
  constructor
  · rintro ⟨e, h⟩
    unfold escape at h
    split at h
    · cases h
    · next h1 =>
      split at h
      · cases h
      · next h2 => exact ⟨by simpa using h1, by simpa using h2⟩
  · rintro ⟨h1, h2⟩
    exact ⟨_, escape_eq s h1 h2⟩

/-- The result is the RFC's escape of the name. -/
theorem C32_rfc (s e : Str) (h : escape s = .ok e) : Spec.Escapes s e := by
  obtain ⟨h1, h2⟩ := (C32_iff s).1 ⟨e, h⟩
  rw [escape_eq s h1 h2] at h
  cases h
  exact escapes_flatMap s h2

theorem Spec.Escapes.saslName {s e : Str} (h : Spec.Escapes s e) : Spec.SaslName e := by
  induction h with
  | nil => exact .nil
  | comma _ ih => exact .comma ih
  | equals _ ih => exact .equals ih
  | other c h1 h2 h3 _ ih => exact .safe c h1 h2 h3 ih

theorem Spec.SaslName.notMem {e : Str} (h : Spec.SaslName e) : ',' ∉ e ∧ '\x00' ∉ e := by
  induction h with
  | nil => simp
  | comma _ ih => simpa using ih
  | equals _ ih => simpa using ih
  | safe c h1 h2 h3 _ ih => simp [ih, Ne.symm h1, Ne.symm h3]

theorem Spec.Escapes.injective {s t e : Str} (hs : Spec.Escapes s e) (ht : Spec.Escapes t e) :
    s = t := by
  induction hs generalizing t with
  | nil => cases ht; rfl
  | comma _ ih =>
    cases ht with
    | comma h => rw [ih h]
    | other c h1 h2 h3 h => exact absurd rfl h2
  | equals _ ih =>
    cases ht with
    | equals h => rw [ih h]
    | other c h1 h2 h3 h => exact absurd rfl h2
  | other c h1 h2 h3 _ ih =>
    cases ht with
    | comma h => exact absurd rfl h2
    | equals h => exact absurd rfl h2
    | other c h1 h2 h3 h => rw [ih h]

/-- The result is a `saslname`: no ',', and '=' only in "=2C" and "=3D"; also non-empty. -/
theorem C32_form (s e : Str) (h : escape s = .ok e) :
    Spec.SaslName e ∧ ',' ∉ e ∧ '\x00' ∉ e ∧ e ≠ [] := by
  have hr := C32_rfc s e h
  obtain ⟨h1, -⟩ := (C32_iff s).1 ⟨e, h⟩
  refine ⟨hr.saslName, hr.saslName.notMem.1, hr.saslName.notMem.2, ?_⟩
  rintro rfl
  cases hr
  exact h1 rfl

/-- Different names have different escapes. -/
theorem C32_injective (s t e : Str) (hs : escape s = .ok e) (ht : escape t = .ok e) : s = t :=
  (C32_rfc s e hs).injective (C32_rfc t e ht)

/-- A name without ',' and '=' is its own escape. -/
theorem C32_plain (s : Str) (h : s ≠ []) (h0 : '\x00' ∉ s) (h1 : ',' ∉ s) (h2 : '=' ∉ s) :
    escape s = .ok s := by
  rw [escape_eq s h h0, flatMap_escapeChar_of_plain s h1 h2]

example : escape (c!"a,b=c") = .ok (c!"a=2Cb=3Dc") := rfl
example : escape [] = .error .empty := rfl
example : escape (c!"a\x00b") = .error (.invalidChar 0) := rfl
example : ∃ e, escape (c!"ärger,=") = .ok e := (C32_iff _).2 (by decide)

/-! ## C42: nonces -/

theorem nonceChar_mem (i : Nat) : nonceChar i ∈ printable := List.getElem_mem _

theorem printable_printable : ∀ b ∈ printable, Spec.Printable b := by
  unfold Spec.Printable
  decide +kernel

theorem nonceByte_of_printable {b : UInt8} (h : Spec.Printable b) : nonceByte b = true := by
  obtain ⟨h1, h2, h3⟩ := h
  have h3 : b.toNat ≠ 44 := fun h => h3 (by rw [← UInt8.toNat_inj]; exact h)
  unfold nonceByte
  simp only [Bool.or_eq_true, Bool.and_eq_true, decide_eq_true_eq]
  omega

/-- Every generated nonce has the length asked for and consists of printable characters, for
every random stream, and drawing it changes nothing else. -/
theorem C42 {S : Type} (n : Nat) (s : S) (w : World) :
    ∃ nonce : Bytes, generateNonce n s w =
        (.ok nonce, s, { w with rng := fun i => w.rng (i + n) }) ∧
      nonce.length = n ∧ ∀ b ∈ nonce, Spec.Printable b := by
  refine ⟨((List.range n).map w.rng).map nonceChar, rfl, by simp, ?_⟩
  intro b hb
  obtain ⟨i, -, rfl⟩ := List.mem_map.1 hb
  exact printable_printable _ (nonceChar_mem i)

/-- Printable nonces survive the server's parser. -/
theorem C42_client_survives (m : ClientFirst) (h : ClientFirst.parse m.bytes = .ok m)
    (nonce : Bytes) (hn : ∀ b ∈ nonce, Spec.Printable b) :
    ClientFirst.parse ({ m with nonce := nonce } : ClientFirst).bytes =
      .ok { m with nonce := nonce } := by
  rw [ClientFirst.parse_eq_ok] at h
  obtain ⟨h1, h2, h3, az, exts, h4, h5, h6, h7⟩ := h
  have haz : ∃ az', AuthzidPart az' m.authzid ∧ 44 ∉ az' ∧
      m.cbflag.bytes ++ b!"," ++ az' = m.gs2Parts := by
    unfold ClientFirst.gs2Parts
    cases ha : m.authzid with
    | none => exact ⟨[], rfl, by simp, by simp⟩
    | some a =>
      refine ⟨b!"a=" ++ Str.bytes a, ⟨b!"a=", rfl, rfl⟩, ?_, by simp⟩
      rw [ha] at h4
      obtain ⟨k, hk, rfl⟩ := h4
      simp only [List.mem_append, not_or] at h5 ⊢
      exact ⟨by decide, h5.2⟩
  obtain ⟨az', h8, h9, h10⟩ := haz
  rw [ClientFirst.parse_eq_ok]
  refine ⟨h1, fun b hb => nonceByte_of_printable (hn b hb), h3, az', [], h8, h9, nofun, ?_⟩
  dsimp only
  unfold ClientFirst.bytes ClientFirst.gs2Parts
  unfold ClientFirst.gs2Parts at h10
  dsimp only
  rw [← h10]
  simp [extBytes]

theorem comma_notMem_printable {nonce : Bytes} (hn : ∀ b ∈ nonce, Spec.Printable b) :
    44 ∉ nonce := fun hm => (hn _ hm).2.2 rfl

/-- Printable nonces survive the client's parser, unchanged and concatenated. -/
theorem C42_server_survives (cn sn salt it : Bytes) (h1 : ∀ b ∈ cn, Spec.Printable b)
    (h2 : ∀ b ∈ sn, Spec.Printable b) (h3 : 44 ∉ salt) (h4 : 44 ∉ it) :
    ServerFirst.parse (ServerFirst.ioslices ⟨cn, some sn, salt, it⟩).flatten =
      .ok ⟨cn ++ sn, none, salt, it⟩ := by
  rw [ServerFirst.parse_eq_ok]
  refine ⟨rfl, ?_, h3, h4, by simp [ServerFirst.ioslices]⟩
  simp only [List.mem_append, not_or]
  exact ⟨comma_notMem_printable h1, comma_notMem_printable h2⟩

example : (generateNonce (S := Unit) 3 () ⟨⟨[], []⟩, fun i => 11 * i, none, []⟩).1 =
    .ok (b!"!-8") := rfl

/-! ## C34: round trips -/

/-- What the client's first message can be made of: a flag with a well-formed binding name,
escaped names, a printable nonce. -/
structure Spec.SendableFirst (m : ClientFirst) : Prop where
  flag : m.cbflag.Valid
  authzid : ∀ a, m.authzid = some a → ∃ s, escape s = .ok a
  user : ∃ s, escape s = .ok m.username
  nonce : ∀ b ∈ m.nonce, Spec.Printable b

theorem comma_notMem_escape {s e : Str} (h : escape s = .ok e) : 44 ∉ Str.bytes e := by
  intro hm
  rw [mem_bytes_ascii (by decide)] at hm
  exact (C32_form s e h).2.1 hm

/-- The server parses the client's first message to what the client put in. -/
theorem C34_client_first (m : ClientFirst) (h : Spec.SendableFirst m) :
    ClientFirst.parse m.bytes = .ok m := by
  obtain ⟨u, hu⟩ := h.user
  rw [ClientFirst.parse_eq_ok]
  refine ⟨h.flag, fun b hb => nonceByte_of_printable (h.nonce b hb), comma_notMem_escape hu, ?_⟩
  unfold ClientFirst.bytes ClientFirst.gs2Parts
  cases ha : m.authzid with
  | none => exact ⟨[], [], rfl, by simp, nofun, by simp [extBytes]⟩
  | some a =>
    obtain ⟨s, hs⟩ := h.authzid a ha
    refine ⟨b!"a=" ++ Str.bytes a, [], ⟨b!"a=", rfl, rfl⟩, ?_, nofun, by simp [extBytes]⟩
    simp only [List.mem_append, not_or]
    exact ⟨by decide, comma_notMem_escape hs⟩

/-- The client parses the server's first message to the two nonces, the base64 salt and the
iteration count the server put in; and reads salt and count back. -/
theorem C34_server_first (cn sn salt : Bytes) (iterations : UInt32)
    (h1 : ∀ b ∈ cn, Spec.Printable b) (h2 : ∀ b ∈ sn, Spec.Printable b) :
    ServerFirst.parse (ServerFirst.ioslices
        ⟨cn, some sn, Base64.encode salt, Str.bytes (decimal iterations)⟩).flatten =
      .ok ⟨cn ++ sn, none, Base64.encode salt, Str.bytes (decimal iterations)⟩ ∧
    Base64.decode (Base64.encode salt) = some salt ∧
    (fromUtf8 (Str.bytes (decimal iterations))).bind parseU32 = some iterations := by
  refine ⟨C42_server_survives cn sn _ _ h1 h2 (Base64.comma_notMem_encode _)
    (comma_notMem_decimal _), Base64.decode_encode _, ?_⟩
  rw [fromUtf8_bytes]
  exact parseU32_decimal iterations

/-- The server parses the client's final message to what the client put in. -/
theorem C34_client_final (cb nonce proof : Bytes) (h : ∀ b ∈ nonce, Spec.Printable b) :
    ClientFinal.parse
        (ClientFinal.ioslices ⟨Base64.encode cb, nonce, Base64.encode proof⟩).flatten =
      .ok ⟨Base64.encode cb, nonce, Base64.encode proof⟩ ∧
    Base64.decode (Base64.encode cb) = some cb ∧
    Base64.decodeSlice proof.length (Base64.encode proof) = some proof := by
  refine ⟨?_, Base64.decode_encode _, ?_⟩
  · rw [ClientFinal.parse_eq_ok]
    exact ⟨Base64.comma_notMem_encode _, comma_notMem_printable h, Base64.comma_notMem_encode _, [],
      nofun, by simp [ClientFinal.ioslices, extBytes]⟩
  · simp [Base64.decodeSlice, Base64.decode_encode]

theorem parseErrorValue_bytes (e : ServerErrorValue) : parseErrorValue e.bytes = e := by
  cases e <;> decide +kernel

/-- The client parses the server's final message to what the server put in. -/
theorem C34_server_final (m : ServerFinal) : ServerFinal.parse m.ioslices.flatten = .ok m := by
  rw [ServerFinal.parse_eq_ok]
  cases m with
  | verifier v => exact .inl ⟨v, rfl, by simp [ServerFinal.ioslices]⟩
  | error e =>
    exact .inr ⟨e.bytes, by rw [parseErrorValue_bytes], by simp [ServerFinal.ioslices]⟩

example : Spec.SendableFirst ⟨.used (b!"tls-exporter"), some (c!"=2C"), c!"a=3D", b!"abc"⟩ where
  flag := ⟨by decide, by decide⟩
  authzid := fun a h => ⟨c!",", by cases h; rfl⟩
  user := ⟨c!"a=", rfl⟩
  nonce := by unfold Spec.Printable; decide

example : ClientFirst.parse (b!"p=tls-exporter,a==2C,n=a=3D,r=abc") =
    .ok ⟨.used (b!"tls-exporter"), some (c!"=2C"), c!"a=3D", b!"abc"⟩ :=
  C34_client_first ⟨.used (b!"tls-exporter"), some (c!"=2C"), c!"a=3D", b!"abc"⟩
    ⟨⟨by decide, by decide⟩, fun a h => ⟨c!",", by cases h; rfl⟩, ⟨c!"a=", rfl⟩,
      by unfold Spec.Printable; decide⟩

/-! ## C49: error values -/

/-- The names of RFC 5802 section 7, `server-error-value`. -/
def Spec.errorName : ServerErrorValue → Bytes
  | .invalidEncoding => b!"invalid-encoding"
  | .extensionsNotSupported => b!"extensions-not-supported"
  | .invalidProof => b!"invalid-proof"
  | .channelBindingsDontMatch => b!"channel-bindings-dont-match"
  | .serverDoesSupportChannelBinding => b!"server-does-support-channel-binding"
  | .channelBindingNotSupported => b!"channel-binding-not-supported"
  | .unsupportedChannelBindingType => b!"unsupported-channel-binding-type"
  | .unknownUser => b!"unknown-user"
  | .invalidUsernameEncoding => b!"invalid-username-encoding"
  | .noResources => b!"no-resources"
  | .otherError => b!"other-error"

/-- What a client session waiting for the server's last message does when that is an error. -/
theorem client_server_error (d : Digest) (env : Env) (ses : Session CS) (v ck sk salt : Bytes)
    (it : UInt32) (hs : ses.st = some (.serverFirst v ck sk salt it)) (x : Bytes)
    (sched : List WResp) :
    Session.step (client d) env ses ⟨some (b!"e=" ++ x), sched⟩ =
      (⟨.err (.mechanismError (.scramServer (parseErrorValue x))), []⟩, { ses with st := none }) := by
  have hp : ServerFinal.parse (b!"e=" ++ x) = .ok (.error (parseErrorValue x)) :=
    ServerFinal.parse_eq_ok.2 (.inr ⟨x, rfl, rfl⟩)
  obtain ⟨st, slot, rng, log⟩ := ses
  dsimp only at hs
  subst hs
  show Session.exec _ (clientStep d nonceLen env (some (b!"e=" ++ x))) sched = _
  unfold Session.exec clientStep
  dsimp only
  rw [M.bind_ok (M.get_apply ..), M.bind_ok (M.set_apply ..)]
  dsimp only
  rw [M.bind_ok (M.okOr_some ..)]
  unfold handleServerFinal
  rw [hp]
  rfl

/-- The server's error messages are the RFC's. -/
theorem C49_names (e : ServerErrorValue) :
    (ServerFinal.error e).ioslices.flatten = b!"e=" ++ Spec.errorName e := by
  cases e <;> rfl

/-- Whatever error value the server sends, the client's step reports that value. -/
theorem C49 (d : Digest) (env : Env) (ses : Session CS) (v ck sk salt : Bytes) (it : UInt32)
    (hs : ses.st = some (.serverFirst v ck sk salt it)) (e : ServerErrorValue)
    (sched : List WResp) :
    (Session.step (client d) env ses ⟨some ((ServerFinal.error e).ioslices.flatten), sched⟩).1 =
      ⟨.err (.mechanismError (.scramServer e)), []⟩ := by
  have h : (ServerFinal.error e).ioslices.flatten = b!"e=" ++ e.bytes := by
    simp [ServerFinal.ioslices]
  rw [h, client_server_error d env ses v ck sk salt it hs, parseErrorValue_bytes]

/-- Values the client does not know are reported as `other-error`. -/
theorem C49_unknown (d : Digest) (env : Env) (ses : Session CS) (v ck sk salt : Bytes) (it : UInt32)
    (hs : ses.st = some (.serverFirst v ck sk salt it)) (x : Bytes)
    (hx : ∀ e, x ≠ Spec.errorName e) (sched : List WResp) :
    (Session.step (client d) env ses ⟨some (b!"e=" ++ x), sched⟩).1 =
      ⟨.err (.mechanismError (.scramServer .otherError)), []⟩ := by
  rw [client_server_error d env ses v ck sk salt it hs]
  have : parseErrorValue x = .otherError := by
    refine (if_neg (hx .invalidEncoding)).trans ?_
    refine (if_neg (hx .extensionsNotSupported)).trans ?_
    refine (if_neg (hx .invalidProof)).trans ?_
    refine (if_neg (hx .channelBindingsDontMatch)).trans ?_
    refine (if_neg (hx .serverDoesSupportChannelBinding)).trans ?_
    refine (if_neg (hx .channelBindingNotSupported)).trans ?_
    refine (if_neg (hx .unsupportedChannelBindingType)).trans ?_
    refine (if_neg (hx .unknownUser)).trans ?_
    refine (if_neg (hx .invalidUsernameEncoding)).trans ?_
    refine (if_neg (hx .noResources)).trans ?_
    rfl
  rw [this]

example : ∀ e, (b!"go-away") ≠ Spec.errorName e := by
  intro e
  cases e <;> decide +kernel

end Rsasl

/-
C26 (the full statement fails), C29, C30, C31, C46, C50: what a SCRAM server accepts.
-/
import Verif.Props.ScramExchange
import Verif.Props.Selection

namespace Rsasl

open Scram

/-! ## An example: a server that knows one user -/

def oneUser : StoredPassword := ⟨4096, [0, 0, 0], [30], [9]⟩

def oneUserEnv : Env := exampleEnv [⟨.scramStoredPassword, oneUser⟩]

def serverAt (st : SS) : Session SS := ⟨st, none, fun _ => 0, []⟩

/-- The client-final message with the right proof. -/
def rightFinal : Bytes := b!"c=biws,r=abc!!!!!!!!!!!!!!!!!!!!!!!!,p=8Q=="

theorem oneUser_gives : oneUserEnv.Gives .scramStoredPassword oneUser :=
  fun _ _ => answers_answerAll _ [] [] rfl nofun

/-- The case of `C26_partial` in which the server validates. -/
example : (validations ((serverAt (serverNew false)).run (server toyDigest) oneUserEnv
    [⟨some (b!"n,,n=user,r=abc"), []⟩, ⟨some rightFinal, []⟩]).2.log).length = 1 := by
  decide +kernel

/-- Its messages are a case of `C26_exact`. -/
example : Spec.ClientFirstRead (b!"n,,n=user,r=abc") .notSupported (b!"a=") none (c!"user") (b!"abc") [] ∧
    Spec.ProofGiven toyDigest oneUser (Spec.gs2Header .notSupported none ++ [])
      (b!"abc!!!!!!!!!!!!!!!!!!!!!!!!")
      (Spec.authMessage (Spec.clientFirstBare (c!"user") (b!"abc"))
        (Spec.serverFirst (b!"abc!!!!!!!!!!!!!!!!!!!!!!!!") (b!"AAAA") (b!"4096"))
        (Spec.clientFinalBare (Base64.encode (Spec.gs2Header .notSupported none ++ []))
          (b!"abc!!!!!!!!!!!!!!!!!!!!!!!!")))
      rightFinal [] [0xF1] [0xF1] :=
  ⟨⟨by decide +kernel, rfl, by decide +kernel⟩,
    ⟨by decide +kernel, nofun, by decide, by decide, by decide +kernel⟩⟩

/-! ## C26 -/

/-- The full statement about the proof: it is right for the signature over the exact messages. -/
def C26 : Prop := ∀ (d : Digest) (env : Env) (stored : StoredPassword),
  env.Gives .scramStoredPassword stored → ∀ (ses : Session SS) (canCb : Bool),
  ses.st = some (.waitingClientFirst canCb) → ∀ calls : List Call,
  (∀ c ∈ calls, Cooperative c.sched) →
  validations (ses.run (server d) env calls).2.log ≠ validations ses.log →
  ∃ c0 c1 rest r0 post b0 b1 given proof, calls = c0 :: c1 :: rest ∧
    (ses.run (server d) env calls).1 = r0 :: post ∧ c0.input = some b0 ∧ c1.input = some b1 ∧
    Spec.lastAttribute b1 = b!"p=" ++ Base64.encode given ∧
    proof = given ++ List.replicate (d.outLen - given.length) 0 ∧
    d.hash (List.zipWith (· ^^^ ·) proof (d.hmac stored.storedKey (Spec.exactAuth b0 r0.out b1))) =
      stored.storedKey

/-- The server also validates when the client's messages had extension attributes, which its
signature does not cover. -/
theorem C26_false : ¬ C26 := by
  intro h
  obtain ⟨c0, c1, rest, r0, post, b0, b1, given, proof, h1, h2, h3, h4, h5, rfl, h7⟩ :=
    h toyDigest oneUserEnv oneUser oneUser_gives (serverAt (serverNew false)) false rfl
    [⟨some (b!"n,,n=user,r=abc,x=1"), []⟩, ⟨some rightFinal, []⟩] (by simp [Cooperative])
    (by
      intro hv
      have : (validations ((serverAt (serverNew false)).run (server toyDigest) oneUserEnv
        [⟨some (b!"n,,n=user,r=abc,x=1"), []⟩, ⟨some rightFinal, []⟩]).2.log).length = 1 := by
        decide +kernel
      rw [hv] at this
      cases this)
  cases h1
  cases h3
  cases h4
  have hg : given = [241] := by
    have e : Spec.lastAttribute rightFinal = b!"p=" ++ Base64.encode [241] := by decide +kernel
    rw [e] at h5
    exact (Base64.encode_injective (List.append_cancel_left h5)).symm
  subst hg
  have ho : r0.out = b!"r=abc!!!!!!!!!!!!!!!!!!!!!!!!,s=AAAA,i=4096" := by
    have : ((serverAt (serverNew false)).run (server toyDigest) oneUserEnv
        [⟨some (b!"n,,n=user,r=abc,x=1"), []⟩, ⟨some rightFinal, []⟩]).1.map (·.out) =
        [b!"r=abc!!!!!!!!!!!!!!!!!!!!!!!!,s=AAAA,i=4096", b!"v=/w=="] := by decide +kernel
    rw [h2] at this
    exact (List.cons.inj this).1
  rw [ho] at h7
  exact absurd h7 (by decide +kernel)

/-! ## C31 -/

theorem comma_cancel {a b c d : Bytes} (ha : 44 ∉ a) (hb : 44 ∉ b)
    (h : a ++ 44 :: c = b ++ 44 :: d) : a = b := by
  induction a generalizing b with
  | nil =>
    cases b with
    | nil => rfl
    | cons y b => cases h; simp at hb
  | cons z a ih =>
    cases b with
    | nil => cases h; simp at ha
    | cons y b =>
      simp only [List.cons_append, List.cons.injEq] at h
      rw [h.1, ih (by simp at ha; exact ha.2) (by simp at hb; exact hb.2) h.2]

/-- The flag of a client-first message is what comes before its first comma. -/
theorem flag_of_prefix {b : Bytes} {flag : CbFlag} {key : Bytes} {authzid : Option Str} {user : Str}
    {cnonce : Bytes} {exts : List Bytes} (h : Spec.ClientFirstRead b flag key authzid user cnonce exts)
    {x : Bytes} (hx : x ++ b!"," <+: b) (hc : 44 ∉ x) : Spec.flagBytes flag = x := by
  obtain ⟨t, ht⟩ := hx
  have h1 := h.message
  rw [← ht] at h1
  have e : x ++ 44 :: t = Spec.flagBytes flag ++ 44 :: (Spec.authzidBytes key authzid ++ b!"," ++
    Spec.clientFirstBare user cnonce ++ Spec.extensions exts) := by simpa using h1
  exact (comma_cancel hc h.commas.1 e).symm

/-- The binding data in a client-final message. -/
def Spec.CarriesBinding (b bound : Bytes) : Prop := b!"c=" ++ Base64.encode bound ++ b!"," <+: b

theorem Spec.ProofGiven.carries {d : Digest} {stored : StoredPassword}
    {bound nonce auth b : Bytes} {exts : List Bytes} {given proof : Bytes}
    (h : Spec.ProofGiven d stored bound nonce auth b exts given proof) :
    Spec.CarriesBinding b bound := by
  refine ⟨b!"r=" ++ nonce ++ Spec.extensions exts ++ b!",p=" ++ Base64.encode given, ?_⟩
  rw [h.message]
  simp [Spec.clientFinalBare]

/-- After the client announced channel binding with type `name`, it sent in the next of `calls` a
client-final message whose binding data is the gs2 header followed by the server's own data for that
type: what the protocol's callback gave, or if that had none, what the user's callback answered. The
client's proof covers it. -/
def Spec.BindingCovered (d : Digest) (env : Env) (es : List Event) (name : Bytes)
    (calls : List Call) : Prop :=
  ∃ c1 rest b1 authzid data nonce stored auth cfb sf exts given proof, calls = c1 :: rest ∧
    c1.input = some b1 ∧
    Spec.CarriesBinding b1 (Spec.gs2Header (.used name) authzid ++ data) ∧
    (env.chanbind (asciiStr name) = some data ∨
     (env.chanbind (asciiStr name) = none ∧ .answered .channelBindings data ∈ es)) ∧
    auth = Spec.authMessage cfb sf (Spec.clientFinalBare
      (Base64.encode (Spec.gs2Header (.used name) authzid ++ data)) nonce) ∧
    Spec.ProofGiven d stored (Spec.gs2Header (.used name) authzid ++ data) nonce auth b1 exts
      given proof

/-- If the client announced a channel binding type, the server validates only if the data in the
client-final message (which the proof covers) is the gs2 header followed by the server's own data for
that type: what the protocol's callback gave, or if that had none, what the user's callback answered.
-/
theorem C31_covered (d : Digest) (env : Env) (ses : Session SS) (canCb : Bool)
    (hst : ses.st = some (.waitingClientFirst canCb)) (c0 : Call) (calls : List Call) (b0 name : Bytes)
    (hin : c0.input = some b0) (hname : b!"p=" ++ name ++ b!"," <+: b0) (hcomma : 44 ∉ name) :
    ∃ es, (ses.run (server d) env (c0 :: calls)).2.log = ses.log ++ es ∧
      (validations es ≠ [] → Spec.BindingCovered d env es name calls) := by
  obtain ⟨es, hl, h⟩ := C26_partial d env ses canCb hst (c0 :: calls)
  refine ⟨es, hl, fun hv => ?_⟩
  rcases h with h | ⟨c0', c1, rest, r0, r1, post, b0', flag, key, authzid, user, cnonce, exts0, data,
    snonce, stored, b1, auth, exts1, given, proof, hcalls, -, -, hi0, hread, -, own, -, -, -, -, -, -,
    ha, hi1, hpr, -⟩
  · exact absurd h hv
  · cases hcalls
    rw [hin] at hi0
    cases hi0
    have hf : flag = .used name := by
      have := flag_of_prefix hread hname (by simp [hcomma])
      cases flag with
      | used n => rw [List.append_cancel_left this]
      | _ => cases this
    subst hf
    exact ⟨c1, rest, b1, authzid, data, _, stored, auth, _, _, exts1, given, proof, rfl, hi1,
      hpr.carries, own, ha, hpr⟩

/-- So a client-final message with any other binding data is not validated: here with the server's
data fixed by its protocol callback. -/
theorem C31_tampered (d : Digest) (env : Env) (ses : Session SS) (canCb : Bool)
    (hst : ses.st = some (.waitingClientFirst canCb)) (c0 c1 : Call) (calls : List Call)
    (b0 b1 name bound own : Bytes)
    (hin : c0.input = some b0) (hname : b!"p=" ++ name ++ b!"," <+: b0) (hcomma : 44 ∉ name)
    (hown : env.chanbind (asciiStr name) = some own)
    (hin1 : c1.input = some b1) (hbound : Spec.CarriesBinding b1 bound)
    (htampered : ∀ authzid, bound ≠ Spec.gs2Header (.used name) authzid ++ own) :
    validations (ses.run (server d) env (c0 :: c1 :: calls)).2.log = validations ses.log := by
  obtain ⟨es, hl, h⟩ := C31_covered d env ses canCb hst c0 (c1 :: calls) b0 name hin hname hcomma
  rw [hl, validations_append]
  by_cases hv : validations es = []
  · rw [hv, List.append_nil]
  · obtain ⟨c1', rest, b1', authzid, data, nonce, stored, auth, cfb, sf, exts, given, proof, hc, hi,
      hcar, ho, -⟩ := h hv
    cases hc
    rw [hin1] at hi
    cases hi
    exfalso
    apply htampered authzid
    have hd : data = own := by
      rcases ho with ho | ⟨ho, -⟩
      · rw [hown] at ho; cases ho; rfl
      · rw [hown] at ho; cases ho
    rw [← hd]
    obtain ⟨t1, h1⟩ := hbound
    obtain ⟨t2, h2⟩ := hcar
    rw [← h2] at h1
    have e : Base64.encode bound ++ 44 :: t1 = Base64.encode (Spec.gs2Header (.used name) authzid ++
        data) ++ 44 :: t2 := by simpa using h1
    exact Base64.encode_injective (comma_cancel (Base64.comma_notMem_encode _) (Base64.comma_notMem_encode _) e)

/-- A server session whose step failed before anything else happened. -/
theorem server_refuses {d : Digest} {env : Env} {ses : Session SS} {c : Call} {w' : World}
    {o : Outcome State} (ho : ∀ st, o ≠ .ok st)
    (h : serverStep d nonceLen env c.input ses.st ⟨⟨[], c.sched⟩, ses.rng, ses.slot, ses.log⟩ =
      (o, none, w')) (hv : validations w'.log = validations ses.log) (calls : List Call) :
    ∃ post, (ses.run (server d) env (c :: calls)).1 = ⟨o, w'.wr.out⟩ :: post ∧
      (∀ r ∈ post, ∀ st, r.res ≠ .ok st) ∧
      validations (ses.run (server d) env (c :: calls)).2.log = validations ses.log := by
  rw [run_cons, step_of (m := server d) h]
  have k := server_over d env ⟨none, w'.slot, w'.rng, w'.log⟩ (.inl rfl) calls
  exact ⟨_, rfl, fun r hr => (k.1 r hr).1, by rw [← hv]; exact congrArg _ k.2.1⟩

/-- A well-formed client-first message without extensions. -/
structure Spec.WellFormedFirst (flag : CbFlag) (authzid : Option Str) (user : Str) (nonce : Bytes) :
    Prop where
  flag : GoodFlag flag
  authzid : ∀ a, authzid = some a → ',' ∉ a
  user : ',' ∉ user
  nonce : ∀ b ∈ nonce, Printable b

theorem goodFlag_valid {flag : CbFlag} (h : Spec.GoodFlag flag) : flag.Valid := by
  cases flag with
  | used n => obtain ⟨s, rfl, hs⟩ := h; exact (BindingName.ascii hs).2
  | _ => trivial

theorem parse_wellFormed {flag : CbFlag} {authzid : Option Str} {user : Str} {nonce : Bytes}
    (h : Spec.WellFormedFirst flag authzid user nonce) :
    ClientFirst.parse (Spec.gs2Header flag authzid ++ Spec.clientFirstBare user nonce) =
      .ok ⟨flag, authzid, user, nonce⟩ := by
  have hc : ∀ {s : Str}, ',' ∉ s → 44 ∉ Str.bytes s := by
    intro s hs hm
    rw [mem_bytes_ascii (by decide)] at hm
    exact hs hm
  rw [ClientFirst.parse_eq_ok]
  refine ⟨goodFlag_valid h.flag, fun b hb => nonceByte_of_printable (h.nonce b hb), hc h.user, ?_⟩
  cases ha : authzid with
  | none => exact ⟨[], [], rfl, by simp, nofun, by simp [extBytes, Spec.gs2Header, flagBytes_eq,
      Spec.authzidBytes, Spec.clientFirstBare]⟩
  | some a =>
    refine ⟨b!"a=" ++ Str.bytes a, [], ⟨b!"a=", rfl, rfl⟩, ?_, nofun, by simp [extBytes,
      Spec.gs2Header, flagBytes_eq, Spec.authzidBytes, Spec.clientFirstBare]⟩
    simp only [List.mem_append, not_or]
    exact ⟨by decide, hc (h.authzid a ha)⟩

theorem serverStep_cbErr {d : Digest} {n : Nat} {env : Env} {canCb : Bool} {b : Bytes}
    {msg : ClientFirst} (hp : ClientFirst.parse b = .ok msg) {w w' : World} {e : SessionError}
    {hd : Bytes}
    (h : serverCb env canCb (serverProvider msg.username msg.authzid) msg.cbflag
      (none, msg.gs2Header) w = (.err e, (none, hd), w')) :
    serverStep d n env (some b) (some (.waitingClientFirst canCb)) w = (.err e, none, w') := by
  unfold serverStep
  rw [M.bind_ok (M.get_apply ..), M.bind_ok (M.set_apply ..)]
  dsimp only
  rw [M.bind_ok (M.okOr_some ..), hp, M.bind_ok (M.liftOutcome_apply ..)]
  refine M.bind_err ?_
  unfold M.withLocal handleClientFirst
  dsimp only
  rw [M.bind_err h]

/-- If the server has no data of the announced type, the exchange fails with
`MissingChannelBindingData`, and for good. -/
theorem C31_missing (d : Digest) (env : Env) (ses : Session SS) (canCb : Bool)
    (hst : ses.st = some (.waitingClientFirst canCb)) (name : Str) (authzid : Option Str) (user : Str)
    (nonce : Bytes) (h : Spec.WellFormedFirst (.used (Str.bytes name)) authzid user nonce)
    (hname : Spec.BindingName name) (hno : Spec.NoBinding env name (some user) authzid)
    (w : List WResp) (calls : List Call) :
    ∃ post, (ses.run (server d) env (⟨some (Spec.gs2Header (.used (Str.bytes name)) authzid ++
          Spec.clientFirstBare user nonce), w⟩ :: calls)).1 =
        ⟨.err (.missingChannelBindingData name), []⟩ :: post ∧
      (∀ r ∈ post, ∀ st, r.res ≠ .ok st) ∧
      validations (ses.run (server d) env (⟨some (Spec.gs2Header (.used (Str.bytes name)) authzid ++
          Spec.clientFirstBare user nonce), w⟩ :: calls)).2.log = validations ses.log := by
  obtain ⟨es, sched, hs, hv, hd⟩ := does_noCbData (S := Hdr) (G := Unit) (C := fun _ => True) hno
    (bindingCtx_server _ _ _) (fun cbdata => M.modify fun (s, h) => (s, h ++ cbdata))
    (none, ClientFirst.gs2Header ⟨.used (Str.bytes name), authzid, user, nonce⟩)
    ⟨⟨[], w⟩, ses.rng, ses.slot, ses.log⟩ trivial
  refine server_refuses (o := .err (.missingChannelBindingData name))
    (w' := ⟨⟨[], sched⟩, ses.rng, ses.slot, ses.log ++ es⟩) nofun ?_ (by
      rw [validations_append, hv, List.append_nil]) calls
  rw [hst]
  refine serverStep_cbErr (hd := ClientFirst.gs2Header ⟨.used (Str.bytes name), authzid, user, nonce⟩)
    (parse_wellFormed h) ?_
  unfold serverCb
  dsimp only
  rw [(BindingName.ascii hname).1]
  unfold needCbData
  rw [M.bind_ok hd]
  rfl

/-- The server has data for "tls-exporter". -/
def bindingEnv : Env :=
  { oneUserEnv with
    chanbind := fun name => if name = c!"tls-exporter" then some (b!"KEY") else none }

/-- A client with the same data is validated, here in a -PLUS session; "KEY" as binding data in the
form of the messages is at the end of the first attribute. With other data, it is not. -/
example : (validations ((serverAt serverNewPlus).run (server toyDigest) bindingEnv
      [⟨some (b!"p=tls-exporter,,n=user,r=abc"), []⟩,
       ⟨some (b!"c=cD10bHMtZXhwb3J0ZXIsLEtFWQ==,r=abc!!!!!!!!!!!!!!!!!!!!!!!!,p=DA=="), []⟩]).2.log).length
      = 1 ∧
    b!"c=cD10bHMtZXhwb3J0ZXIsLEtFWQ==" = b!"c=" ++ Base64.encode (b!"p=tls-exporter,,KEY") ∧
    (validations ((serverAt serverNewPlus).run (server toyDigest)
      { bindingEnv with chanbind := fun _ => some (b!"YEK") }
      [⟨some (b!"p=tls-exporter,,n=user,r=abc"), []⟩,
       ⟨some (b!"c=cD10bHMtZXhwb3J0ZXIsLEtFWQ==,r=abc!!!!!!!!!!!!!!!!!!!!!!!!,p=DA=="), []⟩]).2.log).length
      = 0 :=
  ⟨by decide +kernel, by decide +kernel, by decide +kernel⟩

/-- The case in which nobody has the data. -/
theorem oneUser_lacks : oneUserEnv.Lacks .channelBindings :=
  fun _ _ => declines_answerAll _ (by simp)

theorem abc_printable : ∀ b ∈ b!"abc", Spec.Printable b := by
  simp [Spec.Printable]

theorem exporter_name : Spec.BindingName (c!"tls-exporter") :=
  ⟨nofun, by simp⟩

example : ∃ post, ((serverAt serverNewPlus).run (server toyDigest) oneUserEnv
      [⟨some (b!"p=tls-exporter,,n=user,r=abc"), []⟩]).1 =
    ⟨.err (.missingChannelBindingData (c!"tls-exporter")), []⟩ :: post :=
  have h := C31_missing toyDigest oneUserEnv (serverAt serverNewPlus) true rfl (c!"tls-exporter") none
    (c!"user") (b!"abc") ⟨⟨_, rfl, exporter_name⟩, nofun, by decide, abc_printable⟩ exporter_name
    ⟨rfl, oneUser_lacks.at _⟩ [] []
  ⟨h.choose, h.choose_spec.1⟩

/-! ## C30 -/

/-- The full statement: a client of a -PLUS session that is validated has announced channel binding
(and then `C31_covered` says that its proof covers the data). -/
def C30 : Prop := ∀ (d : Digest) (env : Env) (ses : Session SS), ses.st = serverNewPlus →
  ∀ calls : List Call,
  validations (ses.run (server d) env calls).2.log ≠ validations ses.log →
  ∃ c0 rest b0, calls = c0 :: rest ∧ c0.input = some b0 ∧ b!"p=" <+: b0

/-- A -PLUS session also accepts a client that says it does not support channel binding. -/
theorem C30_false : ¬ C30 := by
  intro h
  obtain ⟨c0, rest, b0, h1, h2, h3⟩ := h toyDigest oneUserEnv (serverAt serverNewPlus) rfl
    [⟨some (b!"n,,n=user,r=abc"), []⟩, ⟨some rightFinal, []⟩] (by
      intro hv
      have : (validations ((serverAt serverNewPlus).run (server toyDigest) oneUserEnv
        [⟨some (b!"n,,n=user,r=abc"), []⟩, ⟨some rightFinal, []⟩]).2.log).length = 1 := by
        decide +kernel
      rw [hv] at this
      cases this)
  cases h1
  cases h2
  exact absurd h3 (by decide)

/-- When a -PLUS session validates, the client's proof covered the server's own data for the type
the client announced. Missing: clients that said in their first message ("n,") that they do not
support channel binding. A client that says the server does not support it ("y,") is never
validated. -/
theorem C30_partial (d : Digest) (env : Env) (ses : Session SS) (hst : ses.st = serverNewPlus)
    (calls : List Call) (hno : ∀ c0 rest b0, calls = c0 :: rest → c0.input = some b0 →
      ¬ b!"n," <+: b0) :
    ∃ es, (ses.run (server d) env calls).2.log = ses.log ++ es ∧
      (validations es ≠ [] → ∃ c0 rest b0 name, calls = c0 :: rest ∧ c0.input = some b0 ∧
        b!"p=" ++ name ++ b!"," <+: b0 ∧ 44 ∉ name ∧ Spec.BindingCovered d env es name rest) := by
  obtain ⟨es, hl, h⟩ := C26_partial d env ses true hst calls
  refine ⟨es, hl, fun hv => ?_⟩
  rcases h with h | ⟨c0, c1, rest, r0, r1, post, b0, flag, key, authzid, user, cnonce, exts0, data,
    snonce, stored, b1, auth, exts1, given, proof, rfl, -, -, hi0, hread, hy, -⟩
  · exact absurd h hv
  · have hm := hread.message
    have hpre : ∀ {x : Bytes}, Spec.flagBytes flag = x → x ++ b!"," <+: b0 := by
      rintro x rfl
      rw [hm]
      simp only [List.append_assoc]
      exact ⟨_, List.append_assoc ..⟩
    cases flag with
    | supportedNotUsed => exact absurd (hy rfl) (by decide)
    | notSupported => exact absurd (hpre rfl) (hno _ _ _ rfl hi0)
    | used name =>
      have hc : 44 ∉ name := fun h => hread.commas.1 (List.mem_append_right _ h)
      obtain ⟨es', hl', k⟩ := C31_covered d env ses true hst c0 (c1 :: rest) b0 name hi0 (hpre rfl) hc
      have : es' = es := List.append_cancel_left (hl'.symm.trans hl)
      subst this
      exact ⟨c0, _, b0, name, rfl, hi0, hpre rfl, hc, k hv⟩

/-- C30 for all clients: a -PLUS session that validates was told "n,", or the proof covered the server's own
data for the type the client announced. -/
theorem C30_otherwise (d : Digest) (env : Env) (ses : Session SS) (hst : ses.st = serverNewPlus)
    (calls : List Call) :
    ∃ es, (ses.run (server d) env calls).2.log = ses.log ++ es ∧
      (validations es ≠ [] → ∃ c0 rest b0, calls = c0 :: rest ∧ c0.input = some b0 ∧
        (b!"n," <+: b0 ∨ ∃ name, b!"p=" ++ name ++ b!"," <+: b0 ∧ 44 ∉ name ∧
          Spec.BindingCovered d env es name rest)) := by
  by_cases hno : ∀ c0 rest b0, calls = c0 :: rest → c0.input = some b0 → ¬ b!"n," <+: b0
  · obtain ⟨es, h1, h2⟩ := C30_partial d env ses hst calls hno
    refine ⟨es, h1, fun hv => ?_⟩
    obtain ⟨c0, rest, b0, name, h3, h4, h5⟩ := h2 hv
    exact ⟨c0, rest, b0, h3, h4, .inr ⟨name, h5⟩⟩
  · obtain ⟨es, h1, -⟩ := C26_partial d env ses true hst calls
    refine ⟨es, h1, fun _ => ?_⟩
    apply Classical.byContradiction
    intro hn
    apply hno
    intro c0 rest b0 h3 h4 h5
    exact hn ⟨c0, rest, b0, h3, h4, .inl h5⟩

/-! ## C46 -/

/-- If the callback has no stored password for the user the client names, the session does not
validate, whatever happens. -/
theorem C46_never (d : Digest) (env : Env) (ses : Session SS) (canCb : Bool)
    (hst : ses.st = some (.waitingClientFirst canCb)) (c0 : Call) (calls : List Call)
    (hno : ∀ b flag key authzid user cnonce exts, c0.input = some b →
      Spec.ClientFirstRead b flag key authzid user cnonce exts →
      env.LacksAt (Spec.scramOffer user authzid) .scramStoredPassword) :
    validations (ses.run (server d) env (c0 :: calls)).2.log = validations ses.log := by
  obtain ⟨es, hl, h⟩ := C26_partial d env ses canCb hst (c0 :: calls)
  rw [hl, validations_append]
  rcases h with h | ⟨c0', c1, rest, r0, r1, post, b0, flag, key, authzid, user, cnonce, exts0, data,
    snonce, stored, b1, auth, exts1, given, proof, hc, -, -, hi0, hread, -, -, hlacks, -⟩
  · rw [h, List.append_nil]
  · cases hc
    exact absurd (hno _ _ _ _ _ _ _ hi0 hread) hlacks

/-- A client-final message as far as its form goes: any binding, nonce and proof. -/
def Spec.FinalShape (b : Bytes) : Prop :=
  ∃ cb nonce proof : Bytes, 44 ∉ cb ∧ 44 ∉ nonce ∧ 44 ∉ proof ∧
    b = b!"c=" ++ cb ++ b!",r=" ++ nonce ++ b!",p=" ++ proof

theorem does_server_unknown {d : Digest} {n : Nat} {env : Env} {b : Bytes} {msg : ClientFinal}
    (hp : ClientFinal.parse b = .ok msg) :
    Does Cooperative (serverStep d n env (some b)) (some (.waitingClientFinal none))
      (.finished .yes) (some .finished) (b!"e=unknown-user") := by
  have hC := cooperative_closed
  unfold serverStep
  refine Does.bind' hC (Does.get _ _) ?_ (List.nil_append _).symm
  refine Does.bind' hC (Does.set _ _ _) ?_ (List.nil_append _).symm
  refine Does.bind' hC (Does.okOr _ _ _ _) ?_ (List.nil_append _).symm
  refine Does.bind' hC (s' := none) (a := ()) (o₂ := []) ?_
    (Does.bind' hC (Does.set _ _ _) (Does.pure _ _ _) rfl) (List.append_nil _).symm
  unfold handleClientFinal
  rw [hp]
  refine Does.bind' hC (Does.liftOutcome _ _ _) ?_ (List.nil_append _).symm
  refine Does.bind' hC (Does.lift _ _ _) ?_ (List.nil_append _).symm
  exact Does.writeVectored _ _

/-- The exchange with a client that names an unknown user looks like any other until its end: the
server sends a salt and an iteration count, and its answer to any well-formed client-final message
is an error. -/
theorem C46_runs (d : Digest) (env : Env) (s0 s1 s2 : Session SS) (canCb : Bool)
    (hst : s0.st = some (.waitingClientFirst canCb)) (flag : CbFlag) (authzid : Option Str)
    (user : Str) (nonce data : Bytes) (h : Spec.WellFormedFirst flag authzid user nonce)
    (hb : Spec.ServerBinding env canCb user authzid flag data)
    (hno : env.LacksAt (Spec.scramOffer user authzid) .scramStoredPassword)
    (final : Bytes) (hf : Spec.FinalShape final) (w0 w1 : List WResp)
    (hw : Cooperative w0 ∧ Cooperative w1) (r0 r1 : Reply State)
    (h0 : s0.step (server d) env
      ⟨some (Spec.gs2Header flag authzid ++ Spec.clientFirstBare user nonce), w0⟩ = (r0, s1))
    (h1 : s1.step (server d) env ⟨some final, w1⟩ = (r1, s2)) :
    (∃ snonce salt : Bytes, snonce.length = 24 ∧ salt.length = 32 ∧ (∀ b ∈ snonce, Spec.Printable b) ∧
      r0 = ⟨.ok .running, Spec.serverFirst (nonce ++ snonce) (Base64.encode salt) (b!"16384")⟩) ∧
    r1 = ⟨.ok (.finished .yes), b!"e=unknown-user"⟩ ∧
    validations s2.log = validations s0.log ∧ s2.slot = s0.slot := by
  have hd := does_server_first_unknown (d := d) (n := nonceLen) (canCb := canCb)
    (parse_wellFormed h) hb hno s0.rng
  obtain ⟨rfl, hs1, hr1, hslot, hlog⟩ := DoesR.step (m := server d) (c := ⟨_, w0⟩) (by
    rw [hst]; exact hd) hw.1 h0
  obtain ⟨cb, nn, proof, c1, c2, c3, rfl⟩ := hf
  have hp : ClientFinal.parse (b!"c=" ++ cb ++ b!",r=" ++ nn ++ b!",p=" ++ proof) =
      .ok ⟨cb, nn, proof⟩ :=
    ClientFinal.parse_eq_ok.2 ⟨c1, c2, c3, [], nofun, by simp [extBytes]⟩
  obtain ⟨rfl, -, -, hslot', hlog'⟩ := DoesR.step (m := server d) (c := ⟨_, w1⟩) (by
    rw [hs1]; exact (does_server_unknown hp).rng _) hw.2 h1
  exact ⟨⟨_, _, by simp [nonceLen], by simp, nonce_printable _ _, rfl⟩, rfl, hlog'.trans hlog,
    hslot'.trans hslot⟩

/-- A server that knows no one. -/
example : ((serverAt (serverNew false)).run (server toyDigest) (exampleEnv [])
    [⟨some (b!"n,,n=user,r=abc"), []⟩, ⟨some rightFinal, []⟩]).1.map (·.out) =
    [b!"r=abc!!!!!!!!!!!!!!!!!!!!!!!!,s=AAAAAAAAAAAAAAAAAAAAAAAAAAAAAAAAAAAAAAAAAAA=,i=16384",
      b!"e=unknown-user"] := by
  decide +kernel

example : Spec.FinalShape rightFinal :=
  ⟨b!"biws", b!"abc!!!!!!!!!!!!!!!!!!!!!!!!", b!"8Q==", by decide, by decide, by decide, by decide⟩

example : Spec.WellFormedFirst .notSupported none (c!"user") (b!"abc") :=
  ⟨trivial, nofun, by decide, abc_printable⟩

/-! ## C50 -/

/-- A stored password whose keys do not have the hash's length. -/
def Spec.Malformed (d : Digest) (p : StoredPassword) : Prop :=
  p.storedKey.length ≠ d.outLen ∨ p.serverKey.length ≠ d.outLen

/-- If all the callback may supply for the user the client names is malformed, the session does not
validate, whatever happens. -/
theorem C50_never (d : Digest) (env : Env) (ses : Session SS) (canCb : Bool)
    (hst : ses.st = some (.waitingClientFirst canCb)) (c0 : Call) (calls : List Call)
    (hbad : ∀ b flag key authzid user cnonce exts, c0.input = some b →
      Spec.ClientFirstRead b flag key authzid user cnonce exts →
      env.SuppliesAt (Spec.scramOffer user authzid) .scramStoredPassword (Spec.Malformed d)) :
    validations (ses.run (server d) env (c0 :: calls)).2.log = validations ses.log := by
  obtain ⟨es, hl, h⟩ := C26_partial d env ses canCb hst (c0 :: calls)
  rw [hl, validations_append]
  rcases h with h | ⟨c0', c1, rest, r0, r1, post, b0, flag, key, authzid, user, cnonce, exts0, data,
    snonce, stored, b1, auth, exts1, given, proof, hc, -, -, hi0, hread, -, -, -, hV, -, hl1, hl2, -⟩
  · rw [h, List.append_nil]
  · cases hc
    rcases hV _ (hbad _ _ _ _ _ _ _ hi0 hread) with h | h
    · exact absurd hl1 h
    · exact absurd hl2 h

theorem does_malformed {d : Digest} {env : Env} {user : Str} {authzid : Option Str}
    {stored : StoredPassword} (hbad : Spec.Malformed d stored)
    (hs : env.GivesAt (Spec.scramOffer user authzid) .scramStoredPassword stored)
    (s : Hdr) (w : World) :
    ∃ es, validations es = [] ∧ maybeNeedWith env .scramStoredPassword (serverProvider user authzid)
      (useStored d) s w = (.err (.mechanismError .scramPasswordHashInvalid), s, w.addLog es) := by
  obtain ⟨es, hq, h⟩ := maybeNeedWith_answers (hs w.log _ (serverProvider_exactly user authzid))
    (useStored d) s
  refine ⟨.asked .scramStoredPassword (serverProvider user authzid) :: es ++
    [.answered .scramStoredPassword stored], ?_, h.trans ?_⟩
  · rw [← List.singleton_append, validations_append, validations_append, hq.validations]
    rfl
  · unfold useStored
    rw [if_pos (show _ ∨ _ from hbad)]
    rfl

/-- The step fails with an error that says so, if the callback hands on the error of `satisfy`
(`?`); and the session is over. Missing: callbacks that ignore that error (`C50_false`); `C50_never`
is about all callbacks. -/
theorem C50_partial (d : Digest) (env : Env) (ses : Session SS) (canCb : Bool)
    (hst : ses.st = some (.waitingClientFirst canCb)) (flag : CbFlag) (authzid : Option Str)
    (user : Str) (nonce data : Bytes) (h : Spec.WellFormedFirst flag authzid user nonce)
    (hb : Spec.ServerBinding env canCb user authzid flag data)
    (stored : StoredPassword) (hbad : Spec.Malformed d stored)
    (hs : env.GivesAt (Spec.scramOffer user authzid) .scramStoredPassword stored)
    (w : List WResp) (hw : Cooperative w) (calls : List Call) :
    ∃ post, (ses.run (server d) env (⟨some (Spec.gs2Header flag authzid ++
          Spec.clientFirstBare user nonce), w⟩ :: calls)).1 =
        ⟨.err (.mechanismError .scramPasswordHashInvalid), []⟩ :: post ∧
      (∀ r ∈ post, ∀ st, r.res ≠ .ok st) ∧
      validations (ses.run (server d) env (⟨some (Spec.gs2Header flag authzid ++
          Spec.clientFirstBare user nonce), w⟩ :: calls)).2.log = validations ses.log := by
  obtain ⟨es, sched, -, hv, hd⟩ := does_serverCb hb
    (ClientFirst.gs2Header ⟨flag, authzid, user, nonce⟩) ⟨⟨[], w⟩, ses.rng, ses.slot, ses.log⟩ hw
  obtain ⟨es', hv', hd'⟩ := does_malformed hbad hs
    (none, ClientFirst.gs2Header ⟨flag, authzid, user, nonce⟩ ++ data)
    ⟨⟨[], sched⟩, ses.rng, ses.slot, ses.log ++ es⟩
  refine server_refuses (o := .err (.mechanismError .scramPasswordHashInvalid))
    (w' := ⟨⟨[], sched⟩, ses.rng, ses.slot, ses.log ++ es ++ es'⟩) nofun ?_ (by
      rw [validations_append, validations_append, hv, hv', List.append_nil, List.append_nil]) calls
  rw [hst]
  unfold serverStep
  rw [M.bind_ok (M.get_apply ..), M.bind_ok (M.set_apply ..)]
  dsimp only
  rw [M.bind_ok (M.okOr_some ..), parse_wellFormed h, M.bind_ok (M.liftOutcome_apply ..)]
  refine M.bind_err ?_
  unfold M.withLocal handleClientFirst
  dsimp only
  rw [M.bind_ok hd]
  erw [M.bind_err hd']
  rfl

/-- The full statement. -/
def C50 : Prop := ∀ (d : Digest) (env : Env) (ses : Session SS) (canCb : Bool),
  ses.st = some (.waitingClientFirst canCb) → ∀ stored, Spec.Malformed d stored →
  ∀ c0 : Call, .answered .scramStoredPassword stored ∈ (ses.step (server d) env c0).2.log →
    ∀ st, (ses.step (server d) env c0).1.res ≠ .ok st

/-- A callback that ignores what `satisfy` returns. -/
def ignoringEnv (stored : StoredPassword) : Env :=
  { exampleEnv [] with
    callback := fun _ _ _ => CbProg.satisfy .scramStoredPassword stored fun _ => .ret (.ok ()) }

/-- For a callback that ignores the error, the user counts as unknown and the exchange goes on. -/
theorem C50_false : ¬ C50 := by
  intro h
  have hlog : ((serverAt (serverNew false)).step (server toyDigest)
      (ignoringEnv ⟨4096, [0, 0, 0], [], [9]⟩) ⟨some (b!"n,,n=user,r=abc"), []⟩).2.log =
      [.asked .scramStoredPassword (serverProvider (c!"user") none),
       .answered .scramStoredPassword (⟨4096, [0, 0, 0], [], [9]⟩ : StoredPassword)] := by
    rfl
  refine h toyDigest (ignoringEnv ⟨4096, [0, 0, 0], [], [9]⟩) (serverAt (serverNew false)) false rfl
    ⟨4096, [0, 0, 0], [], [9]⟩ (.inl (by decide)) ⟨some (b!"n,,n=user,r=abc"), []⟩ (by
      rw [hlog]; simp) .running (by decide +kernel)

/-- A malformed record. -/
example : Spec.Malformed toyDigest ⟨4096, [0, 0, 0], [], [9]⟩ ∧
    (exampleEnv [⟨.scramStoredPassword, (⟨4096, [0, 0, 0], [], [9]⟩ : StoredPassword)⟩]).Gives
      .scramStoredPassword ⟨4096, [0, 0, 0], [], [9]⟩ :=
  ⟨.inl (by decide), fun _ _ => answers_answerAll _ [] [] rfl nofun⟩

/-! ## C29 -/

/-- The client's side, for all callbacks: the first message a SCRAM client sends begins with "y,"
(the client supports channel binding but thinks that the server does not) exactly if channel binding
is enabled, the mechanism is not a -PLUS one and its -PLUS variant was not offered. -/
theorem C29_client (c : Config) (hk : c.Known) (offered : List Bytes) (a : Auth) (m : Mechanism)
    (hstart : c.clientStart offered = .ok (a, m)) (x : Hash) (hm : m = SCRAM x ∨ m = SCRAMPLUS x)
    (deps : Deps) (s : Started) (hs : a.startClient deps = some s) (rng : Nat → Nat) (env : Env)
    (call : Call) (hw : Cooperative call.sched) (r : Reply State) (ses' : Session s.mech.S)
    (hstep : (s.session rng).step s.mech env call = (r, ses')) (hres : r.res = .ok .running) :
    b!"y," <+: r.out ↔ m = SCRAM x ∧ c.enableCb = true ∧ x.plusName ∉ offered := by
  obtain ⟨-, husable, -, ha⟩ := clientStart_ok hk hstart
  have key : ∀ (d : Digest) (plus : CbSupport) (ses : Session CS), ses.st = some (.initial plus) →
      ∀ ses', ses.step (client d) env call = (r, ses') →
      (b!"y," <+: r.out ↔ plus = .serverNoSupport) := by
    intro d plus ses hst ses' hstep
    obtain ⟨es, -, -, h | ⟨gs2, cb, name, user, nonce, h, -⟩⟩ := client_first d env ses plus hst call r ses' hstep
    · exact absurd hres (h.1 _)
    · rw [h.whole hw]
      have hf := h.flag
      cases plus <;> obtain ⟨t, rfl⟩ := hf <;> simp
  rcases hm with rfl | rfl
  · cases ha
    cases hs
    rw [key _ _ _ rfl _ hstep]
    cases c.enableCb <;> by_cases ho : x.plusName ∈ offered <;> simp [ho]
  · cases ha
    cases hs
    rw [key _ _ _ rfl _ hstep]
    refine ⟨nofun, fun h => ?_⟩
    have := congrArg Mechanism.select h.1
    cases this

/-- The server's side, for all callbacks: a server whose configuration has the -PLUS variant refuses a
first message with that flag at once, without asking its callback anything, and for good. If the
message is otherwise well-formed, the error says so. -/
theorem C29_server (d : Digest) (env : Env) (ses : Session SS)
    (hst : ses.st = some (.waitingClientFirst true)) (b : Bytes) (hb : b!"y," <+: b) (w : List WResp)
    (calls : List Call) :
    (∀ r ∈ (ses.run (server d) env (⟨some b, w⟩ :: calls)).1, (∀ st, r.res ≠ .ok st) ∧ r.out = []) ∧
    (ses.run (server d) env (⟨some b, w⟩ :: calls)).2.log = ses.log ∧
    (ses.run (server d) env (⟨some b, w⟩ :: calls)).2.slot = ses.slot ∧
    (∀ flag authzid user nonce, Spec.WellFormedFirst flag authzid user nonce →
      b = Spec.gs2Header flag authzid ++ Spec.clientFirstBare user nonce →
      (ses.step (server d) env ⟨some b, w⟩).1.res =
        .err (.mechanismError .scramChannelBindingsNotUsed)) := by
  have hflag : ∀ msg, ClientFirst.parse b = .ok msg → msg.cbflag = .supportedNotUsed := by
    intro msg hmsg
    obtain ⟨hv, -, -, az, exts, -, -, -, he⟩ := ClientFirst.parse_eq_ok.1 hmsg
    obtain ⟨t, ht⟩ := hb
    have e : b!"y" ++ 44 :: t = msg.cbflag.bytes ++ 44 :: (az ++ b!",n=" ++ Str.bytes msg.username ++
      b!",r=" ++ msg.nonce ++ extBytes exts) := by
      rw [← ht] at he
      simpa using he
    have := comma_cancel (by decide) hv.comma e
    cases hf : msg.cbflag with
    | supportedNotUsed => rfl
    | notSupported => rw [hf] at this; cases this
    | used name => rw [hf] at this; cases this
  have hok : ∀ msg, ClientFirst.parse b = .ok msg → ∀ w',
      serverStep d nonceLen env (some b) (some (.waitingClientFirst true)) w' =
        (.err (.mechanismError .scramChannelBindingsNotUsed), none, w') := by
    intro msg hmsg w'
    refine serverStep_cbErr (hd := msg.gs2Header) hmsg ?_
    rw [hflag msg hmsg]
    rfl
  obtain ⟨o, ho, hs⟩ : ∃ o : Outcome State, (∀ st, o ≠ .ok st) ∧
      serverStep d nonceLen env (some b) ses.st ⟨⟨[], w⟩, ses.rng, ses.slot, ses.log⟩ =
        (o, none, ⟨⟨[], w⟩, ses.rng, ses.slot, ses.log⟩) := by
    rw [hst]
    cases hp : ClientFirst.parse b with
    | ok msg => exact ⟨.err _, nofun, hok msg hp _⟩
    | err e =>
      refine ⟨.err e, nofun, ?_⟩
      unfold serverStep
      rw [M.bind_ok (M.get_apply ..), M.bind_ok (M.set_apply ..)]
      dsimp only
      rw [M.bind_ok (M.okOr_some ..), hp, M.bind_err (M.liftOutcome_apply ..)]
    | panic =>
      refine ⟨.panic, nofun, ?_⟩
      unfold serverStep
      rw [M.bind_ok (M.get_apply ..), M.bind_ok (M.set_apply ..)]
      dsimp only
      rw [M.bind_ok (M.okOr_some ..), hp, M.bind_panic (M.liftOutcome_apply ..)]
  have hst' := step_of (m := server d) (ses := ses) (c := ⟨some b, w⟩) hs
  refine ⟨?_, ?_, ?_, ?_⟩
  · rw [run_cons, hst']
    have k := (server_over d env ⟨none, ses.slot, ses.rng, ses.log⟩ (.inl rfl) calls).1
    intro r hr
    rcases List.mem_cons.1 hr with rfl | hr
    · exact ⟨ho, rfl⟩
    · exact k r hr
  · rw [run_cons, hst']
    exact (server_over d env ⟨none, ses.slot, ses.rng, ses.log⟩ (.inl rfl) calls).2.1
  · rw [run_cons, hst']
    exact (server_over d env ⟨none, ses.slot, ses.rng, ses.log⟩ (.inl rfl) calls).2.2
  · intro flag authzid user nonce hwf he
    subst he
    have := hok _ (parse_wellFormed hwf) ⟨⟨[], w⟩, ses.rng, ses.slot, ses.log⟩
    rw [← hst, hs] at this
    rw [hst']
    exact congrArg Prod.fst this

/-- The whole: both configurations have channel binding for the mechanism, but the -PLUS name did not
reach the client. Whatever the client sends as its first message, the server never says more than an
error, asks its callback nothing and validates nothing. -/
theorem C29 (cc sc : Config) (hk : cc.Known) (offered : List Bytes) (x : Hash) (ca sa : Auth)
    (hc : cc.clientStart offered = .ok (ca, SCRAM x)) (hcb : cc.enableCb = true)
    (hremoved : x.plusName ∉ offered)
    (hs : sc.serverStart x.scramName = .ok (sa, SCRAM x))
    (hplus : x.plusName ∈ sc.mechs.map (·.name))
    (deps : Deps) (cs ss : Started) (hcs : ca.startClient deps = some cs)
    (hss : sa.startServer deps = some ss) (crng srng : Nat → Nat) (cenv senv : Env)
    (in0 : Option Bytes) (w0 : List WResp) (hw : Cooperative w0) (r0 : Reply State)
    (cs' : Session cs.mech.S)
    (h0 : (cs.session crng).step cs.mech cenv ⟨in0, w0⟩ = (r0, cs')) (hrun : r0.res = .ok .running)
    (w1 : List WResp) (calls : List Call) :
    b!"y," <+: r0.out ∧
    (∀ r ∈ ((ss.session srng).run ss.mech senv (⟨some r0.out, w1⟩ :: calls)).1,
      (∀ st, r.res ≠ .ok st) ∧ r.out = []) ∧
    ((ss.session srng).run ss.mech senv (⟨some r0.out, w1⟩ :: calls)).2.log = [] ∧
    ((ss.session srng).run ss.mech senv (⟨some r0.out, w1⟩ :: calls)).2.slot = none := by
  have hy := (C29_client cc hk offered ca _ hc x (.inl rfl) deps cs hcs crng cenv ⟨in0, w0⟩ hw r0 cs' h0
    hrun).2 ⟨rfl, hcb, hremoved⟩
  have hsa : sa = .scramServer x true := by
    unfold Config.serverStart at hs
    split at hs
    · cases hs
    · split at hs
      · cases hs
      · next mech _ f hf =>
        split at hs
        · next a ha =>
          cases hs
          cases hf
          have : (sc.mechs.map (·.name)).any (· == x.plusName) = true :=
            List.any_eq_true.2 ⟨_, hplus, by simp⟩
          cases ha
          rw [this]
        · cases hs
  subst hsa
  cases hss
  obtain ⟨h1, h2, h3, -⟩ := C29_server (deps.digest x) senv
    (Started.session ⟨server (deps.digest x), serverNew true⟩ srng) rfl r0.out hy w1 calls
  exact ⟨hy, h1, h2, h3⟩

/-- Two configurations and an offer without the -PLUS name. -/
example : (⟨[SCRAM .sha256, SCRAMPLUS .sha256], true, defaultPrefer⟩ : Config).clientStart
      [b!"SCRAM-SHA-256"] = .ok (.scramClient .sha256 false, SCRAM .sha256) ∧
    (⟨[SCRAM .sha256, SCRAMPLUS .sha256], true, defaultPrefer⟩ : Config).serverStart
      (b!"SCRAM-SHA-256") = .ok (.scramServer .sha256 true, SCRAM .sha256) :=
  ⟨rfl, rfl⟩

/-- The messages of such an exchange. -/
example : ((⟨clientNew false, none, fun _ => 0, []⟩ : Session CS).step (client toyDigest)
      (exampleEnv [⟨.authId, c!"user"⟩]) ⟨none, []⟩).1.out =
      b!"y,,n=user,r=!!!!!!!!!!!!!!!!!!!!!!!!" ∧
    (((serverAt (serverNew true)).step (server toyDigest) oneUserEnv
      ⟨some (b!"y,,n=user,r=!!!!!!!!!!!!!!!!!!!!!!!!"), []⟩).1.res matches
      .err (.mechanismError .scramChannelBindingsNotUsed)) :=
  ⟨by decide +kernel, by decide +kernel⟩

end Rsasl

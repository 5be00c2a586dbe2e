/-
The crate's own unit tests, run on the model. Each `example` cites the test it transcribes; they
check the model against expectations written by the authors of the crate, and are not part of any
claim. Assertions inside callbacks are written as callbacks that refuse what the assertion would
not let through.
-/
import Verif.Model.ChannelBindings
import Verif.Model.Mechname
import Verif.Spec.Examples

namespace Rsasl.Check

/-- What a call gave: the state if it went well, the error if not, and the bytes it wrote. -/
def shown (r : Reply State) : Option State × Option SessionError × Bytes :=
  match r.res with
  | .ok st => (some st, none, r.out)
  | .err e => (none, some e, r.out)
  | .panic => (none, none, r.out)

/-- Steps with the given inputs, each with a writer that takes everything. -/
def steps (m : Mech) (st : m.S) (env : Env) (inputs : List (Option Bytes)) :
    List (Option State × Option SessionError × Bytes) :=
  ((Session.run m env { st := st, rng := id } (inputs.map fun i => { input := i })).1).map shown

/-! ### src/mechanisms/plain/client.rs:90-241 -/

/-- The callback of the tests, lines 103-126. -/
def plainEnv (authzid : Option Str) (authid : Str) (password : Bytes) : Env :=
  exampleEnv ((match authzid with | some z => [⟨.authzId, z⟩] | none => []) ++
    [⟨.authId, authid⟩, ⟨.password, password⟩])

def plainStep (authzid : Option Str) (authid : Str) (password : Bytes) :=
  steps Plain.client () (plainEnv authzid authid password) [none]

/-- `test_simple_plain` -/
example :
    plainStep none (c!"testuser") (b!"secret") =
      [(some (.finished .yes), none, b!"\x00testuser\x00secret")] ∧
    plainStep (some (c!"authzid")) (c!"testuser") (b!"secret") =
      [(some (.finished .yes), none, b!"authzid\x00testuser\x00secret")] ∧
    plainStep none (c!"«küßî»") (b!"“ЌύБЇ”") =
      [(some (.finished .yes), none, b!"\x00«küßî»\x00“ЌύБЇ”")] := by decide +kernel

/-- `reject_null_bytes` -/
example :
    (plainStep (some (c!"authzid\x00containsnull")) (c!"authid") (b!"password")).map (·.2.1) =
      [some (.mechanismError (.plain .containsNull))] ∧
    (plainStep (some (c!"authzid")) (c!"auth\x00id") (b!"password")).map (·.2.1) =
      [some (.mechanismError (.plain .containsNull))] ∧
    (plainStep (some (c!"authzid")) (c!"authid") (b!"pass\x00word")).map (·.2.1) =
      [some (.mechanismError (.plain .containsNull))] := by decide +kernel

/-- `password_as_is` -/
example :
    plainStep none (c!"a") [0x80, 0xC0, 0xE0, 0xF0, 0xF8, 0xFC, 0xFE, 0xFF] =
      [(some (.finished .yes), none,
        [0, 97, 0, 0x80, 0xC0, 0xE0, 0xF0, 0xF8, 0xFC, 0xFE, 0xFF])] := by decide +kernel

/-- `reject_empty_authid_password` -/
example :
    (plainStep none [] (b!"password")).map (·.2.1) = [some (.mechanismError (.plain .empty))] ∧
    (plainStep none (c!"authid") []).map (·.2.1) = [some (.mechanismError (.plain .empty))] := by
  decide +kernel

/-- `empty_authzid_is_no_authzid` -/
example :
    plainStep (some []) (c!"authid") (b!"password") =
      [(some (.finished .yes), none, b!"\x00authid\x00password")] ∧
    plainStep none (c!"authid") (b!"password") =
      [(some (.finished .yes), none, b!"\x00authid\x00password")] := by decide +kernel

/-! ### src/mechanisms/external/client.rs:31-86, src/mechanisms/external/server.rs:30-112 -/

def externalStep (authzid : Option Str) :=
  steps External.client ()
    (exampleEnv (match authzid with | some z => [⟨.authzId, z⟩] | none => [])) [none]

/-- `test_external` -/
example : [c!"", c!"heylookanauthzid", c!"cn=this,ou=authzid,ou=has,o=weirdformatting",
      c!"«küßî»", c!"“ЌύБЇ”"].all (fun z =>
    externalStep (some z) = [(some (.finished .yes), none, Str.bytes z)]) = true := by
  decide +kernel

/-- `test_no_authzid` -/
example : externalStep none = [(some (.finished .yes), none, [])] := by decide +kernel

/-- `assert_eq!(context.get_ref::<P>().unwrap(), value); Ok(())` -/
def validateEnv (accept : Provider → Bool) : Env :=
  { exampleEnv [] with
    validate := fun _ _ ctx => .ret (if accept ctx then .ok () else .error (.boxed 0)) }

def externalToken (authzid : Str) (input : Option Bytes) :=
  steps External.server () (validateEnv fun ctx => ctx.getRef Property.authzId == some authzid)
    [input]

/-- `test_successful` -/
example : [c!"", c!"heylookanauthzid", c!"cn=this,ou=authzid,ou=has,o=weirdformatting",
      c!"«küßî»", c!"“ЌύБЇ”"].all (fun z =>
    externalToken z (some (Str.bytes z)) = [(some (.finished .no), none, [])]) = true := by
  decide +kernel

/-- `test_reject_invalid_1`, `test_reject_invalid_2` -/
example :
    (externalToken (c!"expectedauthzid") (some [])).map (·.1) = [none] ∧
    (externalToken [] (some (b!"someunexpectedauthzid"))).map (·.1) = [none] := by decide +kernel

/-- `test_no_input` -/
example : externalToken [] none = [(some (.finished .no), none, [])] := by decide +kernel

/-! ### src/mechanisms/anonymous/client.rs:31-80, src/mechanisms/anonymous/server.rs:34-118 -/

def anonymousStep (token : Option Str) :=
  steps Anonymous.client ()
    (exampleEnv (match token with | some t => [⟨.anonymousToken, t⟩] | none => [])) [none]

/-- `test_with_token`, `test_no_token` -/
example :
    anonymousStep (some (c!"thisisatoken")) = [(some (.finished .yes), none, b!"thisisatoken")] ∧
    anonymousStep (some []) = [(some (.finished .yes), none, [])] ∧
    anonymousStep none = [(some (.finished .yes), none, [])] := by decide +kernel

def anonymousToken (token : Str) (input : Option Bytes) :=
  steps Anonymous.server ()
    (validateEnv fun ctx => ctx.getRef Property.anonymousToken == some token) [input]

/-- `test_successful`, `test_weird_utf8` -/
example : [c!"", c!"thisisatesttoken", c!"«küßî»", c!"“ЌύБЇ”"].all (fun t =>
    anonymousToken t (some (Str.bytes t)) = [(some (.finished .no), none, [])]) = true := by
  decide +kernel

/-- `test_reject_invalid_1`, `test_reject_invalid_2` -/
example :
    (anonymousToken (c!"token") (some [])).map (·.1) = [none] ∧
    (anonymousToken [] (some (b!"someunexpectedtoken"))).map (·.1) = [none] := by decide +kernel

/-- `test_no_input` -/
example : anonymousToken [] none = [(some (.finished .no), none, [])] := by decide +kernel

/-! ### src/mechanisms/login/client.rs:69-95 -/

/-- `simple_combination` -/
example :
    steps Login.client .authid
      { exampleEnv [] with
        callback := fun _ _ _ => credentialCallback none (c!"testuser") (c!"password") }
      [none, none] =
      [(some .running, none, b!"testuser"), (some (.finished .yes), none, b!"password")] := by
  decide +kernel

/-! ### src/mechanisms/xoauth2/client.rs:85-202 -/

def authid : Str := c!"username@host.tld"
def token : Str := c!"ya29.vF9dft4qmTc2Nvb3RlckBhdHRhdmlzdGEuY29tCg"
def xoauth2Message : Bytes :=
  b!"user=username@host.tld\x01auth=Bearer ya29.vF9dft4qmTc2Nvb3RlckBhdHRhdmlzdGEuY29tCg\x01\x01"
def googleError : Str :=
  c!"{\"status\":\"401\",\"schemes\":\"bearer\",\"scope\":\"https://mail.google.com/\"}"

/-- The callback of the tests, lines 99-122. -/
def xoauth2Env (expected : Option Str) : Env :=
  { exampleEnv [] with
    callback := fun _ _ _ =>
      .satisfy .authId authid fun
        | .error e => .ret (.error e)
        | .ok () => .satisfy .oauthBearerToken token fun
          | .error e => .ret (.error e)
          | .ok () =>
            match expected with
            | none => .ret (.ok ())
            | some x => .getAction .xoauth2Error fun
              | none => .ret (.ok ())
              | some e => .ret (if e = x then .ok () else .error (.boxed 0)) }

/-- `test_xoauth2` -/
example : steps XOAuth2.client .initial (xoauth2Env none) [none] =
    [(some .running, none, xoauth2Message)] := by decide +kernel

/-- `test_auth_ok_behaviour_none`, `test_auth_ok_behaviour_some_empty` -/
example :
    steps XOAuth2.client .initial (xoauth2Env none) [none, none] =
      [(some .running, none, xoauth2Message), (some (.finished .no), none, [])] ∧
    steps XOAuth2.client .initial (xoauth2Env none) [none, some []] =
      [(some .running, none, xoauth2Message), (some (.finished .no), none, [])] := by
  decide +kernel

/-- `test_auth_fail_finishes` -/
example :
    steps XOAuth2.client .initial (xoauth2Env (some googleError))
      [none, some (Str.bytes googleError)] =
      [(some .running, none, xoauth2Message), (some (.finished .yes), none, [])] := by
  decide +kernel

/-- An error nobody expects is not handled (the comment at lines 110-111). -/
example :
    steps XOAuth2.client .initial (xoauth2Env none) [none, some (Str.bytes googleError)] =
      [(some .running, none, xoauth2Message),
       (none, some (.callbackError (.noCallback .xoauth2Error)), [])] := by decide +kernel

/-! ### src/mechanisms/xoauth2/server.rs:113-197 -/

/-- The callback of the tests, lines 130-148. -/
def xoauth2ServerEnv (result : Except Str Unit) : Env :=
  { exampleEnv [] with
    callback := fun _ _ ctx => .is .xoauth2Validate fun
      | false => .ret (.ok ())
      | true =>
        if ctx.getRef Property.authId == some authid &&
            ctx.getRef Property.oauthBearerToken == some token then
          .satisfy .xoauth2Validate result fun r => .ret r
        else .ret (.error (.boxed 0)) }

/-- `test_successful` -/
example : steps XOAuth2.server .initial (xoauth2ServerEnv (.ok ())) [some xoauth2Message] =
    [(some (.finished .no), none, [])] := by decide +kernel

/-- `test_errored` -/
example :
    steps XOAuth2.server .initial (xoauth2ServerEnv (.error googleError)) [some xoauth2Message] =
      [(some .running, none, Str.bytes googleError)] := by decide +kernel

/-! ### src/mechanisms/oauthbearer/server.rs:98-190 -/

def oauthbearerMessage : Bytes :=
  b!"n,a=username@host.tld,\x01auth=ya29.vF9dft4qmTc2Nvb3RlckBhdHRhdmlzdGEuY29tCg\x01\x01"

/-- The callback of the tests, lines 117-135. -/
def oauthbearerEnv (result : Except OAuthBearerError Unit) : Env :=
  { exampleEnv [] with
    callback := fun _ _ ctx => .is .oauthBearerValidate fun
      | false => .ret (.ok ())
      | true =>
        if ctx.getRef Property.authzId == some authid &&
            ctx.getRef Property.oauthBearerToken == some token then
          .satisfy .oauthBearerValidate result fun r => .ret r
        else .ret (.error (.boxed 0)) }

def invalidToken : OAuthBearerError := ⟨c!"invalid_token", none, none⟩

/-- The serialisation `serde_json` makes of it, with the fields of the `Serialize` impl
(src/mechanisms/oauthbearer/properties.rs:31-41). -/
def invalidTokenJson : Bytes := b!"{\"status\":\"invalid_token\"}"

def bearerJson : OAuthBearer.Json :=
  ⟨fun e => if e = invalidToken then [invalidTokenJson] else [],
    fun b => if b = invalidTokenJson then some invalidToken else none⟩

/-- `test_successful` -/
example :
    steps (OAuthBearer.server bearerJson) .initial (oauthbearerEnv (.ok ()))
      [some oauthbearerMessage] = [(some (.finished .no), none, [])] := by decide +kernel

/-- `test_errored` -/
example :
    steps (OAuthBearer.server bearerJson) .initial (oauthbearerEnv (.error invalidToken))
      [some oauthbearerMessage] = [(some .running, none, invalidTokenJson)] ∧
    bearerJson.de invalidTokenJson = some invalidToken := by decide +kernel

/-! ### src/mechanisms/scram/mechinfo.rs:325-421 -/

/-- The name of the mechanism `start_suggested` settles on. -/
def selected (supported : List Mechanism) (offered : List Bytes) : Option Bytes :=
  match Config.clientStart ⟨supported, true, defaultPrefer⟩ offered with
  | .ok (_, m) => some m.name
  | _ => none

/-- `scram_sha1_plus_selection`, `scram_sha2_plus_selection` -/
example : [Hash.sha1, Hash.sha256].all (fun h =>
    selected [SCRAM h, SCRAMPLUS h] [h.plusName, h.scramName] = some h.plusName &&
    selected [SCRAM h, SCRAMPLUS h] [h.scramName, h.plusName] = some h.plusName) = true := by
  decide +kernel

/-! ### src/mechanisms/scram/parser.rs:590-614 -/

/-- `test_parse_gs2_cbind_flag` -/
example :
    Scram.CbFlag.parse (b!"n") = .ok .notSupported ∧
    Scram.CbFlag.parse (b!"y") = .ok .supportedNotUsed ∧
    Scram.CbFlag.parse (b!"p=tls-unique") = .ok (.used (b!"tls-unique")) ∧
    Scram.CbFlag.parse (b!"p=.") = .ok (.used (b!".")) ∧
    Scram.CbFlag.parse (b!"p=-") = .ok (.used (b!"-")) ∧
    Scram.CbFlag.parse (b!"p=a") = .ok (.used (b!"a")) ∧
    Scram.CbFlag.parse (b!"p=a-very-long-cb-name.indeed") =
      .ok (.used (b!"a-very-long-cb-name.indeed")) := by decide +kernel

/-! ### src/context.rs:207-229 -/

/-- `test_thisprovider` -/
example :
    (Provider.this ⟨.custom 0, b!"hello "⟩).getRef (.custom 0) = some (b!"hello ") ∧
    (Provider.this ⟨.custom 0, b!"world!"⟩).getRef (.custom 0) = some (b!"world!") := by
  decide +kernel

/-! ### src/vectored_io.rs:74-126 -/

/-- `test_with_split_writer`: the writer takes five bytes of the sixteen, then the rest of the
buffer it is in, and so on; `write_vectored` of `std` passes the first non-empty buffer, so each
call takes at most what is left of one buffer. -/
example :
    let r := (VectoredWriter.new [b!"dead", b!"beef", b!"cafe", b!"babe"]).writeAllVectored
      ⟨[], [.accept 4, .accept 1, .accept 3, .accept 2, .accept 2, .accept 3, .accept 1]⟩
    r.1 = .ok 16 ∧ r.2.2.out = b!"deadbeefcafebabe" := by decide +kernel

/-! ### src/mechname.rs:181-221 -/

def valid (n : Bytes) : Bool :=
  match Mechname.parse n with
  | .ok m => m == n
  | .error _ => false

def invalidAt (n : Bytes) (index : Nat) (value : UInt8) : Bool :=
  match Mechname.parse n with
  | .ok _ => false
  | .error e => e = .invalidChar index value

/-- `test_mechname` -/
example :
    [b!"PLAIN", b!"SCRAM-SHA256-PLUS", b!"GS2-KRB5-PLUS", b!"XOAUTHBEARER",
      b!"EXACTLY_20_CHAR_LONG", b!"X-THIS-MECHNAME-IS-TOO-LONG",
      b!"EXACTLY_21_CHARS_LONG"].all valid = true ∧
    invalidAt (b!"PLAIN GSSAPI LOGIN") 5 32 = true ∧
    invalidAt (b!"SCRAM-SHA256-PLUS GSSAPI X-OAUTH2") 17 32 = true ∧
    invalidAt (b!"X-CONTAINS-NULL\x00") 15 0 = true ∧
    invalidAt (b!"PLAIN\x00") 5 0 = true ∧
    invalidAt (b!"X-lowercase") 2 108 = true ∧
    invalidAt (b!"X-LÄTIN1") 3 0xC3 = true := by decide +kernel

/-! ### src/channel_bindings.rs:40-98 -/

/-- `test_this_cb` -/
example :
    let env := (exampleEnv []).withCb (ThisCb.getCbData ⟨c!"this-cb", b!"foobar"⟩)
    let ask (name : Str) : Outcome Bytes :=
      (needCbData (S := Unit) env name .empty (fun cb => pure cb) ()
        ⟨⟨[], []⟩, id, none, []⟩).1
    ask (c!"this-cb") = .ok (b!"foobar") ∧
    ask (c!"blahblubb") = .err (.missingChannelBindingData (c!"blahblubb")) := by decide +kernel

end Rsasl.Check

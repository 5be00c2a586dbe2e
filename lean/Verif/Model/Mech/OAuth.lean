/-
XOAUTH2 and OAUTHBEARER (`src/mechanisms/{xoauth2,oauthbearer}`).
-/
import Verif.Model.Mech.Simple

namespace Rsasl

/-- `XOAuth2State` / `OAuthBearerState` of the clients, src/mechanisms/xoauth2/client.rs:18-22,
src/mechanisms/oauthbearer/client.rs:16-20. -/
inductive OAuthCState where
  | initial | waitingServerResponse | done
deriving DecidableEq

/-- The states of the servers, src/mechanisms/xoauth2/server.rs:18-21,
src/mechanisms/oauthbearer/server.rs:16-19. -/
inductive OAuthSState where
  | initial | errored
deriving DecidableEq

namespace XOAuth2

/-- `b"user="` -/
def userPrefix : Bytes := b!"user="

/-- `b"\x01auth=Bearer "` -/
def authPrefix : Bytes := 1 :: b!"auth=Bearer "

/-- `b"\x01\x01"` -/
def endMark : Bytes := [1, 1]

/-- `XOAuth2::step` of the client, src/mechanisms/xoauth2/client.rs:46-96. -/
def clientStep (env : Env) (input : Option Bytes) : M OAuthCState State := do
  match ← M.get with
  | .initial => do
    needWith env .authId .empty (fun authid =>
      M.writeVectored [userPrefix, Str.bytes authid, authPrefix])
    needWith env .oauthBearerToken .empty (fun token =>
      M.writeVectored [Str.bytes token, endMark])
    M.set .waitingServerResponse
    pure .running
  | .waitingServerResponse => do
    M.set .done
    let input := External.orEmpty input
    if input.isEmpty then pure (.finished .no)
    else do
      let error ← M.okOr (.mechanismError .xoauth2ClientUtf8) (fromUtf8 input)
      action env .xoauth2Error .empty error
      pure (.finished .yes)
  | .done => M.fail .mechanismDone

/-- `Prov`, src/mechanisms/xoauth2/server.rs:50-60. -/
def provider (authid token : Str) : Provider :=
  .chain [⟨.authId, authid⟩, ⟨.oauthBearerToken, token⟩]

/-- The parsing part of the server step, src/mechanisms/xoauth2/server.rs:73-93. -/
def parse (input : Bytes) : Except SessionError (Str × Str) := do
  match input.findIdx? (· == 1) with
  | none => .error (.mechanismError .xoauth2Format)
  | some mid =>
    let userpart := input.take mid
    let tokenpart := input.drop mid
    match stripPrefix userPrefix userpart with
    | none => .error (.mechanismError .xoauth2Format)
    | some rawAuthid =>
      match (stripPrefix authPrefix tokenpart).bind (stripSuffix endMark) with
      | none => .error (.mechanismError .xoauth2Format)
      | some rawToken =>
        match fromUtf8 rawAuthid with
        | none => .error (.mechanismError .xoauth2User)
        | some authid =>
          match fromUtf8 rawToken with
          | none => .error (.mechanismError .xoauth2Token)
          | some token => .ok (authid, token)

/-- The closure given to `need_with`, src/mechanisms/xoauth2/server.rs:98-106. -/
def onResult : Except Str Unit → M OAuthSState State
  | .error error => do
    M.writeAll (Str.bytes error)
    M.set .errored
    pure .running
  | .ok () => pure (.finished .no)

/-- `XOAuth2::step` of the server, src/mechanisms/xoauth2/server.rs:63-119. -/
def serverStep (env : Env) (input : Option Bytes) : M OAuthSState State := do
  match ← M.get with
  | .initial => do
    let input ← M.okOr .inputDataRequired input
    let (authid, token) ← M.lift (parse input)
    let prov := provider authid token
    let state ← needWith env .xoauth2Validate prov onResult
    validate env prov
    pure state
  | .errored => pure (.finished .no)

def client : Mech := { S := OAuthCState, step := clientStep }

def server : Mech := { S := OAuthSState, step := serverStep }

end XOAuth2

namespace OAuthBearer

/-- `serde_json` for `OAuthBearerError` (src/mechanisms/oauthbearer/properties.rs:30-72), an
external dependency: `ser` gives the pieces `to_writer` writes, each with `write_all`; `de` is
`from_slice`. -/
structure Json where
  ser : OAuthBearerError → List Bytes
  de : Bytes → Option OAuthBearerError

/-- `serde_json::to_writer(writer, error).map_err(Error::Serde)?`: an I/O error is wrapped. -/
def writeJson {S : Type} : List Bytes → M S Unit
  | [] => pure ()
  | piece :: rest => do
    match ← M.attempt (M.writeAll piece) with
    | .ok () => writeJson rest
    | .error _ => M.fail (.mechanismError .oauthSerde)

/-- The `for` loop of src/mechanisms/oauthbearer/client.rs:46-50. -/
def writeKVs {S : Type} : List (Str × Str) → M S Unit
  | [] => pure ()
  | (k, v) :: rest => do
    M.writeVectored [[1], Str.bytes k, b!"=", Str.bytes v]
    writeKVs rest

/-- `OAuthBearer::step` of the client, src/mechanisms/oauthbearer/client.rs:29-87. -/
def clientStep (json : Json) (env : Env) (input : Option Bytes) : M OAuthCState State := do
  match ← M.get with
  | .initial => do
    M.writeAll (b!"n,")
    let _ ← maybeNeedWith env .authzId .empty (fun authzid => do
      M.writeAll (b!"a=")
      M.writeAll (Str.bytes authzid))
    M.writeAll (b!",")
    let _ ← maybeNeedWith env .oauthBearerKV .empty writeKVs
    needWith env .oauthBearerToken .empty (fun token =>
      M.writeVectored [XOAuth2.authPrefix, Str.bytes token, XOAuth2.endMark])
    M.set .waitingServerResponse
    pure .running
  | .waitingServerResponse => do
    M.set .done
    let input := External.orEmpty input
    if input.isEmpty then pure (.finished .no)
    else do
      let error ← M.okOr (.mechanismError .oauthSerde) (json.de input)
      action env .oauthBearerErrored .empty error
      pure (.finished .yes)
  | .done => M.fail .mechanismDone

/-- `OAuthBearerMsg`, src/mechanisms/oauthbearer/parser.rs:26-30. -/
structure Msg where
  authzid : Option Str
  token : Str
  fields : List (Str × Str)
deriving DecidableEq

/-- One round of the `for kv in it` loop, src/mechanisms/oauthbearer/parser.rs:56-70. -/
def parseKV (token : Option Str) (fields : List (Str × Str)) (kv : Bytes) :
    Except OParseError (Option Str × List (Str × Str)) :=
  match stripPrefix (b!"auth=") kv with
  | some t =>
    match fromUtf8 t with
    | some t => .ok (some t, fields)
    | none => .error .invalidUtf8
  | none =>
    match splitOn 61 kv with
    | [key, val] =>
      match fromUtf8 key with
      | none => .error .invalidUtf8
      | some key =>
        match fromUtf8 val with
        | none => .error .invalidUtf8
        | some val => .ok (token, fields ++ [(key, val)])
    | _ => .error .invalidKVPair

/-- The loop itself. -/
def parseKVs : Option Str → List (Str × Str) → List Bytes →
    Except OParseError (Option Str × List (Str × Str))
  | token, fields, [] => .ok (token, fields)
  | token, fields, kv :: rest =>
    match parseKV token fields kv with
    | .error e => .error e
    | .ok (token, fields) => parseKVs token fields rest

/-- The authzid of the gs2 header, src/mechanisms/oauthbearer/parser.rs:43-51. -/
def parseAuthzid (gs2Authzid : Bytes) : Except OParseError (Option Str) :=
  if gs2Authzid.isEmpty then .ok none
  else
    match stripPrefix (b!"a=") gs2Authzid with
    | some rem =>
      match fromUtf8 rem with
      | some a => .ok (some a)
      | none => .error .invalidUtf8
    | none => .error .invalidGs2

/-- `OAuthBearerMsg::parse`, src/mechanisms/oauthbearer/parser.rs:33-81. -/
def Msg.parse (bytes : Bytes) : Except OParseError Msg :=
  match stripSuffix [1, 1] bytes with
  | none => .error .missingEnd
  | some bytes =>
    match splitOn 1 bytes with
    | [] => .error .missingPart
    | gs2 :: it =>
      match splitOn 44 gs2 with
      | [] => .error .invalidGs2
      | gs2First :: rest =>
        if gs2First ≠ b!"n" then .error .channelBindings
        else
          match rest with
          | [] => .error .invalidGs2
          | gs2Authzid :: _ =>
            match parseAuthzid gs2Authzid with
            | .error e => .error e
            | .ok authzid =>
              match parseKVs none [] it with
              | .error e => .error e
              | .ok (none, _) => .error .missingToken
              | .ok (some token, fields) => .ok ⟨authzid, token, fields⟩

/-- `Prov`, src/mechanisms/oauthbearer/server.rs:26-40. -/
def provider (msg : Msg) : Provider :=
  .chain ((msg.authzid.map (PV.mk .authzId)).toList ++
    [⟨.oauthBearerToken, msg.token⟩, ⟨.oauthBearerKV, msg.fields⟩])

/-- The closure given to `need_with`, src/mechanisms/oauthbearer/server.rs:65-73. -/
def onResult (json : Json) : Except OAuthBearerError Unit → M OAuthSState State
  | .error error => do
    writeJson (json.ser error)
    M.set .errored
    pure .running
  | .ok () => pure (.finished .no)

/-- `OAuthBearer::step` of the server, src/mechanisms/oauthbearer/server.rs:43-83. -/
def serverStep (json : Json) (env : Env) (input : Option Bytes) : M OAuthSState State := do
  match ← M.get with
  | .initial => do
    let input ← M.okOr .inputDataRequired input
    match Msg.parse input with
    | .error e => M.fail (.mechanismError (.oauthParse e))
    | .ok msg => do
      let state ← needWith env .oauthBearerValidate (provider msg) (onResult json)
      validate env (provider msg)
      pure state
  | .errored => pure (.finished .no)

def client (json : Json) : Mech := { S := OAuthCState, step := clientStep json }

def server (json : Json) : Mech := { S := OAuthSState, step := serverStep json }

end OAuthBearer

end Rsasl

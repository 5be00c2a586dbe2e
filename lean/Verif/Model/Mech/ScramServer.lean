/-
The SCRAM server (`src/mechanisms/scram/server.rs`).
-/
import Verif.Model.Mech.ScramClient

namespace Rsasl.Scram

/-- `FinalInner`, src/mechanisms/scram/server.rs:235-245. -/
structure FinalInner where
  clientNonce : Bytes
  serverNonce : Bytes
  gs2Header : Bytes
  username : Str
  authzid : Option Str
  salt : Bytes
  iterations : Bytes
  storedKey : Bytes
  serverKey : Bytes
deriving DecidableEq

/-- `ScramServerState`, src/mechanisms/scram/server.rs:419-423. `canCb` is `CBSupport` (63-68);
the data of `WaitingClientFinal` (232-234) is `none` for an unknown user. -/
inductive SState where
  | waitingClientFirst (canCb : Bool)
  | waitingClientFinal (data : Option FinalInner)
  | finished
deriving DecidableEq

/-- `ScramServer`, src/mechanisms/scram/server.rs:70-72. -/
abbrev SS := Option SState

/-- `ScramServer::new`, src/mechanisms/scram/server.rs:74-83. -/
def serverNew (canCb : Bool) : SS := some (.waitingClientFirst canCb)

/-- `ScramServer::new_plus`, src/mechanisms/scram/server.rs:85-90. -/
def serverNewPlus : SS := some (.waitingClientFirst true)

/-- `Prov`, src/mechanisms/scram/server.rs:93-106. -/
def serverProvider (authid : Str) (authzid : Option Str) : Provider :=
  .chain (⟨.authId, authid⟩ :: (authzid.map (PV.mk .authzId)).toList)

/-- `DEFAULT_ITERATIONS`, src/mechanisms/scram/server.rs:38. -/
def defaultIterations : Bytes := b!"16384"

/-- `DEFAULT_SALT_LEN`, src/mechanisms/scram/server.rs:39. -/
def defaultSaltLen : Nat := 32

/-- The local `gs2_header` of `handle_client_first`, src/mechanisms/scram/server.rs:141. -/
abbrev Hdr := SS × Bytes

/-- A channel binding name as a `str`. The code uses `from_utf8_unchecked` after checking that
the bytes are ASCII; this is the same for such bytes. -/
def asciiStr (b : Bytes) : Str := b.map fun x => Char.ofNat x.toNat

/-- The channel binding part, src/mechanisms/scram/server.rs:147-161. -/
def serverCb (env : Env) (canCb : Bool) (prov : Provider) : CbFlag → M Hdr Unit
  | .supportedNotUsed =>
    if canCb then M.fail (.mechanismError .scramChannelBindingsNotUsed) else pure ()
  | .notSupported => pure ()
  | .used name =>
    needCbData env (asciiStr name) prov (fun cbdata =>
      M.modify fun (s, h) => (s, h ++ cbdata))

/-- What `handle_client_first` keeps of a stored password. -/
structure Params where
  iterations : Bytes
  salt : Bytes
  storedKey : Bytes
  serverKey : Bytes

/-- The closure for the stored password, src/mechanisms/scram/server.rs:165-187. -/
def useStored {S : Type} (d : Digest) (p : StoredPassword) : M S Params :=
  if p.storedKey.length ≠ d.outLen ∨ p.serverKey.length ≠ d.outLen then
    M.fail (.mechanismError .scramPasswordHashInvalid)
  else
    pure ⟨Str.bytes (decimal p.iterations), Base64.encode p.salt, p.storedKey, p.serverKey⟩

/-- `handle_client_first`, src/mechanisms/scram/server.rs:121-229, with the `gs2_header` as a
local variable. -/
def handleClientFirst (d : Digest) (n : Nat) (env : Env) (canCb : Bool) (msg : ClientFirst) :
    M Hdr SState := do
  let prov := serverProvider msg.username msg.authzid
  serverCb env canCb prov msg.cbflag
  let params ← maybeNeedWith env .scramStoredPassword prov (useStored d)
  let serverNonce ← generateNonce n
  match params with
  | some p => do
    M.writeVectored (ServerFirst.ioslices ⟨msg.nonce, some serverNonce, p.salt, p.iterations⟩)
    let (_, gs2) ← M.get
    pure (.waitingClientFinal (some
      { clientNonce := msg.nonce, serverNonce := serverNonce, gs2Header := gs2,
        username := msg.username, authzid := msg.authzid, salt := p.salt,
        iterations := p.iterations, storedKey := p.storedKey, serverKey := p.serverKey }))
  | none => do
    let draws ← M.draw defaultSaltLen
    let salt := Base64.encode (draws.map UInt8.ofNat)
    M.writeVectored (ServerFirst.ioslices ⟨msg.nonce, some serverNonce, salt, defaultIterations⟩)
    pure (.waitingClientFinal none)

/-- The decision part of `handle_client_final`, src/mechanisms/scram/server.rs:305-369: the
server's verifier, or the error to be sent. `none` as data is the unknown user (371). -/
def judge (d : Digest) (data : Option FinalInner) (msg : ClientFinal) :
    Except SessionError (Except ServerErrorValue (FinalInner × Bytes)) :=
  match data with
  | none => .ok (.error .unknownUser)
  | some f =>
    match Base64.decode msg.channelBinding with
    | none => .error (protoErr .base64Decode)
    | some cb =>
      if f.gs2Header ≠ cb then .ok (.error .channelBindingsDontMatch)
      else
        match stripPrefix f.clientNonce msg.nonce with
        | none => .ok (.error .invalidProof)
        | some remainder =>
          if remainder = f.serverNonce ∧ msg.proof.length ≤ d.outLen * 4 / 3 + 3 then
            match Base64.decodeSlice d.outLen msg.proof with
            | none => .error (protoErr .base64Decode)
            | some proof =>
              let (clientSignature, serverSignature) :=
                computeSignatures d f.storedKey f.serverKey f.username f.clientNonce
                  f.serverNonce f.salt f.iterations msg.channelBinding
              let clientKey := xor proof clientSignature
              if f.storedKey = d.hash clientKey then .ok (.ok (f, serverSignature))
              else .ok (.error .invalidProof)
          else .ok (.error .invalidProof)

/-- `handle_client_final`, src/mechanisms/scram/server.rs:280-378. -/
def handleClientFinal (d : Digest) (env : Env) (data : Option FinalInner) (input : Bytes) :
    M SS Unit := do
  let msg ← M.liftOutcome (ClientFinal.parse input)
  match ← M.lift (judge d data msg) with
  | .ok (f, serverSignature) => do
    M.writeVectored (ServerFinal.ioslices (.verifier (Base64.encode serverSignature)))
    validate env (serverProvider f.username f.authzid)
  | .error e => M.writeVectored (ServerFinal.ioslices (.error e))

/-- `ScramServer::step`, src/mechanisms/scram/server.rs:426-455. -/
def serverStep (d : Digest) (n : Nat) (env : Env) (input : Option Bytes) : M SS State := do
  let st ← M.get
  M.set none
  match st with
  | some (.waitingClientFirst canCb) => do
    let input ← M.okOr .inputDataRequired input
    let msg ← M.liftOutcome (ClientFirst.parse input)
    let new ← M.withLocal msg.gs2Header (handleClientFirst d n env canCb msg)
    M.set (some new)
    pure .running
  | some (.waitingClientFinal data) => do
    let input ← M.okOr .inputDataRequired input
    handleClientFinal d env data input
    M.set (some .finished)
    pure (.finished .yes)
  | some .finished => M.fail .mechanismDone
  | none => M.panic

/-- SCRAM, server side. -/
abbrev server (d : Digest) : Mech := { S := SS, step := serverStep d nonceLen }

end Rsasl.Scram

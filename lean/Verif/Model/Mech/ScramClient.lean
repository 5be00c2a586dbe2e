/-
The SCRAM client (`src/mechanisms/scram/client.rs`).
-/
import Verif.Model.Mech.ScramTools

namespace Rsasl.Scram

/-- `CbSupport`, src/mechanisms/scram/client.rs:32-36. -/
inductive CbSupport where
  | clientNoSupport | serverNoSupport | supported
deriving DecidableEq

/-- `ScramClientState`, src/mechanisms/scram/client.rs:62-66, with the fields of
`WaitingServerFirst` (240-250) and `WaitingServerFinal` (392-398). -/
inductive CState where
  | initial (plus : CbSupport)
  | clientFirst (channelBindings clientNonce : Bytes) (username : Str)
  | serverFirst (verifier clientKey serverKey salt : Bytes) (iterations : UInt32)
deriving DecidableEq

/-- `ScramClient`, src/mechanisms/scram/client.rs:37-39: the state is an `Option`. -/
abbrev CS := Option CState

/-- `ScramClient::new`, src/mechanisms/scram/client.rs:42-51. -/
def clientNew (setCbClientNoSupport : Bool) : CS :=
  some (.initial (if setCbClientNoSupport then .clientNoSupport else .serverNoSupport))

/-- `ScramClient::new_plus`, src/mechanisms/scram/client.rs:53-59. -/
def clientNewPlus : CS := some (.initial .supported)

/-- The local variables of `send_client_first` that closures change,
src/mechanisms/scram/client.rs:164-165. -/
structure Gs2 where
  header : Bytes := []
  cbdata : Option Bytes := none

/-- `SaslName::escape(x)?`: the error becomes a mechanism error. -/
def escapeM {S : Type} (x : Str) : M S Str :=
  match escape x with
  | .ok s => pure s
  | .error e => M.fail (.mechanismError (.saslName e))

/-- `gs2_header.extend_from_slice(b)` -/
def pushHeader (b : Bytes) : M (CS × Gs2) Unit :=
  M.modify fun (s, l) => (s, { l with header := l.header ++ b })

/-- `cbdata = Some(b)` -/
def setCbdata (b : Bytes) : M (CS × Gs2) Unit :=
  M.modify fun (s, l) => (s, { l with cbdata := some b })

/-- `"tls-exporter"` -/
def tlsExporter : Str := c!"tls-exporter"

/-- `"tls-unique"` -/
def tlsUnique : Str := c!"tls-unique"

/-- The channel binding part of `send_client_first`, src/mechanisms/scram/client.rs:167-199. -/
def clientCb (env : Env) : CbSupport → M (CS × Gs2) Unit
  | .supported => do
    pushHeader (b!"p=")
    let cbtype ← maybeNeedWith env .overrideCBType .empty (fun cbname => do
      pushHeader (Str.bytes cbname)
      pure cbname)
    match cbtype with
    | some cbname => needCbData env cbname .empty setCbdata
    | none => do
      let exporter ← maybeNeedCbData env tlsExporter .empty (fun cb => do
        pushHeader (Str.bytes tlsExporter)
        setCbdata cb)
      match exporter with
      | some _ => pure ()
      | none =>
        needCbData env tlsUnique .empty (fun cb => do
          pushHeader (Str.bytes tlsUnique)
          setCbdata cb)
  | .serverNoSupport => pushHeader (b!"y")
  | .clientNoSupport => pushHeader (b!"n")

/-- The AuthzId closure, src/mechanisms/scram/client.rs:202-207. -/
def clientAuthzid (authzid : Str) : M (CS × Gs2) Unit := do
  pushHeader (b!"a=")
  let escaped ← escapeM authzid
  pushHeader (Str.bytes escaped)

/-- `send_client_first`, src/mechanisms/scram/client.rs:154-236, as run from `step`: the new
state. -/
def sendClientFirst (n : Nat) (env : Env) (plus : CbSupport) : M (CS × Gs2) CState := do
  clientCb env plus
  pushHeader (b!",")
  let _ ← maybeNeedWith env .authzId .empty clientAuthzid
  pushHeader (b!",")
  let username ← needWith env .authId .empty escapeM
  let nonce ← generateNonce n
  let (_, l) ← M.get
  M.writeVectored [l.header, b!"n=", Str.bytes username, b!",r=", nonce]
  let cb := match l.cbdata with
    | some cbdata => l.header ++ cbdata
    | none => l.header
  pure (.clientFirst (Base64.encode cb) nonce username)

/-- `ScramClientProvider`, src/mechanisms/scram/client.rs:529-539. -/
def clientProvider (salt : Bytes) (iterations : UInt32) : Provider :=
  .chain [⟨.salt, salt⟩, ⟨.iterations, iterations⟩]

/-- `SCRAMError::Protocol(e).into()` -/
def protoErr (e : ProtocolError) : SessionError := .mechanismError (.scramProtocol e)

/-- The closure for cached keys, src/mechanisms/scram/client.rs:309-317: `clone_from_slice`
panics unless the length is right. -/
def useCached (d : Digest) (c : CachedPassword) : M CS (Bytes × Bytes) :=
  if c.clientKey.length = d.outLen ∧ c.serverKey.length = d.outLen then
    pure (c.clientKey, c.serverKey)
  else M.panic

/-- The closure for a salted password, src/mechanisms/scram/client.rs:324-330. -/
def useSalted (d : Digest) (password : Bytes) : M CS (Bytes × Bytes) :=
  if password.isEmpty then M.fail (.callbackError .noValue)
  else pure (deriveKeys d password)

/-- The closure for a plain password, src/mechanisms/scram/client.rs:337-344. -/
def usePassword (d : Digest) (iterations : UInt32) (salt : Bytes) (password : Bytes) :
    M CS (Bytes × Bytes) :=
  pure (deriveKeys d (hashPassword d password iterations salt))

/-- How the keys are found, src/mechanisms/scram/client.rs:304-349. -/
def clientKeys (d : Digest) (env : Env) (prov : Provider) (iterations : UInt32) (salt : Bytes) :
    M CS (Bytes × Bytes) := do
  match ← maybeNeedWith env .scramCachedPassword prov (useCached d) with
  | some keys => pure keys
  | none =>
    match ← maybeNeedWith env .saltedPassword prov (useSalted d) with
    | some keys => pure keys
    | none => needWith env .password prov (usePassword d iterations salt)

/-- The checks on the server's first message, src/mechanisms/scram/client.rs:272-297: its fields,
the server nonce, the iteration count and the salt. -/
def checkServerFirst (clientNonce input : Bytes) :
    Outcome (ServerFirst × Bytes × UInt32 × Bytes) := do
  let sf ← ServerFirst.parse input
  match stripPrefix clientNonce sf.nonce with
  | none => .err (protoErr .invalidNonce)
  | some serverNonce =>
    if serverNonce.isEmpty then .err (protoErr .invalidNonce)
    else do
      let count ← utf8 sf.iterationCount
      match parseU32 count with
      | none => .err (protoErr .iterationCountFormat)
      | some iterations =>
        if iterations = 0 then .err (protoErr .iterationCountZero)
        else
          match Base64.decode sf.salt with
          | none => .err (protoErr .base64Decode)
          | some salt => .ok (sf, serverNonce, iterations, salt)

/-- `handle_server_first`, src/mechanisms/scram/client.rs:265-388. -/
def handleServerFirst (d : Digest) (env : Env) (channelBindings clientNonce : Bytes)
    (username : Str) (input : Bytes) : M CS CState := do
  let (sf, serverNonce, iterations, salt) ← M.liftOutcome (checkServerFirst clientNonce input)
  let (clientKey, serverKey) ← clientKeys d env (clientProvider salt iterations) iterations salt
  let (clientSignature, serverSignature) :=
    computeSignatures d (d.hash clientKey) serverKey username clientNonce serverNonce sf.salt
      sf.iterationCount channelBindings
  let proof := xor clientKey clientSignature
  M.writeVectored
    (ClientFinal.ioslices ⟨channelBindings, sf.nonce, Base64.encode proof⟩)
  pure (.serverFirst serverSignature clientKey serverKey salt iterations)

/-- `handle_server_final`, src/mechanisms/scram/client.rs:417-449. -/
def handleServerFinal (env : Env) (verifier clientKey serverKey salt : Bytes)
    (iterations : UInt32) (input : Bytes) : M CS Unit := do
  match ← M.liftOutcome (ServerFinal.parse input) with
  | .verifier v64 =>
    match Base64.decode v64 with
    | none => M.fail (protoErr .base64Decode)
    | some v =>
      if verifier = v then do
        let _ ← M.attempt (action env .scramCachedPassword (clientProvider salt iterations)
          (⟨clientKey, serverKey⟩ : CachedPassword))
        pure ()
      else M.fail .mutualAuthenticationFailed
  | .error e => M.fail (.mechanismError (.scramServer e))

/-- `ScramClient::step`, src/mechanisms/scram/client.rs:458-490. `self.state.take()` leaves
`None`; it is only filled again at the end of a successful, non-final step. -/
def clientStep (d : Digest) (n : Nat) (env : Env) (input : Option Bytes) : M CS State := do
  let st ← M.get
  M.set none
  match st with
  | some (.initial plus) => do
    let new ← M.withLocal {} (sendClientFirst n env plus)
    M.set (some new)
    pure .running
  | some (.clientFirst cb nonce username) => do
    let serverFirst ← M.okOr .inputDataRequired input
    let new ← handleServerFirst d env cb nonce username serverFirst
    M.set (some new)
    pure .running
  | some (.serverFirst verifier ck sk salt iterations) => do
    let serverFinal ← M.okOr .inputDataRequired input
    handleServerFinal env verifier ck sk salt iterations serverFinal
    pure (.finished .no)
  | none => M.panic

/-- `NONCE_LEN`, src/mechanisms/scram/mechinfo.rs:9. -/
def nonceLen : Nat := 24

/-- SCRAM, client side. -/
abbrev client (d : Digest) : Mech := { S := CS, step := clientStep d nonceLen }

end Rsasl.Scram

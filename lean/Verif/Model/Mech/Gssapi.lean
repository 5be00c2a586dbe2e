/-
GSSAPI (`src/mechanisms/gssapi`) over an abstract GSS-API library.
-/
import Verif.Model.Session

namespace Rsasl

namespace SecurityLayer

/-- src/mechanisms/gssapi/properties.rs:44 -/
def none : SecurityLayer := ⟨1⟩
/-- src/mechanisms/gssapi/properties.rs:45 -/
def integrity : SecurityLayer := ⟨2⟩
/-- src/mechanisms/gssapi/properties.rs:46 -/
def confidentiality : SecurityLayer := ⟨4⟩

/-- `SecurityLayer::default()`, src/mechanisms/gssapi/properties.rs:50-54. -/
def all : SecurityLayer := ⟨7⟩

/-- `bitflags`: `self & other == other` -/
def contains (a b : SecurityLayer) : Bool := a.bits &&& b.bits == b.bits

/-- `bitflags`: `self & other != 0` -/
def intersects (a b : SecurityLayer) : Bool := a.bits &&& b.bits != 0

def isEmpty (a : SecurityLayer) : Bool := a.bits == 0

def inter (a b : SecurityLayer) : SecurityLayer := ⟨a.bits &&& b.bits⟩

def union (a b : SecurityLayer) : SecurityLayer := ⟨a.bits ||| b.bits⟩

/-- `set(other, false)` -/
def remove (a b : SecurityLayer) : SecurityLayer := ⟨a.bits &&& ~~~b.bits⟩

/-- `from_bits`: `None` if an unknown bit is set. -/
def fromBits (b : UInt8) : Option SecurityLayer := if b &&& 7 = b then some ⟨b⟩ else .none

end SecurityLayer

namespace Gssapi

/-- The `CtxFlags` the code looks at. -/
structure Flags where
  mutualAuth : Bool
  conf : Bool
  integ : Bool
deriving DecidableEq

/-- The `libgssapi` crate, an external dependency. Errors are numbers. Every call that takes
`&mut self` gives back the changed context, also when it fails. -/
structure Lib where
  Ctx : Type
  /-- `Name::new`, `OidSet`, `Cred::acquire`, `ClientCtx::new` -/
  newClient : Bytes → Except Nat Ctx
  /-- `OidSet`, `Cred::acquire`, `ServerCtx::new` -/
  newServer : Except Nat Ctx
  clientStep : Ctx → Option Bytes → Except Nat (Option Bytes) × Ctx
  serverStep : Ctx → Bytes → Except Nat (Option Bytes) × Ctx
  isComplete : Ctx → Bool
  flags : Ctx → Except Nat Flags
  /-- `wrap(encrypt, msg)` -/
  wrap : Ctx → Bool → Bytes → Except Nat Bytes × Ctx
  unwrap : Ctx → Bytes → Except Nat Bytes × Ctx

/-- `.map_err(Error::Gss)?` -/
def liftGss {S α : Type} : Except Nat α → M S α
  | .ok a => pure a
  | .error n => M.fail (.mechanismError (.gss n))

def badFinalToken : SessionError := .mechanismError .gssBadFinalToken
def badContext : SessionError := .mechanismError .gssBadContext

variable (lib : Lib)

/-- `GssapiState` of the client, src/mechanisms/gssapi/client.rs:19-25. -/
inductive CState where
  | initial
  | pending (ctx : lib.Ctx)
  | last (ctx : lib.Ctx) (acceptable : SecurityLayer)
  | completed (layer : Option (lib.Ctx × Bool))
  | errored

/-- `GssapiState` of the server, src/mechanisms/gssapi/server.rs:19-26. -/
inductive SState where
  | initial
  | pending (ctx : lib.Ctx)
  | installed (ctx : lib.Ctx) (supported : SecurityLayer)
  | final (ctx : lib.Ctx) (supported : SecurityLayer)
  | done (layer : Option (lib.Ctx × Bool))
  | errored

/-- The closure asking for acceptable layers, src/mechanisms/gssapi/client.rs:96-123. -/
def clientAcceptable (ctx : lib.Ctx) (acceptable : SecurityLayer) :
    M (CState lib) SecurityLayer := do
  let flags ← liftGss (lib.flags ctx)
  if acceptable.isEmpty || acceptable.contains .none then pure acceptable
  else if acceptable.contains .integrity && flags.integ then pure acceptable
  else if flags.integ && flags.mutualAuth && flags.conf then pure acceptable
  else M.fail badContext

/-- The `Pending` arm, src/mechanisms/gssapi/client.rs:83-128. -/
def clientPending (env : Env) (ctx : lib.Ctx) (input : Option Bytes) : M (CState lib) State := do
  let (res, ctx) := lib.clientStep ctx input
  let token ← liftGss res
  match token with
  | some token => if token.isEmpty then pure () else M.writeAll token
  | none => pure ()
  if lib.isComplete ctx then do
    let acceptable ← maybeNeedWith env .gssSecurityLayer .empty (clientAcceptable lib ctx)
    let acceptable := match acceptable with
      | some a => a
      | none => .all
    M.set (.last ctx acceptable)
    pure .running
  else do
    M.set (.pending ctx)
    pure .running

/-- The choice of a layer, src/mechanisms/gssapi/client.rs:141-160: the answer token and whether
to wrap, and then to encrypt. -/
def clientChoose (supported acceptable : SecurityLayer) : Option (Bytes × Option Bool) :=
  let shared := supported.inter acceptable
  if shared.contains .confidentiality then
    some ([SecurityLayer.confidentiality.bits, 0xFF, 0xFF, 0xFF], some true)
  else if shared.contains .integrity then
    some ([SecurityLayer.integrity.bits, 0xFF, 0xFF, 0xFF], some false)
  else if shared.contains .none then
    some ([SecurityLayer.none.bits, 0x00, 0x00, 0x00], none)
  else none

/-- A four byte token as `(first, rest)`; `Err(BadFinalToken)` otherwise,
src/mechanisms/gssapi/client.rs:131-137 and server.rs:121-126. -/
def finalToken (unwrapped : Bytes) : Except SessionError SecurityLayer :=
  match unwrapped with
  | [b, _, _, _] =>
    match SecurityLayer.fromBits b with
    | some l => .ok l
    | none => .error badFinalToken
  | _ => .error badFinalToken

/-- `Gssapi::step` of the client, src/mechanisms/gssapi/client.rs:46-169. The recursive call at
81 always continues in the `Pending` arm. -/
def clientStep (env : Env) (input : Option Bytes) : M (CState lib) State := do
  let st ← M.get
  M.set .errored
  match st with
  | .initial => do
    let service ← needWith env .gssService .empty (fun s => pure s)
    let hostname ← needWith env .hostname .empty (fun h => pure h)
    let ctx ← liftGss (lib.newClient (Str.bytes (service ++ '@' :: hostname)))
    clientPending lib env ctx input
  | .pending ctx => clientPending lib env ctx input
  | .last ctx acceptable => do
    let input ← M.okOr .inputDataRequired input
    let (res, ctx) := lib.unwrap ctx input
    let unwrapped ← liftGss res
    let supported ← M.lift (finalToken unwrapped)
    match clientChoose supported acceptable with
    | none => M.fail badContext
    | some (response, wrap) => do
      let (res, ctx) := lib.wrap ctx false response
      let wrapped ← liftGss res
      M.writeAll wrapped
      M.set (.completed (wrap.map fun e => (ctx, e)))
      pure (.finished .yes)
  | .completed _ | .errored => M.fail .mechanismDone

/-- The layers left after looking at the context's flags, src/mechanisms/gssapi/server.rs:79-85. -/
def serverRestrict (acceptable : SecurityLayer) (flags : Flags) : SecurityLayer :=
  let a := if flags.mutualAuth && flags.conf then acceptable else acceptable.remove .confidentiality
  if flags.integ then a else a.remove .integrity

/-- The `Installed` arm, src/mechanisms/gssapi/server.rs:104-118. -/
def serverInstalled (ctx : lib.Ctx) (supported : SecurityLayer) : M (SState lib) State := do
  let outBytes : Bytes :=
    if supported.intersects (SecurityLayer.confidentiality.union .integrity) then
      [supported.bits, 0xFF, 0xFF, 0xFF]
    else [supported.bits, 0x00, 0x00, 0x00]
  let (res, ctx) := lib.wrap ctx false outBytes
  let wrapped ← liftGss res
  M.writeAll wrapped
  M.set (.final ctx supported)
  pure .running

/-- The `Pending` arm, src/mechanisms/gssapi/server.rs:66-103. While the context is incomplete
`self.state` stays `Errored`. The recursive call at 101 ends up in the `Installed` arm, or
with `MechanismDone` if the context is incomplete. -/
def serverPending (env : Env) (ctx : lib.Ctx) (input : Option Bytes) : M (SState lib) State := do
  let input ← M.okOr .inputDataRequired input
  let (res, ctx) := lib.serverStep ctx input
  let token ← liftGss res
  if lib.isComplete ctx then do
    let acceptable ← maybeNeedWith env .gssSecurityLayer .empty (fun a => pure a)
    let acceptable := match acceptable with
      | some a => a
      | none => .all
    let flags ← liftGss (lib.flags ctx)
    let acceptable := serverRestrict acceptable flags
    if acceptable.isEmpty then M.fail badContext
    else do
      M.set (.installed ctx acceptable)
      match token with
      | some token => do
        M.writeAll token
        pure .running
      | none => do
        M.set .errored
        serverInstalled lib ctx acceptable
  else
    match token with
    | some token => do
      M.writeAll token
      pure .running
    | none => M.fail .mechanismDone

/-- The layer in force after the client's choice, src/mechanisms/gssapi/server.rs:133-139. -/
def serverWrap (selected : SecurityLayer) : Option Bool :=
  if selected.contains .confidentiality then some true
  else if selected.contains .integrity then some false
  else none

/-- `Gssapi::step` of the server, src/mechanisms/gssapi/server.rs:50-147. -/
def serverStep (env : Env) (input : Option Bytes) : M (SState lib) State := do
  let st ← M.get
  M.set .errored
  match st with
  | .initial => do
    let ctx ← liftGss lib.newServer
    -- src/mechanisms/gssapi/server.rs:63-64: `Pending` is set and taken again
    serverPending lib env ctx input
  | .pending ctx => serverPending lib env ctx input
  | .installed ctx supported => serverInstalled lib ctx supported
  | .final ctx supported => do
    let input ← M.okOr .inputDataRequired input
    let (res, ctx) := lib.unwrap ctx input
    let unwrapped ← liftGss res
    let selected ← M.lift (finalToken unwrapped)
    if selected.intersects supported then do
      M.set (.done ((serverWrap selected).map fun e => (ctx, e)))
      pure (.finished .no)
    else M.fail badFinalToken
  | .done _ | .errored => M.fail .mechanismDone

/-- `encode` of either side once a layer is in force (src/mechanisms/gssapi/client.rs:173-177,
server.rs:156-160): `put` stores the changed context. -/
def layerEncode {S : Type} (put : lib.Ctx → S) (ctx : lib.Ctx) (encrypt : Bool) (input : Bytes) :
    M S Nat := do
  let (res, ctx) := lib.wrap ctx encrypt input
  M.set (put ctx)
  let wrapped ← liftGss res
  M.writeAll wrapped
  pure input.length

/-- `decode` of either side (src/mechanisms/gssapi/client.rs:184-188, server.rs:167-171). -/
def layerDecode {S : Type} (put : lib.Ctx → S) (ctx : lib.Ctx) (input : Bytes) : M S Nat := do
  let (res, ctx) := lib.unwrap ctx input
  M.set (put ctx)
  let unwrapped ← liftGss res
  M.writeAll unwrapped
  pure input.length

/-- src/mechanisms/gssapi/client.rs:171-180 -/
def clientEncode (input : Bytes) : M (CState lib) Nat := do
  match ← M.get with
  | .completed (some (ctx, encrypt)) =>
    layerEncode lib (fun c => .completed (some (c, encrypt))) ctx encrypt input
  | _ => M.fail .noSecurityLayer

/-- src/mechanisms/gssapi/client.rs:182-191 -/
def clientDecode (input : Bytes) : M (CState lib) Nat := do
  match ← M.get with
  | .completed (some (ctx, encrypt)) =>
    layerDecode lib (fun c => .completed (some (c, encrypt))) ctx input
  | _ => M.fail .noSecurityLayer

/-- src/mechanisms/gssapi/client.rs:193-195 -/
def clientHasLayer : CState lib → Bool
  | .completed (some _) => true
  | _ => false

/-- src/mechanisms/gssapi/server.rs:154-163 -/
def serverEncode (input : Bytes) : M (SState lib) Nat := do
  match ← M.get with
  | .done (some (ctx, encrypt)) =>
    layerEncode lib (fun c => .done (some (c, encrypt))) ctx encrypt input
  | _ => M.fail .noSecurityLayer

/-- src/mechanisms/gssapi/server.rs:165-174 -/
def serverDecode (input : Bytes) : M (SState lib) Nat := do
  match ← M.get with
  | .done (some (ctx, encrypt)) =>
    layerDecode lib (fun c => .done (some (c, encrypt))) ctx input
  | _ => M.fail .noSecurityLayer

/-- src/mechanisms/gssapi/server.rs:149-152 -/
def serverHasLayer : SState lib → Bool
  | .done (some _) => true
  | _ => false

/-- GSSAPI, client side. -/
def client : Mech :=
  { S := CState lib, step := clientStep lib, encode := clientEncode lib,
    decode := clientDecode lib, hasLayer := clientHasLayer lib }

/-- GSSAPI, server side. -/
def server : Mech :=
  { S := SState lib, step := serverStep lib, encode := serverEncode lib,
    decode := serverDecode lib, hasLayer := serverHasLayer lib }

end Gssapi

end Rsasl

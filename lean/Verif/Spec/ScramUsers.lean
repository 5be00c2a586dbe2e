/-
A SCRAM server that knows a user, and one that does not.
-/
import Verif.Spec.ScramExchange
import Verif.Spec.ScramSession

namespace Rsasl.Spec

open Scram

/-- A salt: 32 bytes chosen by the numbers drawn after those of a nonce. -/
def drawnSalt (rng : Nat → Nat) : Bytes := (List.range 32).map fun i => UInt8.ofNat (rng (i + 24))

/-- The server's callback knows the user: it has a usable stored password. -/
structure Knows (d : Digest) (env : Env) (canCb : Bool) (flag : CbFlag) (authzid : Option Str)
    (user : Str) (data : Bytes) (stored : StoredPassword) : Prop where
  binding : ServerBinding env canCb user authzid flag data
  gives : env.GivesAt (scramOffer user authzid) .scramStoredPassword stored
  storedKey : stored.storedKey.length = d.outLen
  serverKey : stored.serverKey.length = d.outLen

/-- The server's callback does not know the user. -/
structure Unaware (env : Env) (canCb : Bool) (flag : CbFlag) (authzid : Option Str) (user : Str)
    (data : Bytes) : Prop where
  binding : ServerBinding env canCb user authzid flag data
  lacks : env.LacksAt (scramOffer user authzid) .scramStoredPassword

end Rsasl.Spec

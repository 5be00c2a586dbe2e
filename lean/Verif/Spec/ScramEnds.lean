/-
How a SCRAM exchange between a client and a server of this crate ends, once the client has sent its proof.
-/
import Verif.Spec.ScramMeets

namespace Rsasl.Spec

open Scram

/-- The last step of each side. -/
structure LastSteps where
  server : Reply State × Session SS
  client : Reply State × Session CS

/-- An exchange in which three messages are sent. The server's last step is on the third one, the client's on what the server
has said to it, however that step ended. -/
def scramEnding (d : Digest) (cenv senv : Env) (c : Session CS) (s : Session SS) (w : Fin 5 → List WResp) :
    Option LastSteps :=
  (passed (c.step (client d) cenv ⟨none, w 0⟩)).bind fun (m₁, c) =>
  (passed (s.step (server d) senv ⟨some m₁, w 1⟩)).bind fun (m₂, s) =>
  (passed (c.step (client d) cenv ⟨some m₂, w 2⟩)).map fun (m₃, c) =>
  let r := s.step (server d) senv ⟨some m₃, w 3⟩
  ⟨r, c.step (client d) cenv ⟨some r.1.out, w 4⟩⟩

/-- The salt and the number of iterations the client is told, and how many random numbers the server has drawn: for a user who
is not known there is a salt that was made up. -/
def saltTold (rng : Nat → Nat) : Option StoredPassword → Bytes × UInt32 × Nat
  | some p => (p.salt, p.iterations, 24)
  | none => ((List.range 32).map fun i => UInt8.ofNat (rng (i + 24)), 16384, 56)

/-- What becomes of the client's proof: a refusal, as it is sent and as it is read, or the password it was checked against. -/
def convinced (d : Digest) (stored : Option StoredPassword) (sameData : Bool) (ck auth : Bytes) :
    Except (Bytes × ServerErrorValue) StoredPassword :=
  match stored with
  | none => .error (b!"e=unknown-user", .unknownUser)
  | some p =>
    if sameData = false then .error (b!"e=channel-bindings-dont-match", .channelBindingsDontMatch)
    else if d.hash (List.zipWith (· ^^^ ·) (clientProof d ck auth) (d.hmac p.storedKey auth)) ≠ p.storedKey then
      .error (b!"e=invalid-proof", .invalidProof)
    else .ok p

/-- The last step of a client that has been sent the signature `sig` and expects `mine`: it fails, or is finished and offers
its keys to the callback. -/
def clientConvinced (env : Env) (c : Session CS) (sig mine ck sk salt : Bytes) (it : UInt32) : Reply State × Session CS :=
  if sig = mine then
    (⟨.ok (.finished .no), []⟩, { c with log := c.log ++ .notified .scramCachedPassword (.chain [⟨.salt, salt⟩, ⟨.iterations, it⟩]) ::
      if (reaction .scramCachedPassword (some (⟨ck, sk⟩ : CachedPassword))
        (env.callback c.log env.sd (.chain [⟨.salt, salt⟩, ⟨.iterations, it⟩]))).1
      then [.delivered .scramCachedPassword (⟨ck, sk⟩ : CachedPassword)] else [] })
  else (⟨.err .mutualAuthenticationFailed, []⟩, c)

/-- The last steps. A server that is not convinced says so and is finished, without a call of `validate`; the client's step
fails with what it was told. A server that is convinced sends its signature, whatever `validate` says then. -/
def lastSteps (d : Digest) (cenv senv : Env) (c : Session CS) (s : Session SS) (names : Provider)
    (verdict : Except (Bytes × ServerErrorValue) StoredPassword) (auth ck sk salt : Bytes) (it : UInt32) : LastSteps :=
  match verdict with
  | .error (text, e) =>
    ⟨(⟨.ok (.finished .yes), text⟩, { s with st := some .finished }), (⟨.err (.mechanismError (.scramServer e)), []⟩, c)⟩
  | .ok p =>
    ⟨ruling senv s names (b!"v=" ++ Base64.encode (d.hmac p.serverKey auth)) (.finished .yes) (some .finished),
      clientConvinced cenv c (d.hmac p.serverKey auth) (d.hmac sk auth) ck sk salt it⟩

end Rsasl.Spec

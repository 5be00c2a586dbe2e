/-
When a SCRAM client and a SCRAM server come to an agreement, told by what the callbacks do.
-/
import Verif.Spec.ServerSteps
import Verif.Spec.ScramGrammar

namespace Rsasl.Spec

open Scram

/-- A step that goes well: what it says and what is left. -/
def passed {S : Type} (r : Reply State × Session S) : Option (Bytes × Session S) :=
  match r.1.res with
  | .ok _ => some (r.1.out, r.2)
  | _ => none

/-- A whole exchange. Each side gets what the other one said, and the exchange is over at the first step that
fails. -/
def scramExchange (d : Digest) (cenv senv : Env) (c : Session CS) (s : Session SS) (w : Fin 5 → List WResp) :
    Option (Session CS × Session SS) :=
  (passed (c.step (client d) cenv ⟨none, w 0⟩)).bind fun (m₁, c) =>
  (passed (s.step (server d) senv ⟨some m₁, w 1⟩)).bind fun (m₂, s) =>
  (passed (c.step (client d) cenv ⟨some m₂, w 2⟩)).bind fun (m₃, c) =>
  (passed (s.step (server d) senv ⟨some m₃, w 3⟩)).bind fun (m₄, s) =>
  (passed (c.step (client d) cenv ⟨some m₄, w 4⟩)).map fun (_, c) => (c, s)

/-- The gs2 header says this, and can be read. -/
structure Heading (flag : CbFlag) (authzid : Option Str) (header : Bytes) : Prop where
  header : header = gs2Header flag authzid
  flag : FlagText flag (flagBytes flag)
  authzid : 44 ∉ authzidBytes (b!"a=") authzid

/-- The auth message of an exchange. -/
def exchangeAuth (user : Str) (cnonce snonce bound salt count : Bytes) : Bytes :=
  authMessage (clientFirstBare user cnonce) (serverFirst (cnonce ++ snonce) (Base64.encode salt) count)
    (clientFinalBare (Base64.encode bound) (cnonce ++ snonce))

/-- The two callbacks agree: the server's knows the user, the client's has keys, the binding data is the same, the stored
key is that of the client's proof, the server's signature is the one the client expects, and validation goes well. -/
def Agree (d : Digest) (cenv senv : Env) (c : Session CS) (s : Session SS) (canBind : Bool) (flag : CbFlag)
    (authzid : Option Str) (o : OpeningParts) (l₁ : List Event) : Prop :=
  ∃ p l₂ ck sk l₃,
    lookedUp d senv.chanbind (fun l ctx => senv.callback l senv.sd ctx) s.log canBind flag (writtenName o.name) authzid =
      (.ok (o.data, some p), l₂) ∧
    p.iterations ≠ 0 ∧
    gathered d (fun l ctx => cenv.callback l cenv.sd ctx) (c.log ++ l₁) p.salt p.iterations = (.are ck sk, l₃) ∧
    (let auth := exchangeAuth (writtenName o.name) (drawnNonce c.rng) (drawnNonce s.rng) (o.header ++ o.data) p.salt
      (Str.bytes (Nat.toDigits 10 p.iterations.toNat))
    d.hash (List.zipWith (· ^^^ ·) (clientProof d ck auth) (d.hmac p.storedKey auth)) = p.storedKey ∧
    d.hmac p.serverKey auth = d.hmac sk auth) ∧
    returned senv.vtag s.slot.isNone (senv.validate (s.log ++ l₂) senv.sd (namesOffered (writtenName o.name) authzid)) =
      .ok ()

end Rsasl.Spec

/-
Security layers and GSS-API handshakes, for the statements about GSSAPI.
-/
import Verif.Model.Mech.Gssapi
import Verif.Spec.Session
import Verif.Spec.Reads

namespace Rsasl.Spec

/-- A security layer of RFC 4752. -/
inductive Layer where
  | none | integrity | confidentiality
deriving DecidableEq

/-- Its bit number in a set of layers (RFC 4752, 3.3); a stronger layer has a higher number. -/
def Layer.index : Layer → Nat
  | .none => 0
  | .integrity => 1
  | .confidentiality => 2

/-- `set` has the bit of layer `l`. -/
def Allows (set : UInt8) (l : Layer) : Prop := set.toNat.testBit l.index = true

/-- `l` is the strongest layer in both sets. -/
def Strongest (a b : UInt8) (l : Layer) : Prop :=
  Allows a l ∧ Allows b l ∧ ∀ l', Allows a l' → Allows b l' → l'.index ≤ l.index

/-- The set holding just `l`. -/
def Layer.only (l : Layer) : UInt8 := UInt8.ofNat (2 ^ l.index)

/-- What the user allows, from the callback's answer: everything if there is none
(`SecurityLayer::default()`, src/mechanisms/gssapi/properties.rs:50-54). -/
def allowed : Option SecurityLayer → UInt8
  | some a => a.bits
  | none => 7

/-- What a call through a layer gives back when the library made `b` of a message of length `len`:
the library's error, or `b` written out. -/
def passedOn (len : Nat) (sched : List WResp) (b : Except Nat Bytes) : Reply Nat :=
  match b with
  | .error n => ⟨.err (.mechanismError (.gss n)), []⟩
  | .ok b =>
    match Writer.writeAll ⟨[], sched⟩ b with
    | (.ok (), w) => ⟨.ok len, w.out⟩
    | (.error e, w) => ⟨.err (.io e), w.out⟩

/-- A use of a security layer, with the behaviour of the writer. -/
inductive Use where
  | encode (msg : Bytes) (sched : List WResp)
  | decode (msg : Bytes) (sched : List WResp)

/-- The call of the session. -/
def Use.op : Use → Op
  | .encode x sched => .encode x sched
  | .decode x sched => .decode x sched

/-- What the library makes of a sequence of uses, from context `ctx` on. -/
def layered (lib : Gssapi.Lib) (encrypt : Bool) : lib.Ctx → List Use → List (Reply Nat)
  | _, [] => []
  | ctx, .encode x sched :: us =>
    passedOn x.length sched (lib.wrap ctx encrypt x).1 ::
      layered lib encrypt (lib.wrap ctx encrypt x).2 us
  | ctx, .decode x sched :: us =>
    passedOn x.length sched (lib.unwrap ctx x).1 :: layered lib encrypt (lib.unwrap ctx x).2 us

/-- The session has layer `l` in force, as seen from outside. Without a layer all uses are refused.
With one, all uses go through the library, one after the other starting from `ctx`, encrypting just
if the layer is confidentiality. -/
def InForceFrom (lib : Gssapi.Lib) (m : Mech) (ses : Session m.S) (ctx : lib.Ctx) : Layer → Prop
  | .none => ses.hasSecurityLayer m = false ∧ ∀ env (us : List Use),
      (ses.performAll m env (us.map Use.op)).1 =
        us.map fun _ => .count ⟨.err .noSecurityLayer, []⟩
  | l => ∀ env (us : List Use),
      (ses.performAll m env (us.map Use.op)).1 =
        (layered lib (l == .confidentiality) ctx us).map .count ∧
      (ses.afterAll m env (us.map Use.op)).hasSecurityLayer m = true

/-- The session has layer `l` in force, with some context. -/
def InForce (lib : Gssapi.Lib) (m : Mech) (ses : Session m.S) (l : Layer) : Prop :=
  ∃ ctx, InForceFrom lib m ses ctx l

/-- The initiator's context after feeding it the given inputs, if all were accepted. -/
def initiated (lib : Gssapi.Lib) (ctx : lib.Ctx) : List (Option Bytes) → Option lib.Ctx
  | [] => some ctx
  | i :: is =>
    match lib.clientStep ctx i with
    | (.ok _, ctx) => initiated lib ctx is
    | (.error _, _) => none

/-- `token` is the wrapped form (under `ctx`) of a four byte message starting with `bits`, which
has no unknown bit set. -/
def LayerToken (lib : Gssapi.Lib) (ctx : lib.Ctx) (token : Bytes) (bits : UInt8) : Prop :=
  bits.toNat < 8 ∧ ∃ x y z ctx', lib.unwrap ctx token = (.ok [bits, x, y, z], ctx')

end Rsasl.Spec

/-
What GSSAPI sessions are about, for the statements on both sides together: supported layers,
connected contexts, and messages sent through a layer.
-/
import Verif.Spec.Gssapi

namespace Rsasl.Spec

/-- A context with flags `fl` can protect messages with layer `l`, as the client sees it. -/
def Supports (fl : Gssapi.Flags) : Layer → Prop
  | .none => True
  | .integrity => fl.integ = true
  | .confidentiality => fl.mutualAuth = true ∧ fl.conf = true ∧ fl.integ = true

/-- `R` relates contexts at the two ends of a connection: what one end wraps, the other end
unwraps to the same message, and they stay connected. -/
structure Connects (lib : Gssapi.Lib) (R : lib.Ctx → lib.Ctx → Prop) : Prop where
  symm : ∀ c d, R c d → R d c
  carries : ∀ c d, R c d → ∀ e x, ∃ y c' d',
    lib.wrap c e x = (.ok y, c') ∧ lib.unwrap d y = (.ok x, d') ∧ R c' d'

/-- Messages sent between two sessions, from the first (`true`) or to it: what `encode` returned to
the sender, and what `decode` gave to the receiver. -/
def converse (m m' : Mech) : Session m.S → Session m'.S → List (Bool × Bytes) →
    List (Outcome Nat × Reply Nat)
  | _, _, [] => []
  | s, s', (true, x) :: ms =>
    ((s.encode m x []).1.res, (s'.decode m' (s.encode m x []).1.out []).1) ::
      converse m m' (s.encode m x []).2 (s'.decode m' (s.encode m x []).1.out []).2 ms
  | s, s', (false, x) :: ms =>
    ((s'.encode m' x []).1.res, (s.decode m (s'.encode m' x []).1.out []).1) ::
      converse m m' (s.decode m (s'.encode m' x []).1.out []).2 (s'.encode m' x []).2 ms

/-- Every message arrived as it was sent. -/
def Arrived : List (Bool × Bytes) → List (Outcome Nat × Reply Nat) → Prop
  | [], [] => True
  | m :: ms, r :: rs =>
    (r.1 = .ok m.2.length ∧ (∃ n, r.2.res = .ok n) ∧ r.2.out = m.2) ∧ Arrived ms rs
  | _, _ => False

end Rsasl.Spec

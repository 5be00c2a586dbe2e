/-
What a mechanism name is, as text (RFC 4422, section 3.1), for C88.
-/
import Verif.Model.Bytes

namespace Rsasl.Spec

/-- `UPPER-ALPHA / DIGIT / HYPHEN / UNDERSCORE` -/
def MechChar (c : Char) : Prop :=
  c ∈ c!"ABCDEFGHIJKLMNOPQRSTUVWXYZ0123456789-_"

/-- One or more of these. (The crate does not limit the length.) -/
def MechText (s : Str) : Prop := s ≠ [] ∧ ∀ c ∈ s, MechChar c

end Rsasl.Spec

/-
What a text that fits in one line of a log is.
-/
import Verif.Model.Display

namespace Rsasl.Spec

/-- No control character: none of C0, DEL, C1. -/
def Visible (c : Char) : Prop := 0x20 ≤ c.toNat ∧ ¬ (0x7F ≤ c.toNat ∧ c.toNat ≤ 0x9F)

instance (c : Char) : Decidable (Visible c) := by unfold Visible; infer_instance

/-- A text without control characters: it is one line. -/
def OneLine (s : Str) : Prop := ∀ c ∈ s, Visible c

instance (s : Str) : Decidable (OneLine s) := by unfold OneLine; infer_instance

/-- What other crates, `type_name` and the escapes of `Debug` write fits in a line. -/
structure Plainly (x : Detail) : Prop where
  foreign : OneLine x.foreign
  foreignDebug : OneLine x.foreignDebug
  typeName : ∀ p, OneLine (x.typeName p)
  escape : ∀ c, OneLine (x.escape c)

/-- The name in an error about a channel binding, if it is one, fits in a line. -/
def NamesLine : SessionError → Prop
  | .missingChannelBindingData name => OneLine name
  | _ => True

/-- The first word of a `Debug` text: up to a space or an opening parenthesis. -/
def variantWord (s : Str) : Str := s.takeWhile fun c => c ≠ '(' ∧ c ≠ ' '

end Rsasl.Spec

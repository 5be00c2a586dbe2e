/-
Text: bytes that are the UTF-8 encoding of characters.
-/
import Verif.Model.Bytes

namespace Rsasl

/-- The bytes encode a text. RFC 4616, 5802, 6595 and 7628 demand it of what is sent. -/
def Spec.IsText (b : Bytes) : Prop := ∃ s : Str, b = Str.bytes s

end Rsasl

/-
Spellings: texts that SASLprep (RFC 4013) makes equal.
-/
import Verif.Model.Bytes

namespace Rsasl

/-- Prepared for a comparison, the two texts are the same. `prep` is SASLprep, `none` for what it prohibits. -/
def Spec.SameSpelling (prep : Str → Option Str) (a b : Str) : Prop := prep a = prep b

/-- The message of RFC 4616. -/
def Spec.plainWire (authzid authcid passwd : Str) : Bytes :=
  Str.bytes authzid ++ [0] ++ Str.bytes authcid ++ [0] ++ Str.bytes passwd

/-- One rule of RFC 4013 (2.1): a soft hyphen is mapped to nothing. -/
def Spec.withoutHyphens (s : Str) : Option Str := some (s.filter (· ≠ '\u00ad'))

end Rsasl

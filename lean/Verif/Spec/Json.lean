/-
The JSON texts OAUTHBEARER servers send, and what is known about `serde_json`.
-/
import Verif.Model.Mech.OAuth

namespace Rsasl

/-- The characters a JSON string can't hold as they are (RFC 8259, 7). -/
def Spec.NeedsEscape (c : Char) : Prop := c = '"' ∨ c = '\\' ∨ c.toNat < 32

instance (c : Char) : Decidable (Spec.NeedsEscape c) := by
  unfold Spec.NeedsEscape; infer_instance

/-- A hexadecimal digit. -/
def Spec.hexDigit (n : Nat) : Char := if n < 10 then Char.ofNat (48 + n) else Char.ofNat (87 + n)

/-- A character in a JSON string: itself or its shortest escape sequence. -/
def Spec.jsonChar (c : Char) : Str :=
  if NeedsEscape c then
    if c = '"' ∨ c = '\\' then ['\\', c]
    else if c = '\x08' then ['\\', 'b']
    else if c = '\t' then ['\\', 't']
    else if c = '\n' then ['\\', 'n']
    else if c = '\x0c' then ['\\', 'f']
    else if c = '\r' then ['\\', 'r']
    else ['\\', 'u', '0', '0', hexDigit (c.toNat / 16), hexDigit (c.toNat % 16)]
  else [c]

/-- A JSON string. -/
def Spec.jsonStr (s : Str) : Bytes := 34 :: Str.bytes (s.flatMap jsonChar) ++ [34]

/-- A member of an object that is only there if it has a value. -/
def Spec.jsonMember (key : Bytes) : Option Str → Bytes
  | some v => b!",\"" ++ key ++ b!"\":" ++ jsonStr v
  | none => []

/-- The error as RFC 7628, 3.2.2 has it, without white space. -/
def Spec.errorText (e : OAuthBearerError) : Bytes :=
  b!"{\"status\":" ++ jsonStr e.status ++ jsonMember (b!"scope") e.scope ++
    jsonMember (b!"openid-configuration") e.openidConfig ++ b!"}"

/-- All fields can be written without escape sequences. -/
def Spec.Unescaped (e : OAuthBearerError) : Prop :=
  (∀ c ∈ e.status, ¬ NeedsEscape c) ∧ (∀ s ∈ e.scope, ∀ c ∈ s, ¬ NeedsEscape c) ∧
    (∀ s ∈ e.openidConfig, ∀ c ∈ s, ¬ NeedsEscape c)

/-- `serde_json` with the derived implementations of src/mechanisms/oauthbearer/properties.rs:30-72:
it writes the JSON text, reads its own text back, and, since the fields of the struct are `&str`
and have to be borrowed from the input, refuses texts whose strings have escape sequences. -/
structure Spec.Serde (json : OAuthBearer.Json) : Prop where
  writes : ∀ e, (json.ser e).flatten = errorText e
  reads : ∀ e, Unescaped e → json.de (errorText e) = some e
  borrows : ∀ e, ¬ Unescaped e → json.de (errorText e) = none

end Rsasl

/-
What `examples/client_simple.rs` and `examples/mechanism_selection.rs` are for.
-/
import Verif.Model.Bytes

namespace Rsasl.Spec

/-- `line` is the first line of `input` with its line feed, if it has one, and `rest` comes after
it. -/
inductive FirstLine : (input line rest : Bytes) → Prop
  | ended (text rest : Bytes) : (10 : UInt8) ∉ text →
      FirstLine (text ++ 10 :: rest) (text ++ [10]) rest
  | last (text : Bytes) : (10 : UInt8) ∉ text → FirstLine text text []

/-- Someone types these two texts, each with the return key. -/
def typed (username password : Str) (more : Bytes) : Bytes :=
  Str.bytes username ++ 10 :: (Str.bytes password ++ 10 :: more)

/-- A text that RFC 4616 lets a client send as authentication id or password. -/
structure Sendable (s : Str) : Prop where
  nonempty : s ≠ []
  noNul : '\x00' ∉ s

/-- RFC 4616: the message of a client that gives no authorization id. -/
def plainText (username password : Str) : Bytes :=
  0 :: (Str.bytes username ++ 0 :: Str.bytes password)

end Rsasl.Spec

/-
`serde_json` (version 1) as OAUTHBEARER uses it: `to_writer` of an `OAuthBearerError` and `from_slice` into
one, with the implementations derived in src/mechanisms/oauthbearer/properties.rs:30-72. The source of
`serde_json` is not in the sandbox; this is from knowledge of the crate. Its numbers of errors and
positions are left out: a text that is not read is `none`. Its loop over a stack of brackets, for the values
of unknown members, is written as a recursion; the fuel is never used up.
-/
import Verif.Model.Mech.OAuth

namespace Rsasl.SerdeJson

/-! ## Reading -/

/-- The white space of `parse_whitespace`. -/
def isWs (b : UInt8) : Bool := b == 32 || b == 10 || b == 9 || b == 13

def skipWs (b : Bytes) : Bytes := b.dropWhile isWs

def isDigit (b : UInt8) : Bool := 48 ≤ b && b ≤ 57

/-- The number a hexadecimal digit stands for. -/
def hexVal (b : UInt8) : Option Nat :=
  if 48 ≤ b ∧ b ≤ 57 then some (b.toNat - 48)
  else if 65 ≤ b ∧ b ≤ 70 then some (b.toNat - 55)
  else if 97 ≤ b ∧ b ≤ 102 then some (b.toNat - 87)
  else none

/-- `decode_hex_escape` -/
def hex4 : Bytes → Option (Nat × Bytes)
  | a :: b :: c :: d :: r =>
    match hexVal a, hexVal b, hexVal c, hexVal d with
    | some a, some b, some c, some d => some (((a * 16 + b) * 16 + c) * 16 + d, r)
    | _, _, _, _ => none
  | _ => none

/-- The escape sequences of one letter: what they stand for. -/
def simpleEscape (b : UInt8) : Option Char :=
  if b = 34 then some '"'
  else if b = 92 then some '\\'
  else if b = 47 then some '/'
  else if b = 98 then some '\x08'
  else if b = 102 then some '\x0c'
  else if b = 110 then some '\n'
  else if b = 114 then some '\r'
  else if b = 116 then some '\t'
  else none

/-- `parse_unicode_escape`, after `\u` -/
def unicodeEscape (b : Bytes) : Option (Char × Bytes) :=
  match hex4 b with
  | none => none
  | some (n, r) =>
    if 0xDC00 ≤ n ∧ n ≤ 0xDFFF then none
    else if n < 0xD800 ∨ 0xDBFF < n then some (Char.ofNat n, r)
    else
      match stripPrefix [92, 117] r with
      | none => none
      | some r =>
        match hex4 r with
        | none => none
        | some (n₂, r) =>
          if n₂ < 0xDC00 ∨ 0xDFFF < n₂ then none
          else some (Char.ofNat ((n - 0xD800) * 1024 + (n₂ - 0xDC00) + 0x10000), r)

/-- `parse_escape`, after the backslash -/
def escape : Bytes → Option (Char × Bytes)
  | [] => none
  | b :: r => if b = 117 then unicodeEscape r else (simpleEscape b).map fun c => (c, r)

/-- The loop of `parse_str_bytes`, after the opening quote: the bytes of the string, whether there was an
escape sequence (then they are not borrowed), and what follows the closing quote. -/
def strN : Nat → Bytes → Option (Bytes × Bool × Bytes)
  | 0, _ => none
  | _ + 1, [] => none
  | n + 1, b :: r =>
    if b = 34 then some ([], false, r)
    else if b = 92 then
      match escape r with
      | none => none
      | some (c, r) =>
        match strN n r with
        | none => none
        | some (s, _, r) => some (Str.bytes [c] ++ s, true, r)
    else if b < 32 then none
    else
      match strN n r with
      | none => none
      | some (s, e, r) => some (b :: s, e, r)

/-- `parse_str`: the bytes have to be UTF-8. -/
def parseStr (b : Bytes) : Option (Str × Bool × Bytes) :=
  match strN b.length b with
  | none => none
  | some (s, e, r) =>
    match fromUtf8 s with
    | none => none
    | some s => some (s, e, r)

/-- `ignore_escape`: surrogates need not be pairs. -/
def ignoreEscape : Bytes → Option Bytes
  | [] => none
  | b :: r => if b = 117 then (hex4 r).map (·.2) else (simpleEscape b).map fun _ => r

/-- `ignore_str`: the bytes need not be UTF-8. -/
def ignoreStrN : Nat → Bytes → Option Bytes
  | 0, _ => none
  | _ + 1, [] => none
  | n + 1, b :: r =>
    if b = 34 then some r
    else if b = 92 then
      match ignoreEscape r with
      | none => none
      | some r => ignoreStrN n r
    else if b < 32 then none
    else ignoreStrN n r

def ignoreStr (b : Bytes) : Option Bytes := ignoreStrN b.length b

/-- At least one digit. -/
def someDigits : Bytes → Option Bytes
  | [] => none
  | d :: r => if isDigit d then some (r.dropWhile isDigit) else none

/-- `ignore_exponent`, after the letter -/
def exponent : Bytes → Option Bytes
  | [] => none
  | b :: r => if b = 43 ∨ b = 45 then someDigits r else someDigits (b :: r)

/-- The exponent, if there is one. -/
def optExponent : Bytes → Option Bytes
  | [] => some []
  | b :: r => if b = 101 ∨ b = 69 then exponent r else some (b :: r)

/-- `ignore_decimal` if there is a dot; then the exponent. -/
def afterInteger : Bytes → Option Bytes
  | [] => some []
  | b :: r =>
    if b = 46 then
      match someDigits r with
      | none => none
      | some r => optExponent r
    else optExponent (b :: r)

/-- `ignore_integer`: no leading zeros. -/
def integer : Bytes → Option Bytes
  | [] => none
  | d :: r =>
    if d = 48 then
      match r with
      | [] => some []
      | d :: r => if isDigit d then none else afterInteger (d :: r)
    else if isDigit d then afterInteger (r.dropWhile isDigit)
    else none

/-- What `ignore_value` is about to read: a value, the items of an array up to its bracket, or the members of
an object up to its brace. -/
inductive Part where
  | value | items | members

/-- `ignore_value` -/
def ignoreN : Part → Nat → Bytes → Option Bytes
  | _, 0, _ => none
  | .value, n + 1, b =>
    match skipWs b with
    | [] => none
    | c :: r =>
      if c = 110 then stripPrefix (b!"ull") r
      else if c = 116 then stripPrefix (b!"rue") r
      else if c = 102 then stripPrefix (b!"alse") r
      else if c = 45 then integer r
      else if isDigit c then integer (c :: r)
      else if c = 34 then ignoreStr r
      else if c = 91 then
        match stripPrefix [93] (skipWs r) with
        | some r => some r
        | none => ignoreN .items n r
      else if c = 123 then
        match stripPrefix [125] (skipWs r) with
        | some r => some r
        | none => ignoreN .members n r
      else none
  | .items, n + 1, b =>
    match ignoreN .value n b with
    | none => none
    | some r =>
      match skipWs r with
      | [] => none
      | c :: r => if c = 93 then some r else if c = 44 then ignoreN .items n r else none
  | .members, n + 1, b =>
    match stripPrefix [34] (skipWs b) with
    | none => none
    | some r =>
      match ignoreStr r with
      | none => none
      | some r =>
        match stripPrefix [58] (skipWs r) with
        | none => none
        | some r =>
          match ignoreN .value n r with
          | none => none
          | some r =>
            match skipWs r with
            | [] => none
            | c :: r => if c = 125 then some r else if c = 44 then ignoreN .members n r else none

def ignoreValue (b : Bytes) : Option Bytes := ignoreN .value (2 * b.length + 2) b

/-- `<&'a str>::deserialize`: the string has to be borrowed from the text. -/
def borrowed (b : Bytes) : Option (Str × Bytes) :=
  match stripPrefix [34] (skipWs b) with
  | none => none
  | some r =>
    match parseStr r with
    | some (s, false, r) => some (s, r)
    | _ => none

/-- `Option::<&'a str>::deserialize` -/
def optional (b : Bytes) : Option (Option Str × Bytes) :=
  match stripPrefix (b!"null") (skipWs b) with
  | some r => some (none, r)
  | none => (borrowed b).map fun x => (some x.1, x.2)

/-- The fields seen so far, in the derived `visit_map`. -/
structure Fields where
  status : Option Str := none
  scope : Option (Option Str) := none
  config : Option (Option Str) := none

/-- The value of a member, in the derived `visit_map`: no field twice, unknown ones are ignored. -/
def fieldValue (f : Fields) (key : Str) (b : Bytes) : Option (Fields × Bytes) :=
  if key = c!"status" then
    if f.status.isSome then none
    else (borrowed b).map fun x => ({ f with status := some x.1 }, x.2)
  else if key = c!"scope" then
    if f.scope.isSome then none
    else (optional b).map fun x => ({ f with scope := some x.1 }, x.2)
  else if key = c!"openid-configuration" then
    if f.config.isSome then none
    else (optional b).map fun x => ({ f with config := some x.1 }, x.2)
  else (ignoreValue b).map fun r => (f, r)

/-- The derived `visit_map` over `MapAccess`, from a key on. -/
def fieldsN : Nat → Fields → Bytes → Option (Fields × Bytes)
  | 0, _, _ => none
  | n + 1, f, b =>
    match stripPrefix [34] (skipWs b) with
    | none => none
    | some r =>
      match parseStr r with
      | none => none
      | some (key, _, r) =>
        match stripPrefix [58] (skipWs r) with
        | none => none
        | some r =>
          match fieldValue f key r with
          | none => none
          | some (f, r) =>
            match skipWs r with
            | [] => none
            | c :: r => if c = 125 then some (f, r) else if c = 44 then fieldsN n f r else none

/-- The end of the derived `visit_map`: `status` has no default. -/
def Fields.error (f : Fields) : Option OAuthBearerError :=
  f.status.map fun s => ⟨s, f.scope.join, f.config.join⟩

/-- One more element of an array, or its end (then the field has its default). -/
def element (b : Bytes) : Option (Option (Option Str) × Bytes) :=
  match skipWs b with
  | [] => none
  | c :: r =>
    if c = 93 then some (none, r)
    else if c = 44 then (optional r).map fun x => (some x.1, x.2)
    else none

/-- The derived `visit_seq`: a struct may also be an array of its fields. -/
def sequence (b : Bytes) : Option (OAuthBearerError × Bytes) :=
  match borrowed b with
  | none => none
  | some (s, r) =>
    match element r with
    | none => none
    | some (none, r) => some (⟨s, none, none⟩, r)
    | some (some scope, r) =>
      match element r with
      | none => none
      | some (none, r) => some (⟨s, scope, none⟩, r)
      | some (some config, r) =>
        (stripPrefix [93] (skipWs r)).map fun r => (⟨s, scope, config⟩, r)

/-- `from_slice`: a struct and nothing but white space after it. -/
def de (b : Bytes) : Option OAuthBearerError :=
  match skipWs b with
  | [] => none
  | c :: r =>
    match
      if c = 123 then
        match fieldsN r.length {} r with
        | none => none
        | some (f, r) => f.error.map fun e => (e, r)
      else if c = 91 then sequence r
      else none with
    | none => none
    | some (e, r) => if skipWs r = [] then some e else none

/-! ## Writing -/

/-- `format_escaped_str_contents`: what a byte of a string is replaced by, if it is. -/
def escapedByte (b : UInt8) : Option Bytes :=
  if b = 34 then some (b!"\\\"")
  else if b = 92 then some (b!"\\\\")
  else if b = 8 then some (b!"\\b")
  else if b = 12 then some (b!"\\f")
  else if b = 10 then some (b!"\\n")
  else if b = 13 then some (b!"\\r")
  else if b = 9 then some (b!"\\t")
  else if b < 32 then
    let digit (n : Nat) : UInt8 := if n < 10 then UInt8.ofNat (48 + n) else UInt8.ofNat (87 + n)
    some (b!"\\u00" ++ [digit (b.toNat / 16), digit (b.toNat % 16)])
  else none

/-- The pieces in which the contents of a string are written; `run` is what was not written yet. -/
def contentPieces : Bytes → Bytes → List Bytes
  | run, [] => if run = [] then [] else [run]
  | run, b :: r =>
    match escapedByte b with
    | some x => (if run = [] then [] else [run]) ++ x :: contentPieces [] r
    | none => contentPieces (run ++ [b]) r

def strPieces (s : Bytes) : List Bytes := [b!"\""] ++ contentPieces [] s ++ [b!"\""]

/-- A member of the object, after others. -/
def memberPieces (key : Bytes) : Option Str → List Bytes
  | some v => [b!","] ++ strPieces key ++ [b!":"] ++ strPieces (Str.bytes v)
  | none => []

/-- `to_writer` of an error: the buffers handed to `write_all`. -/
def ser (e : OAuthBearerError) : List Bytes :=
  [b!"{"] ++ strPieces (b!"status") ++ [b!":"] ++ strPieces (Str.bytes e.status) ++
    memberPieces (b!"scope") e.scope ++ memberPieces (b!"openid-configuration") e.openidConfig ++ [b!"}"]

/-- `serde_json` -/
def json : OAuthBearer.Json := ⟨ser, de⟩

end Rsasl.SerdeJson

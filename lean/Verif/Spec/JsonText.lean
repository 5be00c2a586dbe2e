/-
JSON texts (RFC 8259), and those an OAUTHBEARER client takes for an error.
-/
import Verif.Spec.Json

namespace Rsasl.Spec

/-- White space. -/
def Ws (w : Bytes) : Prop := ∀ b ∈ w, b = 32 ∨ b = 9 ∨ b = 10 ∨ b = 13

/-- A hexadecimal digit and its value. -/
inductive Hex : UInt8 → Nat → Prop where
  | digit (i : Nat) (h : i < 10) : Hex (UInt8.ofNat (48 + i)) i
  | upper (i : Nat) (h : i < 6) : Hex (UInt8.ofNat (65 + i)) (10 + i)
  | lower (i : Nat) (h : i < 6) : Hex (UInt8.ofNat (97 + i)) (10 + i)

/-- Four of them. -/
inductive Hex4 : Bytes → Nat → Prop where
  | mk {a b c d : UInt8} {i j k l : Nat} (ha : Hex a i) (hb : Hex b j) (hc : Hex c k) (hd : Hex d l) :
      Hex4 [a, b, c, d] (4096 * i + 256 * j + 16 * k + l)

/-- The escape sequences of one letter. -/
inductive Letter : UInt8 → Char → Prop where
  | quote : Letter 34 '"'
  | backslash : Letter 92 '\\'
  | slash : Letter 47 '/'
  | b : Letter 98 '\x08'
  | f : Letter 102 '\x0c'
  | n : Letter 110 '\n'
  | r : Letter 114 '\r'
  | t : Letter 116 '\t'

/-- What follows the backslash of an escape sequence, and the character it is for: one beyond the basic plane
is written as two surrogates (RFC 8259, 7). -/
inductive JsonEscape : Bytes → Char → Prop where
  | letter {b : UInt8} {c : Char} (h : Letter b c) : JsonEscape [b] c
  | plane {x : Bytes} {c : Char} (h : Hex4 x c.toNat) : JsonEscape (117 :: x) c
  | pair {x y : Bytes} {c : Char} {hi lo : Nat} (hx : Hex4 x (0xD800 + hi)) (hy : Hex4 y (0xDC00 + lo))
      (h1 : hi < 1024) (h2 : lo < 1024) (hc : c.toNat = 0x10000 + 1024 * hi + lo) :
      JsonEscape (117 :: x ++ 92 :: 117 :: y) c

/-- A byte a string may hold as it is. -/
def PlainByte (b : UInt8) : Prop := 32 ≤ b.toNat ∧ b ≠ 34 ∧ b ≠ 92

/-- The text between the quotes of a string, the bytes it stands for, and whether there is an escape
sequence in it. -/
inductive Content : Bytes → Bytes → Bool → Prop where
  | nil : Content [] [] false
  | plain {b : UInt8} {t s : Bytes} {e : Bool} (h : PlainByte b) (ht : Content t s e) :
      Content (b :: t) (b :: s) e
  | escape {x : Bytes} {c : Char} {t s : Bytes} {e : Bool} (h : JsonEscape x c) (ht : Content t s e) :
      Content (92 :: x ++ t) (Str.bytes [c] ++ s) true

/-- The text between the quotes of a string nobody is interested in: any bytes, any four digits. -/
inductive Loose : Bytes → Prop where
  | nil : Loose []
  | plain {b : UInt8} {t : Bytes} (h : PlainByte b) (ht : Loose t) : Loose (b :: t)
  | letter {b : UInt8} {c : Char} {t : Bytes} (h : Letter b c) (ht : Loose t) : Loose (92 :: b :: t)
  | hex {x : Bytes} {n : Nat} {t : Bytes} (h : Hex4 x n) (ht : Loose t) : Loose (92 :: 117 :: x ++ t)

/-- Decimal digits. -/
def Digits (t : Bytes) : Prop := ∀ b ∈ t, 48 ≤ b.toNat ∧ b.toNat ≤ 57

/-- Numbers: the integer has no leading zeros, fraction and exponent have digits. -/
inductive Number : Bytes → Prop where
  | mk {sign int frac exp : Bytes} (hs : sign = [] ∨ sign = [45])
      (hi : int = [48] ∨ Digits int ∧ int ≠ [] ∧ int.head? ≠ some 48)
      (hf : frac = [] ∨ ∃ ds, frac = 46 :: ds ∧ Digits ds ∧ ds ≠ [])
      (he : exp = [] ∨ ∃ l s ds, exp = l :: s ++ ds ∧ (l = 101 ∨ l = 69) ∧ (s = [] ∨ s = [43] ∨ s = [45]) ∧
        Digits ds ∧ ds ≠ []) :
      Number (sign ++ int ++ frac ++ exp)

/-- Parts of a JSON text. -/
inductive Part where
  | value | items | members

/-- Values, the items of an array, the members of an object. -/
inductive JsonText : Part → Bytes → Prop where
  | null : JsonText .value (b!"null")
  | true : JsonText .value (b!"true")
  | false : JsonText .value (b!"false")
  | number {t : Bytes} (h : Number t) : JsonText .value t
  | string {t : Bytes} (h : Loose t) : JsonText .value (34 :: t ++ [34])
  | emptyArray {w : Bytes} (h : Ws w) : JsonText .value (91 :: w ++ [93])
  | array {t : Bytes} (h : JsonText .items t) : JsonText .value (91 :: t ++ [93])
  | emptyObject {w : Bytes} (h : Ws w) : JsonText .value (123 :: w ++ [125])
  | object {t : Bytes} (h : JsonText .members t) : JsonText .value (123 :: t ++ [125])
  | item {w t w' : Bytes} (hw : Ws w) (h : JsonText .value t) (hw' : Ws w') : JsonText .items (w ++ t ++ w')
  | items {w t w' r : Bytes} (hw : Ws w) (h : JsonText .value t) (hw' : Ws w') (hr : JsonText .items r) :
      JsonText .items (w ++ t ++ w' ++ 44 :: r)
  | member {w k w₁ w₂ t w₃ : Bytes} (hw : Ws w) (hk : Loose k) (h1 : Ws w₁) (h2 : Ws w₂)
      (h : JsonText .value t) (h3 : Ws w₃) :
      JsonText .members (w ++ 34 :: k ++ 34 :: w₁ ++ 58 :: w₂ ++ t ++ w₃)
  | members {w k w₁ w₂ t w₃ r : Bytes} (hw : Ws w) (hk : Loose k) (h1 : Ws w₁) (h2 : Ws w₂)
      (h : JsonText .value t) (h3 : Ws w₃) (hr : JsonText .members r) :
      JsonText .members (w ++ 34 :: k ++ 34 :: w₁ ++ 58 :: w₂ ++ t ++ w₃ ++ 44 :: r)

/-- A string without escape sequences. -/
def AsIs (t : Bytes) (s : Str) : Prop := t = 34 :: Str.bytes s ++ [34] ∧ ∀ c ∈ s, ¬ NeedsEscape c

/-- Such a string, or nothing. -/
def OrNull (t : Bytes) : Option Str → Prop
  | some s => AsIs t s
  | none => t = b!"null"

/-- The members of an error. -/
inductive Entry where
  | status (s : Str)
  | scope (s : Option Str)
  | config (s : Option Str)
  | other

/-- What the value of a member named `key` has to be. -/
inductive EntryText : Str → Bytes → Entry → Prop where
  | status {t : Bytes} {s : Str} (h : AsIs t s) : EntryText (c!"status") t (.status s)
  | scope {t : Bytes} {s : Option Str} (h : OrNull t s) : EntryText (c!"scope") t (.scope s)
  | config {t : Bytes} {s : Option Str} (h : OrNull t s) : EntryText (c!"openid-configuration") t (.config s)
  | other {key : Str} {t : Bytes} (h1 : key ≠ c!"status") (h2 : key ≠ c!"scope")
      (h3 : key ≠ c!"openid-configuration") (h : JsonText .value t) : EntryText key t .other

/-- The members of an object, one or more; the names may have escape sequences. -/
inductive Entries : Bytes → List Entry → Prop where
  | last {w k w₁ w₂ t w₃ : Bytes} {key : Str} {esc : Bool} {e : Entry} (hw : Ws w)
      (hk : Content k (Str.bytes key) esc) (h1 : Ws w₁) (h2 : Ws w₂) (h : EntryText key t e) (h3 : Ws w₃) :
      Entries (w ++ 34 :: k ++ 34 :: w₁ ++ 58 :: w₂ ++ t ++ w₃) [e]
  | more {w k w₁ w₂ t w₃ r : Bytes} {key : Str} {esc : Bool} {e : Entry} {es : List Entry} (hw : Ws w)
      (hk : Content k (Str.bytes key) esc) (h1 : Ws w₁) (h2 : Ws w₂) (h : EntryText key t e) (h3 : Ws w₃)
      (hr : Entries r es) :
      Entries (w ++ 34 :: k ++ 34 :: w₁ ++ 58 :: w₂ ++ t ++ w₃ ++ 44 :: r) (e :: es)

/-- The values given to each field. -/
def Entry.statuses : List Entry → List Str := List.filterMap fun | .status s => some s | _ => none
def Entry.scopes : List Entry → List (Option Str) := List.filterMap fun | .scope s => some s | _ => none
def Entry.configs : List Entry → List (Option Str) := List.filterMap fun | .config s => some s | _ => none

/-- The one value, or nothing. -/
def AtMost (l : List (Option Str)) (v : Option Str) : Prop := l = [v] ∨ l = [] ∧ v = none

/-- The members say just this error. -/
def Say (es : List Entry) (e : OAuthBearerError) : Prop :=
  Entry.statuses es = [e.status] ∧ AtMost (Entry.scopes es) e.scope ∧ AtMost (Entry.configs es) e.openidConfig

/-- The fields in the order of their declaration; the last ones may be missing. -/
inductive Row : Bytes → OAuthBearerError → Prop where
  | one {w t w' : Bytes} {s : Str} (hw : Ws w) (h : AsIs t s) (hw' : Ws w') :
      Row (w ++ t ++ w') ⟨s, none, none⟩
  | two {w t w' w₁ t₁ w₁' : Bytes} {s : Str} {x : Option Str} (hw : Ws w) (h : AsIs t s) (hw' : Ws w')
      (hw₁ : Ws w₁) (h₁ : OrNull t₁ x) (hw₁' : Ws w₁') :
      Row (w ++ t ++ w' ++ 44 :: w₁ ++ t₁ ++ w₁') ⟨s, x, none⟩
  | three {w t w' w₁ t₁ w₁' w₂ t₂ w₂' : Bytes} {s : Str} {x y : Option Str} (hw : Ws w) (h : AsIs t s)
      (hw' : Ws w') (hw₁ : Ws w₁) (h₁ : OrNull t₁ x) (hw₁' : Ws w₁') (hw₂ : Ws w₂) (h₂ : OrNull t₂ y)
      (hw₂' : Ws w₂') :
      Row (w ++ t ++ w' ++ 44 :: w₁ ++ t₁ ++ w₁' ++ 44 :: w₂ ++ t₂ ++ w₂') ⟨s, x, y⟩

/-- The texts that are read as an error: objects with the field `status` and perhaps the other two, each at
most once and without escape sequences, and whatever else; and arrays of the fields. -/
inductive ErrorJson : Bytes → OAuthBearerError → Prop where
  | object {w t w' : Bytes} {es : List Entry} {e : OAuthBearerError} (hw : Ws w) (h : Entries t es)
      (hs : Say es e) (hw' : Ws w') : ErrorJson (w ++ 123 :: t ++ 125 :: w') e
  | array {w t w' : Bytes} {e : OAuthBearerError} (hw : Ws w) (h : Row t e) (hw' : Ws w') :
      ErrorJson (w ++ 91 :: t ++ 93 :: w') e

end Rsasl.Spec

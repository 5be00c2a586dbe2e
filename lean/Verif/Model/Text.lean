/-
Bytes that the crate takes for a `str` without a check: mechanism names (`src/mechname.rs`) and
channel binding names (`src/mechanisms/scram/parser.rs`). A `str` that is not UTF-8 is undefined
behaviour, which is a value here.
-/
import Verif.Model.Mechname
import Verif.Model.Mech.ScramServer
import Verif.Model.Builder

namespace Rsasl

/-- A `&str` made without a check from bytes: the text, or undefined behaviour when it is used. -/
inductive Unchecked where
  | text (s : Str)
  | undefined
deriving DecidableEq

/-- `core::str::from_utf8_unchecked`, and `core::mem::transmute` from `&[u8]` to a type that is a
`str` inside. -/
def unchecked (b : Bytes) : Unchecked :=
  match fromUtf8 b with
  | some s => .text s
  | none => .undefined

/-- `Mechname::const_new`, src/mechname.rs:66-68, and `const_new_unchecked`, 85-87. The bytes stay
as they are. -/
def Mechname.constNew (s : Bytes) : Bytes := s

/-- `Mechname::as_str`, src/mechname.rs:56-58, and `Deref`, 140-146. -/
def Mechname.asStr (m : Bytes) : Unchecked := unchecked m

/-- `Mechname::as_bytes`, src/mechname.rs:62-64. -/
def Mechname.asBytes (m : Bytes) : Bytes := m

/-- `TryFrom<&str>`, src/mechname.rs:132-138. -/
def Mechname.tryFromStr (value : Str) : Except MechnameError Bytes :=
  Mechname.parse (Str.bytes value)

/-- `TryFrom<&[u8]>`, src/mechname.rs:124-130. -/
def Mechname.tryFromBytes (value : Bytes) : Except MechnameError Bytes := Mechname.parse value

/-- `Display`, src/mechname.rs:90-94. -/
def Mechname.display (m : Bytes) : Unchecked := Mechname.asStr m

/-- `Debug`, src/mechname.rs:96-100. -/
def Mechname.debug (m : Bytes) : Unchecked :=
  match Mechname.asStr m with
  | .text s => .text (c!"MECHANISM(" ++ s ++ c!")")
  | .undefined => .undefined

/-- `PartialEq<[u8]>`, src/mechname.rs:102-111. -/
def Mechname.eqBytes (m other : Bytes) : Bool := Mechname.asBytes m == other

/-- `PartialEq<str>`, src/mechname.rs:113-122. Comparing a `str` compares its bytes. -/
def Mechname.eqStr (m : Bytes) (other : Str) : Bool := m == Str.bytes other

/-- The names in the crate that are made with `const_new`: the `mechinfo.rs` of all mechanisms and
the two of src/test/mechanism.rs:113, 129. -/
def constNames : List Bytes :=
  distributed.map (fun x => Mechname.constNew x.2.name) ++
    [SCRAMPLUS .sha1, SCRAMPLUS .sha256, SCRAMPLUS .sha512].map
      (fun m => Mechname.constNew m.name) ++
    [Mechname.constNew (b!"X-RSASLTEST-CF"), Mechname.constNew (b!"X-RSASLTEST-SF")]

/-- The name in `GS2CBindFlag::Used`, src/mechanisms/scram/parser.rs:208. -/
def Scram.CbFlag.name : Scram.CbFlag → Option Unchecked
  | .used n => some (unchecked n)
  | _ => none

end Rsasl

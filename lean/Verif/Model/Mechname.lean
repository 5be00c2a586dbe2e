/-
Mechanism names (`src/mechname.rs`).
-/
import Verif.Model.Bytes

namespace Rsasl

/-- `MechanismNameError`, src/mechname.rs:164-179. -/
inductive MechnameError where
  | tooShort
  | invalidChar (index : Nat) (value : UInt8)
deriving DecidableEq

/-- `is_valid`, src/mechname.rs:153-160. -/
def mechCharValid (b : UInt8) : Bool :=
  (0x41 ≤ b.toNat && b.toNat ≤ 0x5A) || (0x30 ≤ b.toNat && b.toNat ≤ 0x39)
    || b.toNat == 0x2D || b.toNat == 0x5F

/-- The `enumerate().try_for_each` of src/mechname.rs:40-49, starting at `index`. -/
def mechnameScan : Nat → Bytes → Except MechnameError Unit
  | _, [] => .ok ()
  | index, value :: rest =>
    if !mechCharValid value then .error (.invalidChar index value)
    else mechnameScan (index + 1) rest

/-- `Mechname::parse`, src/mechname.rs:36-52. A `&Mechname` is the bytes it was made from
(`const_new`, 66-68, is a transmute). -/
def Mechname.parse (input : Bytes) : Except MechnameError Bytes :=
  if input.isEmpty then .error .tooShort
  else
    match mechnameScan 0 input with
    | .error e => .error e
    | .ok () => .ok input

end Rsasl

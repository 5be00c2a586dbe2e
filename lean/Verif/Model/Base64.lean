/-
The `base64` crate's `STANDARD` engine (an external dependency, version 0.22): the standard
alphabet, padding always written and always required, unused trailing bits must be zero
(`DecodePaddingMode::RequireCanonical`, `decode_allow_trailing_bits = false`).
Used by `Session::step64` (src/session.rs:228-245) and by the SCRAM messages.
-/
import Verif.Model.Bytes

namespace Rsasl.Base64

/-- The standard alphabet: `A-Z`, `a-z`, `0-9`, `+`, `/`. Only used for `n < 64`. -/
def sym (n : Nat) : UInt8 :=
  if n < 26 then UInt8.ofNat (65 + n)
  else if n < 52 then UInt8.ofNat (71 + n)
  else if n < 62 then UInt8.ofNat (n - 4)
  else if n = 62 then 43
  else 47

/-- Value of an alphabet symbol. -/
def val (c : UInt8) : Option Nat :=
  let n := c.toNat
  if 65 ≤ n ∧ n ≤ 90 then some (n - 65)
  else if 97 ≤ n ∧ n ≤ 122 then some (n - 71)
  else if 48 ≤ n ∧ n ≤ 57 then some (n + 4)
  else if n = 43 then some 62
  else if n = 47 then some 63
  else none

/-- `=` -/
def pad : UInt8 := 61

/-- `Engine::encode`. -/
def encode : Bytes → Bytes
  | [] => []
  | [a] => [sym (a.toNat / 4), sym (a.toNat % 4 * 16), pad, pad]
  | [a, b] =>
    [sym (a.toNat / 4), sym (a.toNat % 4 * 16 + b.toNat / 16), sym (b.toNat % 16 * 4), pad]
  | a :: b :: c :: rest =>
    sym (a.toNat / 4) :: sym (a.toNat % 4 * 16 + b.toNat / 16) ::
      sym (b.toNat % 16 * 4 + c.toNat / 64) :: sym (c.toNat % 64) :: encode rest

/-- A last group: one byte (`xx==`), two bytes (`xxx=`) or three bytes (`xxxx`). -/
def decodeLast (c0 c1 c2 c3 : UInt8) : Option Bytes :=
  match val c0, val c1 with
  | some v0, some v1 =>
    if c2 = pad ∧ c3 = pad then
      if v1 % 16 = 0 then some [UInt8.ofNat (v0 * 4 + v1 / 16)] else none
    else
      match val c2 with
      | none => none
      | some v2 =>
        if c3 = pad then
          if v2 % 4 = 0 then
            some [UInt8.ofNat (v0 * 4 + v1 / 16), UInt8.ofNat (v1 % 16 * 16 + v2 / 4)]
          else none
        else
          match val c3 with
          | none => none
          | some v3 =>
            some [UInt8.ofNat (v0 * 4 + v1 / 16), UInt8.ofNat (v1 % 16 * 16 + v2 / 4),
              UInt8.ofNat (v2 % 4 * 64 + v3)]
  | _, _ => none

/-- A group that is not the last one: no padding. -/
def decodeFull (c0 c1 c2 c3 : UInt8) : Option Bytes :=
  match val c0, val c1, val c2, val c3 with
  | some v0, some v1, some v2, some v3 =>
    some [UInt8.ofNat (v0 * 4 + v1 / 16), UInt8.ofNat (v1 % 16 * 16 + v2 / 4),
      UInt8.ofNat (v2 % 4 * 64 + v3)]
  | _, _, _, _ => none

/-- `Engine::decode`, `none` for any `DecodeError`. -/
def decode : Bytes → Option Bytes
  | [] => some []
  | [c0, c1, c2, c3] => decodeLast c0 c1 c2 c3
  | c0 :: c1 :: c2 :: c3 :: rest =>
    match decodeFull c0 c1 c2 c3, decode rest with
    | some g, some r => some (g ++ r)
    | _, _ => none
  | _ => none

/-- `Engine::decode_slice` into a zeroed buffer of `n` bytes: an error if the decoded data does
not fit, else the data followed by the zeros left in the buffer. -/
def decodeSlice (n : Nat) (text : Bytes) : Option Bytes :=
  match decode text with
  | none => none
  | some d => if d.length ≤ n then some (d ++ List.replicate (n - d.length) 0) else none

end Rsasl.Base64

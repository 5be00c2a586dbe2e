/-
Byte strings, Rust `str` values and the few `core` slice functions rsasl uses.
None of this is rsasl code: it models the Rust standard library operations that the
modelled functions call.
-/

namespace Rsasl

/-- A Rust `[u8]` / `Vec<u8>`. -/
abbrev Bytes := List UInt8

/-- A Rust `str` / `String`: a sequence of Unicode scalar values (Lean's `Char` is exactly
that). Its bytes are given by `Str.bytes`. -/
abbrev Str := List Char

open Lean in
/-- `b!"..."` is the Rust byte string literal `b"..."`, expanded to an explicit list. -/
macro "b!" s:str : term => do
  let bs := s.getString.toUTF8.toList
  let xs ← bs.toArray.mapM fun b => `(($(quote b.toNat) : UInt8))
  `(([$xs,*] : List UInt8))

open Lean in
/-- `c!"..."` is the Rust string literal `"..."` as a list of characters. -/
macro "c!" s:str : term => do
  let cs := s.getString.toList
  let xs ← cs.toArray.mapM fun c => `($(quote c))
  `(([$xs,*] : List Char))

/-- UTF-8 encoding of one scalar value (the `char::encode_utf8` of `core`). -/
def encodeChar (c : Char) : Bytes :=
  let n := c.toNat
  if n < 0x80 then [UInt8.ofNat n]
  else if n < 0x800 then [UInt8.ofNat (0xC0 + n / 64), UInt8.ofNat (0x80 + n % 64)]
  else if n < 0x10000 then
    [UInt8.ofNat (0xE0 + n / 4096), UInt8.ofNat (0x80 + n / 64 % 64), UInt8.ofNat (0x80 + n % 64)]
  else
    [UInt8.ofNat (0xF0 + n / 262144), UInt8.ofNat (0x80 + n / 4096 % 64),
     UInt8.ofNat (0x80 + n / 64 % 64), UInt8.ofNat (0x80 + n % 64)]

/-- `str::as_bytes`. -/
def Str.bytes (s : Str) : Bytes := s.flatMap encodeChar

/-- A UTF-8 continuation byte. -/
def isCont (b : UInt8) : Bool := 0x80 ≤ b.toNat && b.toNat ≤ 0xBF

/-- Allowed range of the second byte of a three byte sequence, by first byte
(`core::str::validations::run_utf8_validation`). -/
def ok3 (b0 b1 : UInt8) : Bool :=
  if b0.toNat = 0xE0 then 0xA0 ≤ b1.toNat && b1.toNat ≤ 0xBF
  else if b0.toNat = 0xED then 0x80 ≤ b1.toNat && b1.toNat ≤ 0x9F
  else isCont b1

/-- Allowed range of the second byte of a four byte sequence, by first byte. -/
def ok4 (b0 b1 : UInt8) : Bool :=
  if b0.toNat = 0xF0 then 0x90 ≤ b1.toNat && b1.toNat ≤ 0xBF
  else if b0.toNat = 0xF4 then 0x80 ≤ b1.toNat && b1.toNat ≤ 0x8F
  else isCont b1

/-- `core::str::from_utf8`: `some s` if the bytes are well formed UTF-8 with characters `s`,
`none` for the `Utf8Error`. (The position inside the error is not modelled.) -/
def fromUtf8 : Bytes → Option Str
  | [] => some []
  | b0 :: rest =>
    if b0.toNat < 0x80 then (fromUtf8 rest).map (Char.ofNat b0.toNat :: ·)
    else match rest with
    | [] => none
    | b1 :: rest =>
      if 0xC2 ≤ b0.toNat ∧ b0.toNat ≤ 0xDF then
        if isCont b1 then
          (fromUtf8 rest).map (Char.ofNat ((b0.toNat - 0xC0) * 64 + (b1.toNat - 0x80)) :: ·)
        else none
      else match rest with
      | [] => none
      | b2 :: rest =>
        if 0xE0 ≤ b0.toNat ∧ b0.toNat ≤ 0xEF then
          if ok3 b0 b1 && isCont b2 then
            (fromUtf8 rest).map
              (Char.ofNat ((b0.toNat - 0xE0) * 4096 + (b1.toNat - 0x80) * 64 + (b2.toNat - 0x80)) :: ·)
          else none
        else match rest with
        | [] => none
        | b3 :: rest =>
          if 0xF0 ≤ b0.toNat ∧ b0.toNat ≤ 0xF4 then
            if ok4 b0 b1 && isCont b2 && isCont b3 then
              (fromUtf8 rest).map
                (Char.ofNat ((b0.toNat - 0xF0) * 262144 + (b1.toNat - 0x80) * 4096
                  + (b2.toNat - 0x80) * 64 + (b3.toNat - 0x80)) :: ·)
            else none
          else none

/-- `slice::split(|b| b == sep)` collected into a list. Like in Rust the result is never
empty: an empty slice gives one empty part. -/
def splitOn (sep : UInt8) : Bytes → List Bytes
  | [] => [[]]
  | b :: bs =>
    if b = sep then [] :: splitOn sep bs
    else match splitOn sep bs with
      | [] => [[b]]
      | p :: ps => (b :: p) :: ps

/-- `slice::strip_prefix`. -/
def stripPrefix : Bytes → Bytes → Option Bytes
  | [], bs => some bs
  | _ :: _, [] => none
  | p :: ps, b :: bs => if p = b then stripPrefix ps bs else none

/-- `slice::strip_suffix`. -/
def stripSuffix (suf bs : Bytes) : Option Bytes :=
  (stripPrefix suf.reverse bs.reverse).map List.reverse

end Rsasl

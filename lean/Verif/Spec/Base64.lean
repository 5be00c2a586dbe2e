/-
RFC 4648, section 4, as a specification: the alphabet as a table and each group of input bytes
as one 24-bit number cut into four 6-bit numbers.
-/
import Verif.Model.Bytes

namespace Rsasl.Spec

/-- Table 1 of RFC 4648. -/
def base64Alphabet : Bytes :=
  b!"ABCDEFGHIJKLMNOPQRSTUVWXYZabcdefghijklmnopqrstuvwxyz0123456789+/"

/-- `t` is the encoding of `b` according to the RFC. -/
inductive Base64 : Bytes → Bytes → Prop where
  | nil : Base64 [] []
  /-- one byte left: two symbols, two pads -/
  | one (a s0 s1 : UInt8)
      (h0 : base64Alphabet[a.toNat * 65536 / 262144 % 64]? = some s0)
      (h1 : base64Alphabet[a.toNat * 65536 / 4096 % 64]? = some s1) :
      Base64 [a] [s0, s1, 61, 61]
  /-- two bytes left: three symbols, one pad -/
  | two (a b s0 s1 s2 : UInt8)
      (h0 : base64Alphabet[(a.toNat * 65536 + b.toNat * 256) / 262144 % 64]? = some s0)
      (h1 : base64Alphabet[(a.toNat * 65536 + b.toNat * 256) / 4096 % 64]? = some s1)
      (h2 : base64Alphabet[(a.toNat * 65536 + b.toNat * 256) / 64 % 64]? = some s2) :
      Base64 [a, b] [s0, s1, s2, 61]
  | group (a b c s0 s1 s2 s3 : UInt8) (rest text : Bytes)
      (h0 : base64Alphabet[(a.toNat * 65536 + b.toNat * 256 + c.toNat) / 262144 % 64]? = some s0)
      (h1 : base64Alphabet[(a.toNat * 65536 + b.toNat * 256 + c.toNat) / 4096 % 64]? = some s1)
      (h2 : base64Alphabet[(a.toNat * 65536 + b.toNat * 256 + c.toNat) / 64 % 64]? = some s2)
      (h3 : base64Alphabet[(a.toNat * 65536 + b.toNat * 256 + c.toNat) % 64]? = some s3)
      (hrest : Base64 rest text) :
      Base64 (a :: b :: c :: rest) (s0 :: s1 :: s2 :: s3 :: text)

end Rsasl.Spec

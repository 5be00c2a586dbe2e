/-
SCRAM helpers (`src/mechanisms/scram/tools.rs`) over an abstract digest.
-/
import Verif.Model.Mech.ScramParser

namespace Rsasl.Scram

/-- The hash function `D` of a SCRAM mechanism with `SimpleHmac<D>` and `pbkdf2::<SimpleHmac<D>>`:
external dependencies, of which only the output length is used. -/
structure Digest where
  outLen : Nat
  hash : Bytes → Bytes
  /-- key, message -/
  hmac : Bytes → Bytes → Bytes
  /-- password, salt, iterations -/
  pbkdf2 : Bytes → Bytes → UInt32 → Bytes
  hash_length : ∀ x, (hash x).length = outLen
  hmac_length : ∀ k x, (hmac k x).length = outLen
  pbkdf2_length : ∀ p s i, (pbkdf2 p s i).length = outLen

/-- `PRINTABLE`, src/mechanisms/scram/tools.rs:9-10. -/
def printable : Bytes :=
  b!"!\"#$%&'()*+-./0123456789:;<=>?@ABCDEFGHIJKLMNOPQRSTUVWXYZ[\\]^_`abcdefghijklmnopqrstuvwxy"

/-- `*distribution.sample(rng)` for a draw `i`: an element of `PRINTABLE`. -/
def nonceChar (i : Nat) : UInt8 :=
  printable[i % printable.length]'(Nat.mod_lt _ (by decide))

/-- `generate_nonce`, src/mechanisms/scram/tools.rs:12-15. -/
def generateNonce {S : Type} (n : Nat) : M S Bytes := do
  let draws ← M.draw n
  pure (draws.map nonceChar)

/-- `hash_password`, src/mechanisms/scram/tools.rs:19-24. -/
def hashPassword (d : Digest) (password : Bytes) (iterations : UInt32) (salt : Bytes) : Bytes :=
  d.pbkdf2 password salt iterations

/-- The message both signatures are computed over, src/mechanisms/scram/tools.rs:42-57 and
62-77. -/
def authMessage (username : Str) (clientNonce serverNonce salt iterations cb : Bytes) : Bytes :=
  b!"n=" ++ Str.bytes username ++ b!",r=" ++ clientNonce ++
    b!",r=" ++ clientNonce ++ serverNonce ++ b!",s=" ++ salt ++ b!",i=" ++ iterations ++
    b!",c=" ++ cb ++ b!",r=" ++ clientNonce ++ serverNonce

/-- `compute_signatures`, src/mechanisms/scram/tools.rs:28-79: client and server signature. -/
def computeSignatures (d : Digest) (storedKey serverKey : Bytes) (username : Str)
    (clientNonce serverNonce salt iterations cb : Bytes) : Bytes × Bytes :=
  (d.hmac storedKey (authMessage username clientNonce serverNonce salt iterations cb),
   d.hmac serverKey (authMessage username clientNonce serverNonce salt iterations cb))

/-- `derive_keys`, src/mechanisms/scram/tools.rs:83-99: client and server key. -/
def deriveKeys (d : Digest) (password : Bytes) : Bytes × Bytes :=
  (d.hmac password (b!"Client Key"), d.hmac password (b!"Server Key"))

/-- The byte-wise XOR of src/mechanisms/scram/client.rs:368-371 and server.rs:338-344 (the two
arrays have the same length by their type). -/
def xor (a b : Bytes) : Bytes := List.zipWith (· ^^^ ·) a b

/-- The optional sign of `str::parse::<u32>()`. -/
def dropPlus : Str → Str
  | '+' :: ds => ds
  | ds => ds

/-- `str::parse::<u32>()` of `core`: an optional `+`, then decimal digits, no overflow. -/
def parseU32 (s : Str) : Option UInt32 :=
  let digits := dropPlus s
  if digits.isEmpty then none
  else if digits.all Char.isDigit then
    let n := Nat.ofDigitChars 10 digits 0
    if n < 4294967296 then some (UInt32.ofNat n) else none
  else none

/-- `format!("{}", n)` -/
def decimal (n : UInt32) : Str := Nat.toDigits 10 n.toNat

end Rsasl.Scram

/-
Published exchanges, run on the model with the real hash functions: RFC 5802 section 5
(SCRAM-SHA-1), RFC 7677 section 3 (SCRAM-SHA-256) and RFC 4616 section 4 (PLAIN). Like the unit
tests these check the model and are not part of any claim. What takes the kernel long is left to
`#guard`, which evaluates it while the file is compiled.
-/
import Verif.Check.Digests
import Verif.Check.UnitTests
import Verif.Model.Mech.ScramServer
import Verif.Model.Interop

namespace Rsasl.Check

/-- A random stream that makes the given nonce. -/
def drawsFor (nonce : Bytes) (i : Nat) : Nat :=
  Scram.printable.findIdx (· == nonce.getD i 0)

def stepsWith (m : Mech) (st : m.S) (rng : Nat → Nat) (env : Env) (inputs : List (Option Bytes)) :
    List (Option State × Option SessionError × Bytes) :=
  ((Session.run m env { st := st, rng := rng } (inputs.map fun i => { input := i })).1).map shown

/-! ### FIPS 180-4 examples -/

example :
    sha1 (b!"abc") = [0xa9, 0x99, 0x3e, 0x36, 0x47, 0x06, 0x81, 0x6a, 0xba, 0x3e, 0x25, 0x71, 0x78,
      0x50, 0xc2, 0x6c, 0x9c, 0xd0, 0xd8, 0x9d] ∧
    sha256 (b!"abc") = [0xba, 0x78, 0x16, 0xbf, 0x8f, 0x01, 0xcf, 0xea, 0x41, 0x41, 0x40, 0xde,
      0x5d, 0xae, 0x22, 0x23, 0xb0, 0x03, 0x61, 0xa3, 0x96, 0x17, 0x7a, 0x9c, 0xb4, 0x10, 0xff,
      0x61, 0xf2, 0x00, 0x15, 0xad] ∧
    (sha512 (b!"abc")).take 8 = [0xdd, 0xaf, 0x35, 0xa1, 0x93, 0x61, 0x7a, 0xba] := by
  decide +kernel

/-! ### RFC 5802, section 5 -/

def clientNonce1 : Bytes := b!"fyko+d2lbbFgONRv9qkxdawL"
def serverNonce1 : Bytes := b!"3rfcNHYJY1ZVvWVs7j"
def clientFirst1 : Bytes := b!"n,,n=user,r=fyko+d2lbbFgONRv9qkxdawL"
def serverFirst1 : Bytes :=
  b!"r=fyko+d2lbbFgONRv9qkxdawL3rfcNHYJY1ZVvWVs7j,s=QSXCR+Q6sek8bf92,i=4096"
def clientFinal1 : Bytes :=
  b!"c=biws,r=fyko+d2lbbFgONRv9qkxdawL3rfcNHYJY1ZVvWVs7j,p=v0X8v3Bz2T0CJGbJQyF0X+HI4Ts="
def serverFinal1 : Bytes := b!"v=rmF9pqV8S7suAoZWja4dJRkFsKQ="

/- `SaltedPassword` of "pencil". -/
def salted1 : Bytes :=
  [0x1d, 0x96, 0xee, 0x3a, 0x52, 0x9b, 0x5a, 0x5f, 0x9e, 0x47, 0xc0, 0x1f, 0x22, 0x9a,
   0x2c, 0xb8, 0xa6, 0xe1, 0x5f, 0x7d]

#guard (Base64.decode (b!"QSXCR+Q6sek8bf92")).map
  (fun salt => Scram.hashPassword sha1Digest (b!"pencil") 4096 salt) == some salted1

/- The client, from the first message to the end, asked for the salted password. -/
#guard
    stepsWith (Scram.client sha1Digest) (Scram.clientNew true) (drawsFor clientNonce1)
      (exampleEnv [⟨.authId, c!"user"⟩, ⟨.saltedPassword, salted1⟩])
      [none, some serverFirst1, some serverFinal1] =
      [(some .running, none, clientFirst1), (some .running, none, clientFinal1),
       (some (.finished .no), none, [])]

/- Another verifier is not taken. -/
#guard
    (stepsWith (Scram.client sha1Digest) (Scram.clientNew true) (drawsFor clientNonce1)
      (exampleEnv [⟨.authId, c!"user"⟩, ⟨.saltedPassword, salted1⟩])
      [none, some serverFirst1, some (b!"v=rmF9pqV8S7suAoZWja4dJRkFsKA=")]).map (·.2.1) =
      [none, none, some .mutualAuthenticationFailed]

/-- What a server keeps of "pencil". -/
def stored1 : StoredPassword :=
  let keys := Scram.deriveKeys sha1Digest salted1
  ⟨4096, (Base64.decode (b!"QSXCR+Q6sek8bf92")).getD [], sha1 keys.1, keys.2⟩

/- The server's first message, up to the nonce: the crate's has 24 characters, that of the RFC
18. -/
#guard
    stepsWith (Scram.server sha1Digest) (Scram.serverNew false)
      (drawsFor (serverNonce1 ++ b!"012345"))
      (exampleEnv [⟨.scramStoredPassword, stored1⟩]) [some clientFirst1] =
      [(some .running, none,
        b!"r=fyko+d2lbbFgONRv9qkxdawL3rfcNHYJY1ZVvWVs7j012345,s=QSXCR+Q6sek8bf92,i=4096")]

/- The server's answer to the client's last message, after having sent the first message of the
RFC. -/
#guard
    stepsWith (Scram.server sha1Digest)
      (some (.waitingClientFinal (some ⟨clientNonce1, serverNonce1, b!"n,,", c!"user", none,
        b!"QSXCR+Q6sek8bf92", b!"4096", stored1.storedKey, stored1.serverKey⟩))) id
      (exampleEnv []) [some clientFinal1] =
      [(some (.finished .yes), none, serverFinal1)]

/-! ### RFC 7677, section 3 -/

def clientNonce256 : Bytes := b!"rOprNGfwEbeRWgbNEkqO"
def serverNonce256 : Bytes := b!"%hvYDpWUa2RaTCAfuxFIlj)hNlF$k0"
def serverFirst256 : Bytes :=
  b!"r=rOprNGfwEbeRWgbNEkqO%hvYDpWUa2RaTCAfuxFIlj)hNlF$k0,s=W22ZaJ0SNY7soEsUEjb6gQ==,i=4096"
def clientFinal256 : Bytes :=
  b!"c=biws,r=rOprNGfwEbeRWgbNEkqO%hvYDpWUa2RaTCAfuxFIlj)hNlF$k0,p=dHzbZapWIk4jUhN+Ute9ytag9zjfMHgsqmmiz7AndVQ="
def serverFinal256 : Bytes := b!"v=6rriTRBi23WpRR/wtup+mMhUZUn/dB5nLTJRsjl95G4="

def salted256 : Bytes :=
  [0xc4, 0xa4, 0x95, 0x10, 0x32, 0x3a, 0xb4, 0xf9, 0x52, 0xca, 0xc1, 0xfa, 0x99, 0x44,
   0x19, 0x39, 0xe7, 0x8e, 0xa7, 0x4d, 0x6b, 0xe8, 0x1d, 0xdf, 0x70, 0x96, 0xe8, 0x75,
   0x13, 0xdc, 0x61, 0x5d]

#guard (Base64.decode (b!"W22ZaJ0SNY7soEsUEjb6gQ==")).map
  (fun salt => Scram.hashPassword sha256Digest (b!"pencil") 4096 salt) == some salted256

/- The client after its first message (whose nonce is of another length than the crate's). -/
#guard
    stepsWith (Scram.client sha256Digest)
      (some (.clientFirst (Base64.encode (b!"n,,")) clientNonce256 (c!"user"))) id
      (exampleEnv [⟨.authId, c!"user"⟩, ⟨.saltedPassword, salted256⟩])
      [some serverFirst256, some serverFinal256] =
      [(some .running, none, clientFinal256), (some (.finished .no), none, [])]

def stored256 : StoredPassword :=
  let keys := Scram.deriveKeys sha256Digest salted256
  ⟨4096, (Base64.decode (b!"W22ZaJ0SNY7soEsUEjb6gQ==")).getD [], sha256 keys.1, keys.2⟩

/- The server after its first message. -/
#guard
    stepsWith (Scram.server sha256Digest)
      (some (.waitingClientFinal (some ⟨clientNonce256, serverNonce256, b!"n,,", c!"user", none,
        b!"W22ZaJ0SNY7soEsUEjb6gQ==", b!"4096", stored256.storedKey, stored256.serverKey⟩))) id
      (exampleEnv []) [some clientFinal256] =
      [(some (.finished .yes), none, serverFinal256)]

/-! ### RFC 4616, section 4 -/

example :
    plainStep none (c!"tim") (b!"tanstaaftanstaaf") =
      [(some (.finished .yes), none, b!"\x00tim\x00tanstaaftanstaaf")] ∧
    plainStep (some (c!"Ursel")) (c!"Kurt") (b!"xipj3plmq") =
      [(some (.finished .yes), none, b!"Ursel\x00Kurt\x00xipj3plmq")] := by decide +kernel

/-! ### RFC 6120, sections 9.1.2 and 6.4: PLAIN and EXTERNAL in base64 -/

example : Base64.decode (b!"AGp1bGlldAByMG0zMG15cjBtMzA=") = some (b!"\x00juliet\x00r0m30myr0m30") := by
  decide +kernel

/-! ### The account of the interop server: user "username", password "secret" -/

#guard
  let salted := sha256Digest.pbkdf2 (b!"secret") Interop.account.salt Interop.account.iterations
  Interop.account.storedKey = sha256 (sha256Digest.hmac salted (b!"Client Key")) ∧
    Interop.account.serverKey = sha256Digest.hmac salted (b!"Server Key")

end Rsasl.Check

/-
SHA-1, SHA-256 and SHA-512 (FIPS 180-4), HMAC (RFC 2104) and PBKDF2 with one block of output
(RFC 8018), as an instance of `Scram.Digest`. The claims hold for every digest; these are here to
run the model on published exchanges.
-/
import Verif.Model.Mech.ScramTools

namespace Rsasl.Check

/-- The message with a one bit, zeros and its length in `lenBytes` bytes, in blocks. -/
def pad (block lenBytes : Nat) (m : Bytes) : Bytes :=
  let zeros := (2 * block - (m.length % block + 1 + lenBytes) % block) % block
  let bits := m.length * 8
  m ++ 0x80 :: List.replicate zeros 0 ++
    (List.range lenBytes).map fun i => UInt8.ofNat (bits / 256 ^ (lenBytes - 1 - i))

/-- Big-endian words. -/
def words32 : Bytes → List UInt32
  | a :: b :: c :: d :: rest =>
    UInt32.ofNat (((a.toNat * 256 + b.toNat) * 256 + c.toNat) * 256 + d.toNat) :: words32 rest
  | _ => []

def words64 : Bytes → List UInt64
  | a :: b :: c :: d :: e :: f :: g :: h :: rest =>
    UInt64.ofNat (((((((a.toNat * 256 + b.toNat) * 256 + c.toNat) * 256 + d.toNat) * 256 +
      e.toNat) * 256 + f.toNat) * 256 + g.toNat) * 256 + h.toNat) :: words64 rest
  | _ => []

def bytes32 (w : UInt32) : Bytes :=
  [UInt8.ofNat (w.toNat / 16777216), UInt8.ofNat (w.toNat / 65536), UInt8.ofNat (w.toNat / 256),
   UInt8.ofNat w.toNat]

def bytes64 (w : UInt64) : Bytes :=
  bytes32 (UInt32.ofNat (w.toNat / 4294967296)) ++ bytes32 (UInt32.ofNat w.toNat)

def rotl32 (x n : UInt32) : UInt32 := (x <<< n) ||| (x >>> (32 - n))
def rotr32 (x n : UInt32) : UInt32 := (x >>> n) ||| (x <<< (32 - n))
def rotr64 (x n : UInt64) : UInt64 := (x >>> n) ||| (x <<< (64 - n))

/-- Cut into blocks of `n` words. -/
def blocks {α : Type} (n : Nat) : Nat → List α → List (List α)
  | 0, _ => []
  | fuel + 1, l => if l.isEmpty then [] else l.take n :: blocks n fuel (l.drop n)

/-- Extend the message schedule: `next` sees the words so far, latest first. -/
def schedule {α : Type} (next : List α → α) : Nat → List α → List α
  | 0, rev => rev.reverse
  | n + 1, rev => schedule next n (next rev :: rev)

/-! SHA-1 -/

structure S1 where
  (a b c d e : UInt32)

def S1.round (s : S1) (t : Nat) (w : UInt32) : S1 :=
  let f : UInt32 :=
    if t < 20 then (s.b &&& s.c) ||| (~~~s.b &&& s.d)
    else if t < 40 then s.b ^^^ s.c ^^^ s.d
    else if t < 60 then (s.b &&& s.c) ||| (s.b &&& s.d) ||| (s.c &&& s.d)
    else s.b ^^^ s.c ^^^ s.d
  let k : UInt32 :=
    if t < 20 then 0x5a827999 else if t < 40 then 0x6ed9eba1
    else if t < 60 then 0x8f1bbcdc else 0xca62c1d6
  ⟨rotl32 s.a 5 + f + s.e + k + w, s.a, rotl32 s.b 30, s.c, s.d⟩

def S1.rounds : Nat → List UInt32 → S1 → S1
  | _, [], s => s
  | t, w :: ws, s => S1.rounds (t + 1) ws (s.round t w)

def S1.next (r : List UInt32) : UInt32 :=
  rotl32 (r.getD 2 0 ^^^ r.getD 7 0 ^^^ r.getD 13 0 ^^^ r.getD 15 0) 1

def S1.block (s : S1) (b : List UInt32) : S1 :=
  let r := S1.rounds 0 (schedule S1.next 64 b.reverse) s
  ⟨s.a + r.a, s.b + r.b, s.c + r.c, s.d + r.d, s.e + r.e⟩

def sha1 (m : Bytes) : Bytes :=
  let ws := words32 (pad 64 8 m)
  let s := (blocks 16 ws.length ws).foldl S1.block
    ⟨0x67452301, 0xefcdab89, 0x98badcfe, 0x10325476, 0xc3d2e1f0⟩
  bytes32 s.a ++ bytes32 s.b ++ bytes32 s.c ++ bytes32 s.d ++ bytes32 s.e

/-! SHA-2 -/

structure S2 (α : Type) where
  (a b c d e f g h : α)

def k256 : List UInt32 :=
  [0x428a2f98, 0x71374491, 0xb5c0fbcf, 0xe9b5dba5, 0x3956c25b, 0x59f111f1, 0x923f82a4, 0xab1c5ed5,
   0xd807aa98, 0x12835b01, 0x243185be, 0x550c7dc3, 0x72be5d74, 0x80deb1fe, 0x9bdc06a7, 0xc19bf174,
   0xe49b69c1, 0xefbe4786, 0x0fc19dc6, 0x240ca1cc, 0x2de92c6f, 0x4a7484aa, 0x5cb0a9dc, 0x76f988da,
   0x983e5152, 0xa831c66d, 0xb00327c8, 0xbf597fc7, 0xc6e00bf3, 0xd5a79147, 0x06ca6351, 0x14292967,
   0x27b70a85, 0x2e1b2138, 0x4d2c6dfc, 0x53380d13, 0x650a7354, 0x766a0abb, 0x81c2c92e, 0x92722c85,
   0xa2bfe8a1, 0xa81a664b, 0xc24b8b70, 0xc76c51a3, 0xd192e819, 0xd6990624, 0xf40e3585, 0x106aa070,
   0x19a4c116, 0x1e376c08, 0x2748774c, 0x34b0bcb5, 0x391c0cb3, 0x4ed8aa4a, 0x5b9cca4f, 0x682e6ff3,
   0x748f82ee, 0x78a5636f, 0x84c87814, 0x8cc70208, 0x90befffa, 0xa4506ceb, 0xbef9a3f7, 0xc67178f2]

def S2.round32 (s : S2 UInt32) (k w : UInt32) : S2 UInt32 :=
  let s1 := rotr32 s.e 6 ^^^ rotr32 s.e 11 ^^^ rotr32 s.e 25
  let ch := (s.e &&& s.f) ^^^ (~~~s.e &&& s.g)
  let t1 := s.h + s1 + ch + k + w
  let s0 := rotr32 s.a 2 ^^^ rotr32 s.a 13 ^^^ rotr32 s.a 22
  let maj := (s.a &&& s.b) ^^^ (s.a &&& s.c) ^^^ (s.b &&& s.c)
  ⟨t1 + (s0 + maj), s.a, s.b, s.c, s.d + t1, s.e, s.f, s.g⟩

def S2.rounds32 : List UInt32 → List UInt32 → S2 UInt32 → S2 UInt32
  | k :: ks, w :: ws, s => S2.rounds32 ks ws (s.round32 k w)
  | _, _, s => s

def S2.next32 (r : List UInt32) : UInt32 :=
  let x := r.getD 14 0
  let y := r.getD 1 0
  r.getD 15 0 + (rotr32 x 7 ^^^ rotr32 x 18 ^^^ (x >>> 3)) + r.getD 6 0 +
    (rotr32 y 17 ^^^ rotr32 y 19 ^^^ (y >>> 10))

def S2.block32 (s : S2 UInt32) (b : List UInt32) : S2 UInt32 :=
  let r := S2.rounds32 k256 (schedule S2.next32 48 b.reverse) s
  ⟨s.a + r.a, s.b + r.b, s.c + r.c, s.d + r.d, s.e + r.e, s.f + r.f, s.g + r.g, s.h + r.h⟩

def sha256 (m : Bytes) : Bytes :=
  let ws := words32 (pad 64 8 m)
  let s := (blocks 16 ws.length ws).foldl S2.block32
    ⟨0x6a09e667, 0xbb67ae85, 0x3c6ef372, 0xa54ff53a,
     0x510e527f, 0x9b05688c, 0x1f83d9ab, 0x5be0cd19⟩
  bytes32 s.a ++ bytes32 s.b ++ bytes32 s.c ++ bytes32 s.d ++ bytes32 s.e ++ bytes32 s.f ++
    bytes32 s.g ++ bytes32 s.h

def k512 : List UInt64 :=
  [0x428a2f98d728ae22, 0x7137449123ef65cd, 0xb5c0fbcfec4d3b2f, 0xe9b5dba58189dbbc,
   0x3956c25bf348b538, 0x59f111f1b605d019, 0x923f82a4af194f9b, 0xab1c5ed5da6d8118,
   0xd807aa98a3030242, 0x12835b0145706fbe, 0x243185be4ee4b28c, 0x550c7dc3d5ffb4e2,
   0x72be5d74f27b896f, 0x80deb1fe3b1696b1, 0x9bdc06a725c71235, 0xc19bf174cf692694,
   0xe49b69c19ef14ad2, 0xefbe4786384f25e3, 0x0fc19dc68b8cd5b5, 0x240ca1cc77ac9c65,
   0x2de92c6f592b0275, 0x4a7484aa6ea6e483, 0x5cb0a9dcbd41fbd4, 0x76f988da831153b5,
   0x983e5152ee66dfab, 0xa831c66d2db43210, 0xb00327c898fb213f, 0xbf597fc7beef0ee4,
   0xc6e00bf33da88fc2, 0xd5a79147930aa725, 0x06ca6351e003826f, 0x142929670a0e6e70,
   0x27b70a8546d22ffc, 0x2e1b21385c26c926, 0x4d2c6dfc5ac42aed, 0x53380d139d95b3df,
   0x650a73548baf63de, 0x766a0abb3c77b2a8, 0x81c2c92e47edaee6, 0x92722c851482353b,
   0xa2bfe8a14cf10364, 0xa81a664bbc423001, 0xc24b8b70d0f89791, 0xc76c51a30654be30,
   0xd192e819d6ef5218, 0xd69906245565a910, 0xf40e35855771202a, 0x106aa07032bbd1b8,
   0x19a4c116b8d2d0c8, 0x1e376c085141ab53, 0x2748774cdf8eeb99, 0x34b0bcb5e19b48a8,
   0x391c0cb3c5c95a63, 0x4ed8aa4ae3418acb, 0x5b9cca4f7763e373, 0x682e6ff3d6b2b8a3,
   0x748f82ee5defb2fc, 0x78a5636f43172f60, 0x84c87814a1f0ab72, 0x8cc702081a6439ec,
   0x90befffa23631e28, 0xa4506cebde82bde9, 0xbef9a3f7b2c67915, 0xc67178f2e372532b,
   0xca273eceea26619c, 0xd186b8c721c0c207, 0xeada7dd6cde0eb1e, 0xf57d4f7fee6ed178,
   0x06f067aa72176fba, 0x0a637dc5a2c898a6, 0x113f9804bef90dae, 0x1b710b35131c471b,
   0x28db77f523047d84, 0x32caab7b40c72493, 0x3c9ebe0a15c9bebc, 0x431d67c49c100d4c,
   0x4cc5d4becb3e42b6, 0x597f299cfc657e2a, 0x5fcb6fab3ad6faec, 0x6c44198c4a475817]

def S2.round64 (s : S2 UInt64) (k w : UInt64) : S2 UInt64 :=
  let s1 := rotr64 s.e 14 ^^^ rotr64 s.e 18 ^^^ rotr64 s.e 41
  let ch := (s.e &&& s.f) ^^^ (~~~s.e &&& s.g)
  let t1 := s.h + s1 + ch + k + w
  let s0 := rotr64 s.a 28 ^^^ rotr64 s.a 34 ^^^ rotr64 s.a 39
  let maj := (s.a &&& s.b) ^^^ (s.a &&& s.c) ^^^ (s.b &&& s.c)
  ⟨t1 + (s0 + maj), s.a, s.b, s.c, s.d + t1, s.e, s.f, s.g⟩

def S2.rounds64 : List UInt64 → List UInt64 → S2 UInt64 → S2 UInt64
  | k :: ks, w :: ws, s => S2.rounds64 ks ws (s.round64 k w)
  | _, _, s => s

def S2.next64 (r : List UInt64) : UInt64 :=
  let x := r.getD 14 0
  let y := r.getD 1 0
  r.getD 15 0 + (rotr64 x 1 ^^^ rotr64 x 8 ^^^ (x >>> 7)) + r.getD 6 0 +
    (rotr64 y 19 ^^^ rotr64 y 61 ^^^ (y >>> 6))

def S2.block64 (s : S2 UInt64) (b : List UInt64) : S2 UInt64 :=
  let r := S2.rounds64 k512 (schedule S2.next64 64 b.reverse) s
  ⟨s.a + r.a, s.b + r.b, s.c + r.c, s.d + r.d, s.e + r.e, s.f + r.f, s.g + r.g, s.h + r.h⟩

def sha512 (m : Bytes) : Bytes :=
  let ws := words64 (pad 128 16 m)
  let s := (blocks 16 ws.length ws).foldl S2.block64
    ⟨0x6a09e667f3bcc908, 0xbb67ae8584caa73b,
     0x3c6ef372fe94f82b, 0xa54ff53a5f1d36f1,
     0x510e527fade682d1, 0x9b05688c2b3e6c1f,
     0x1f83d9abfb41bd6b, 0x5be0cd19137e2179⟩
  bytes64 s.a ++ bytes64 s.b ++ bytes64 s.c ++ bytes64 s.d ++ bytes64 s.e ++ bytes64 s.f ++
    bytes64 s.g ++ bytes64 s.h

/-! HMAC and PBKDF2 -/

def hmac (hash : Bytes → Bytes) (block : Nat) (key m : Bytes) : Bytes :=
  let key := if key.length > block then hash key else key
  let key := key ++ List.replicate (block - key.length) 0
  hash (key.map (· ^^^ 0x5c) ++ hash (key.map (· ^^^ 0x36) ++ m))

/-- `U_2 ^ … ^ U_c`, on top of `acc`. -/
def pbkdf2Go (prf : Bytes → Bytes) : Nat → Bytes → Bytes → Bytes
  | 0, _, acc => acc
  | n + 1, u, acc => pbkdf2Go prf n (prf u) (Scram.xor acc (prf u))

def pbkdf2 (prf : Bytes → Bytes → Bytes) (password salt : Bytes) (iterations : UInt32) : Bytes :=
  let u := prf password (salt ++ [0, 0, 0, 1])
  pbkdf2Go (prf password) (iterations.toNat - 1) u u

theorem pbkdf2Go_length {prf : Bytes → Bytes} {n : Nat} (h : ∀ m, (prf m).length = n) (c : Nat)
    (u acc : Bytes) (ha : acc.length = n) : (pbkdf2Go prf c u acc).length = n := by
  induction c generalizing u acc with
  | zero => exact ha
  | succ c ih => exact ih _ _ (by simp [Scram.xor, ha, h])

/-- A hash with its HMAC and PBKDF2, as a digest of the model. -/
def digestOf (hash : Bytes → Bytes) (block outLen : Nat) (h : ∀ m, (hash m).length = outLen) :
    Scram.Digest where
  outLen := outLen
  hash := hash
  hmac := hmac hash block
  pbkdf2 := pbkdf2 (hmac hash block)
  hash_length := h
  hmac_length _ _ := h _
  pbkdf2_length _ _ _ := pbkdf2Go_length (fun _ => h _) _ _ _ (h _)

theorem bytes32_length (w : UInt32) : (bytes32 w).length = 4 := rfl
theorem bytes64_length (w : UInt64) : (bytes64 w).length = 8 := rfl

def sha1Digest : Scram.Digest :=
  digestOf sha1 64 20 fun _ => by simp [sha1, bytes32_length]
def sha256Digest : Scram.Digest :=
  digestOf sha256 64 32 fun _ => by simp [sha256, bytes32_length]
def sha512Digest : Scram.Digest :=
  digestOf sha512 128 64 fun _ => by simp [sha512, bytes64_length]

end Rsasl.Check

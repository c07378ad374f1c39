import Verif.Spec.Gcm
/-!
# SHA-256 (FIPS 180-4), HMAC (RFC 2104) and HKDF (RFC 5869)

A word of 32 bits is the number with these binary digits.
-/
namespace Verif.Spec.Sha256

/-- Section 2.2.2: rotation to the right. -/
def rotr (n x : Nat) : Nat := (x >>> n ||| x <<< (32 - n)) % 2 ^ 32

/-! Section 4.1.2. -/
def ch (x y z : Nat) : Nat := (x &&& y) ^^^ ((2 ^ 32 - 1 - x) &&& z)
def maj (x y z : Nat) : Nat := (x &&& y) ^^^ (x &&& z) ^^^ (y &&& z)
def bigSigma0 (x : Nat) : Nat := rotr 2 x ^^^ rotr 13 x ^^^ rotr 22 x
def bigSigma1 (x : Nat) : Nat := rotr 6 x ^^^ rotr 11 x ^^^ rotr 25 x
def sigma0 (x : Nat) : Nat := rotr 7 x ^^^ rotr 18 x ^^^ x >>> 3
def sigma1 (x : Nat) : Nat := rotr 17 x ^^^ rotr 19 x ^^^ x >>> 10

/-- Section 4.2.2: the first 32 bits of the fractional parts of the cube roots of the first 64 primes. -/
def K : List Nat :=
  [0x428a2f98, 0x71374491, 0xb5c0fbcf, 0xe9b5dba5, 0x3956c25b, 0x59f111f1, 0x923f82a4, 0xab1c5ed5,
    0xd807aa98, 0x12835b01, 0x243185be, 0x550c7dc3, 0x72be5d74, 0x80deb1fe, 0x9bdc06a7, 0xc19bf174,
    0xe49b69c1, 0xefbe4786, 0x0fc19dc6, 0x240ca1cc, 0x2de92c6f, 0x4a7484aa, 0x5cb0a9dc, 0x76f988da,
    0x983e5152, 0xa831c66d, 0xb00327c8, 0xbf597fc7, 0xc6e00bf3, 0xd5a79147, 0x06ca6351, 0x14292967,
    0x27b70a85, 0x2e1b2138, 0x4d2c6dfc, 0x53380d13, 0x650a7354, 0x766a0abb, 0x81c2c92e, 0x92722c85,
    0xa2bfe8a1, 0xa81a664b, 0xc24b8b70, 0xc76c51a3, 0xd192e819, 0xd6990624, 0xf40e3585, 0x106aa070,
    0x19a4c116, 0x1e376c08, 0x2748774c, 0x34b0bcb5, 0x391c0cb3, 0x4ed8aa4a, 0x5b9cca4f, 0x682e6ff3,
    0x748f82ee, 0x78a5636f, 0x84c87814, 0x8cc70208, 0x90befffa, 0xa4506ceb, 0xbef9a3f7, 0xc67178f2]

/-- Section 5.3.3: the first 32 bits of the fractional parts of the square roots of the first 8 primes. -/
def H0 : List Nat :=
  [0x6a09e667, 0xbb67ae85, 0x3c6ef372, 0xa54ff53a, 0x510e527f, 0x9b05688c, 0x1f83d9ab, 0x5be0cd19]

/-- Section 5.1.1: the message, a one bit, zeros up to 448 bits modulo 512, and the length in bits. -/
def pad (m : Bytes) : Bytes :=
  m ++ [0x80] ++ List.replicate ((119 - m.length % 64) % 64) 0 ++ (List.range 8).map fun i => UInt8.ofNat (m.length * 8 / 256 ^ (7 - i))

/-- The words of a block. -/
def words : Bytes → List Nat
  | a :: b :: c :: d :: rest => (((a.toNat * 256 + b.toNat) * 256 + c.toNat) * 256 + d.toNat) :: words rest
  | _ => []

/-- The message schedule of section 6.2.2, the latest word first: `n` more words. -/
def schedule : Nat → List Nat → List Nat
  | 0, w => w
  | n + 1, w => schedule n ((sigma1 (w.getD 1 0) + w.getD 6 0 + sigma0 (w.getD 14 0) + w.getD 15 0) % 2 ^ 32 :: w)

/-- The working variables `a` to `h` of section 6.2.2. -/
structure Vars where
  (a b c d e f g h : Nat)

/-- One round, with the constant `k` and the word `w`. -/
def round (v : Vars) (kw : Nat × Nat) : Vars :=
  let t1 := v.h + bigSigma1 v.e + ch v.e v.f v.g + kw.1 + kw.2
  let t2 := bigSigma0 v.a + maj v.a v.b v.c
  ⟨(t1 + t2) % 2 ^ 32, v.a, v.b, v.c, (v.d + t1) % 2 ^ 32, v.e, v.f, v.g⟩

/-- The 64 rounds for a block. -/
def rounds (H : List Nat) (block : Bytes) : Vars :=
  (K.zip (schedule 48 (words block).reverse).reverse).foldl round
    ⟨H.getD 0 0, H.getD 1 0, H.getD 2 0, H.getD 3 0, H.getD 4 0, H.getD 5 0, H.getD 6 0, H.getD 7 0⟩

/-- The next hash value. -/
def compress (H : List Nat) (block : Bytes) : List Nat :=
  let v := rounds H block
  (H.zip [v.a, v.b, v.c, v.d, v.e, v.f, v.g, v.h]).map fun x => (x.1 + x.2) % 2 ^ 32

/-- The bytes of a word. -/
def wordBytes (w : Nat) : Bytes := (List.range 4).map fun i => UInt8.ofNat (w / 256 ^ (3 - i))

/-- SHA-256: the blocks of the padded message in their order. -/
def sha256 (m : Bytes) : Bytes :=
  let p := pad m
  ((List.range (p.length / 64)).foldl (fun H i => compress H ((p.drop (64 * i)).take 64)) H0).flatMap wordBytes

/-- The key of RFC 2104, section 2: hashed if it is longer than a block, and padded with zeros to a block. -/
def blockKey (k : Bytes) : Bytes :=
  let k := if k.length > 64 then sha256 k else k
  k ++ List.replicate (64 - k.length) 0

/-- RFC 2104: `H(K XOR opad, H(K XOR ipad, text))`. -/
def hmac (k text : Bytes) : Bytes :=
  sha256 ((blockKey k).map (· ^^^ 0x5C) ++ sha256 ((blockKey k).map (· ^^^ 0x36) ++ text))

/-- RFC 5869, section 2.2. -/
def extract (salt ikm : Bytes) : Bytes := hmac salt ikm

/-- RFC 5869, section 2.3: `T(i)`. -/
def T (prk info : Bytes) : Nat → Bytes
  | 0 => []
  | i + 1 => hmac prk (T prk info i ++ info ++ [UInt8.ofNat (i + 1)])

/-- RFC 5869, section 2.3: the first `n` bytes of `T(1) ‖ T(2) ‖ …`. -/
def expand (prk info : Bytes) (n : Nat) : Bytes :=
  (((List.range ((n + 31) / 32)).map fun i => T prk info (i + 1)).flatten).take n

end Verif.Spec.Sha256

import Verif.Spec.Aes
/-!
# GHASH and GCM, NIST SP 800-38D

A block of 128 bits is the number with these binary digits, the leftmost bit being the most significant one.
-/
namespace Verif.Spec.Gcm

/-- `R = 11100001 ‖ 0^120`, section 6.3. -/
def R : Nat := 0xE1 <<< 120

/-- One step of Algorithm 1 on `V`: a right shift, and the addition of `R` if a 1 was shifted out. -/
def step (V : Nat) : Nat := if V % 2 = 0 then V / 2 else (V / 2) ^^^ R

/-- `V_i` of Algorithm 1. -/
def V (Y : Nat) : Nat → Nat
  | 0 => Y
  | i + 1 => step (V Y i)

/-- `Z_i` of Algorithm 1; bit `i` of `X`, counted from the left, is bit `127 - i` of the number. -/
def Z (X Y : Nat) : Nat → Nat
  | 0 => 0
  | i + 1 => if X.testBit (127 - i) then Z X Y i ^^^ V Y i else Z X Y i

/-- Algorithm 1: the product of two blocks. -/
def mul (X Y : Nat) : Nat := Z X Y 128

/-- Algorithm 2: GHASH of a sequence of blocks. -/
def ghash (H : Nat) (blocks : List Nat) : Nat := blocks.foldl (fun Y X => mul (Y ^^^ X) H) 0

/-! ## GCM, with a 96-bit initialization vector, a 128-bit tag and strings of whole bytes -/

/-- The number of a string of bytes. -/
def num (b : Bytes) : Nat := b.foldl (fun n x => n * 256 + x.toNat) 0

/-- The 16 bytes of a block. -/
def bytes (X : Nat) : Bytes := (List.range 16).map fun i => UInt8.ofNat (X / 256 ^ (15 - i))

/-- Section 6.2: the rightmost 32 bits are incremented modulo 2^32. -/
def inc32 (X : Nat) : Nat := X / 2 ^ 32 * 2 ^ 32 + (X % 2 ^ 32 + 1) % 2 ^ 32

/-- `n` increments. -/
def counter (ICB : Nat) : Nat → Nat
  | 0 => ICB
  | n + 1 => inc32 (counter ICB n)

/-- Section 6.5, Algorithm 3: byte `j` is added to byte `j mod 16` of the encrypted counter block number `j / 16`. -/
def gctr (E : Nat → Nat) (ICB : Nat) (X : Bytes) : Bytes :=
  X.mapIdx fun j x => x ^^^ (bytes (E (counter ICB (j / 16)))).getD (j % 16) 0

/-- The blocks of a string padded with zeros to whole blocks. -/
def blocks (X : Bytes) : List Nat := (List.range ((X.length + 15) / 16)).map fun i => num ((List.range 16).map fun j => X.getD (16 * i + j) 0)

/-- Section 7.1, step 2: `J0 = IV ‖ 0^31 ‖ 1`. -/
def J0 (IV : Bytes) : Nat := num IV * 2 ^ 32 + 1

/-- Section 7.1, steps 4 to 6: the tag of a ciphertext. -/
def tag (E : Nat → Nat) (IV A C : Bytes) : Bytes :=
  gctr E (J0 IV) (bytes (ghash (E 0) (blocks A ++ blocks C ++ [2 ^ 64 * (8 * A.length) + 8 * C.length])))

/-- Section 7.1, step 3, and section 7.2, step 5: the encryption of a plaintext, which is also the decryption of a ciphertext. -/
def crypt (E : Nat → Nat) (IV P : Bytes) : Bytes := gctr E (inc32 (J0 IV)) P

/-- Algorithm 4, authenticated encryption: the ciphertext and the tag. -/
def ae (E : Nat → Nat) (IV A P : Bytes) : Bytes × Bytes := (crypt E IV P, tag E IV A (crypt E IV P))

/-- Algorithm 5, authenticated decryption: the plaintext if the tag is right. -/
def ad (E : Nat → Nat) (IV A C T : Bytes) : Option Bytes := if T = tag E IV A C then some (crypt E IV C) else none

/-- AES-128 on blocks. -/
def aes (key : Fin 16 → UInt8) (X : Nat) : Nat :=
  let s := Spec.Aes.cipher key (Spec.Aes.State.ofBytes fun i => (bytes X).getD i.val 0)
  num ((List.range 16).map fun i => s (Fin.ofNat 4 i) (Fin.ofNat 4 (i / 4)))

end Verif.Spec.Gcm

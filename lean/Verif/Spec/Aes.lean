import Verif.Model.Basic
/-!
# AES-128, FIPS 197
-/
namespace Verif.Spec.Aes

/-! ## Section 4: arithmetic in GF(2^8) modulo x^8 + x^4 + x^3 + x + 1 -/

/-- Multiplication by x, section 4.2.1. -/
def xtimes (b : UInt8) : UInt8 := if b.toNat < 128 then UInt8.ofNat (2 * b.toNat) else UInt8.ofNat (2 * b.toNat - 256) ^^^ 0x1B

/-- `xtimes` applied `n` times. -/
def xpow : Nat → UInt8 → UInt8
  | 0, b => b
  | n + 1, b => xtimes (xpow n b)

/-- The product: the sum of `x^i b` over the terms `x^i` of `a`. -/
def mul (a b : UInt8) : UInt8 := (List.range 8).foldl (fun s i => if a.toNat.testBit i then s ^^^ xpow i b else s) 0

/-- The multiplicative inverse, `b^254` (section 4.4); 0 for 0. -/
def inv (b : UInt8) : UInt8 :=
  let b2 := mul b b
  let b4 := mul b2 b2
  let b8 := mul b4 b4
  let b16 := mul b8 b8
  let b32 := mul b16 b16
  let b64 := mul b32 b32
  let b128 := mul b64 b64
  mul b2 (mul b4 (mul b8 (mul b16 (mul b32 (mul b64 b128)))))

/-- The affine transformation, equation 5.2, with c = 01100011. -/
def affine (b : UInt8) : UInt8 :=
  let n := b.toNat
  UInt8.ofNat ((List.range 8).foldl (fun s i =>
    if ((((n.testBit i).xor (n.testBit ((i + 4) % 8))).xor (n.testBit ((i + 5) % 8))).xor (n.testBit ((i + 6) % 8))).xor
        ((n.testBit ((i + 7) % 8)).xor (Nat.testBit 0x63 i))
    then s + 2 ^ i else s) 0)

/-! ## Section 5 -/

/-- The S-box, section 5.1.1. -/
def sbox (b : UInt8) : UInt8 := affine (inv b)

/-- The state: `s r c` is the byte in row `r` and column `c`. -/
abbrev State := Fin 4 → Fin 4 → UInt8

/-- Section 3.4: the input bytes fill the state column by column. -/
def State.ofBytes (b : Fin 16 → UInt8) : State := fun r c => b ⟨r.val + 4 * c.val, by omega⟩

def subBytes (s : State) : State := fun r c => sbox (s r c)

/-- Section 5.1.2. -/
def shiftRows (s : State) : State := fun r c => s r (c + r)

/-- Section 5.1.3: every column is multiplied by the circulant matrix with rows 2 3 1 1, 1 2 3 1, 1 1 2 3, 3 1 1 2. -/
def mixColumns (s : State) : State := fun r c => mul 2 (s r c) ^^^ mul 3 (s (r + 1) c) ^^^ s (r + 2) c ^^^ s (r + 3) c

abbrev Word := Fin 4 → UInt8

/-- `Rcon[j]`, section 5.2: `x^(j-1)` in the first byte. -/
def rconWord (j : Nat) : Word := fun i => if i = 0 then xpow (j - 1) 1 else 0

def rotWord (w : Word) : Word := fun i => w (i + 1)
def subWord (w : Word) : Word := fun i => sbox (w i)
def xorWord (a b : Word) : Word := fun i => a i ^^^ b i

/-- The words of the key schedule, section 5.2, Algorithm 2, with Nk = 4. -/
def word (key : Fin 16 → UInt8) : Nat → Word
  | 0 => fun i => key ⟨i.val, by omega⟩
  | 1 => fun i => key ⟨4 + i.val, by omega⟩
  | 2 => fun i => key ⟨8 + i.val, by omega⟩
  | 3 => fun i => key ⟨12 + i.val, by omega⟩
  | n + 4 =>
    let temp := word key (n + 3)
    let temp := if (n + 4) % 4 = 0 then xorWord (subWord (rotWord temp)) (rconWord ((n + 4) / 4)) else temp
    xorWord (word key n) temp

/-- Section 5.1.4: the columns of the state are added to the four words of the round. -/
def addRoundKey (key : Fin 16 → UInt8) (round : Nat) (s : State) : State := fun r c => s r c ^^^ word key (4 * round + c.val) r

/-- The state after `n` of the first nine rounds, section 5.1, Algorithm 1. -/
def afterRounds (key : Fin 16 → UInt8) (s : State) : Nat → State
  | 0 => addRoundKey key 0 s
  | n + 1 => addRoundKey key (n + 1) (mixColumns (shiftRows (subBytes (afterRounds key s n))))

/-- `Cipher`, section 5.1, Algorithm 1, with Nr = 10. -/
def cipher (key : Fin 16 → UInt8) (s : State) : State := addRoundKey key 10 (shiftRows (subBytes (afterRounds key s 9)))

end Verif.Spec.Aes

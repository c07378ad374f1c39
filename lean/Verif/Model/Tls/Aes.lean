import Verif.Model.Basic
/-!
# `tls/src/crypto/aes/cipher.rs`: the AES-128 block cipher

A block is its 16 bytes.  A function that changes `block: &mut [u8; 16]` returns the changed block.
-/
namespace Verif.Tls

abbrev Block := Vector UInt8 16

set_option maxRecDepth 8000 in
/-- `SBOX`, `tls/src/crypto/aes/cipher.rs:48-66`. -/
def sboxTable : Vector UInt8 256 := #v[
    0x63, 0x7c, 0x77, 0x7b, 0xf2, 0x6b, 0x6f, 0xc5, 0x30, 0x01, 0x67, 0x2b, 0xfe, 0xd7, 0xab, 0x76,
    0xca, 0x82, 0xc9, 0x7d, 0xfa, 0x59, 0x47, 0xf0, 0xad, 0xd4, 0xa2, 0xaf, 0x9c, 0xa4, 0x72, 0xc0,
    0xb7, 0xfd, 0x93, 0x26, 0x36, 0x3f, 0xf7, 0xcc, 0x34, 0xa5, 0xe5, 0xf1, 0x71, 0xd8, 0x31, 0x15,
    0x04, 0xc7, 0x23, 0xc3, 0x18, 0x96, 0x05, 0x9a, 0x07, 0x12, 0x80, 0xe2, 0xeb, 0x27, 0xb2, 0x75,
    0x09, 0x83, 0x2c, 0x1a, 0x1b, 0x6e, 0x5a, 0xa0, 0x52, 0x3b, 0xd6, 0xb3, 0x29, 0xe3, 0x2f, 0x84,
    0x53, 0xd1, 0x00, 0xed, 0x20, 0xfc, 0xb1, 0x5b, 0x6a, 0xcb, 0xbe, 0x39, 0x4a, 0x4c, 0x58, 0xcf,
    0xd0, 0xef, 0xaa, 0xfb, 0x43, 0x4d, 0x33, 0x85, 0x45, 0xf9, 0x02, 0x7f, 0x50, 0x3c, 0x9f, 0xa8,
    0x51, 0xa3, 0x40, 0x8f, 0x92, 0x9d, 0x38, 0xf5, 0xbc, 0xb6, 0xda, 0x21, 0x10, 0xff, 0xf3, 0xd2,
    0xcd, 0x0c, 0x13, 0xec, 0x5f, 0x97, 0x44, 0x17, 0xc4, 0xa7, 0x7e, 0x3d, 0x64, 0x5d, 0x19, 0x73,
    0x60, 0x81, 0x4f, 0xdc, 0x22, 0x2a, 0x90, 0x88, 0x46, 0xee, 0xb8, 0x14, 0xde, 0x5e, 0x0b, 0xdb,
    0xe0, 0x32, 0x3a, 0x0a, 0x49, 0x06, 0x24, 0x5c, 0xc2, 0xd3, 0xac, 0x62, 0x91, 0x95, 0xe4, 0x79,
    0xe7, 0xc8, 0x37, 0x6d, 0x8d, 0xd5, 0x4e, 0xa9, 0x6c, 0x56, 0xf4, 0xea, 0x65, 0x7a, 0xae, 0x08,
    0xba, 0x78, 0x25, 0x2e, 0x1c, 0xa6, 0xb4, 0xc6, 0xe8, 0xdd, 0x74, 0x1f, 0x4b, 0xbd, 0x8b, 0x8a,
    0x70, 0x3e, 0xb5, 0x66, 0x48, 0x03, 0xf6, 0x0e, 0x61, 0x35, 0x57, 0xb9, 0x86, 0xc1, 0x1d, 0x9e,
    0xe1, 0xf8, 0x98, 0x11, 0x69, 0xd9, 0x8e, 0x94, 0x9b, 0x1e, 0x87, 0xe9, 0xce, 0x55, 0x28, 0xdf,
    0x8c, 0xa1, 0x89, 0x0d, 0xbf, 0xe6, 0x42, 0x68, 0x41, 0x99, 0x2d, 0x0f, 0xb0, 0x54, 0xbb, 0x16]

/-- `SBOX[x as usize]`. -/
def sbox (x : UInt8) : UInt8 := sboxTable[x.toNat]'x.toNat_lt

/-- `RCON`, `tls/src/crypto/aes/cipher.rs:70-72`. -/
def rcon : Vector UInt8 11 := #v[0x8d, 0x01, 0x02, 0x04, 0x08, 0x10, 0x20, 0x40, 0x80, 0x1b, 0x36]

/-- `sub_bytes`, `tls/src/crypto/aes/cipher.rs:78-82`. -/
def subBytes (block : Block) : Block := block.map sbox

/-- `shift_rows`, `tls/src/crypto/aes/cipher.rs:85-108`, statement by statement. -/
def shiftRows (block : Block) : Block :=
  let temp := block[1]
  let block := block.set 1 block[5]
  let block := block.set 5 block[9]
  let block := block.set 9 block[13]
  let block := block.set 13 temp
  let temp := block[2]
  let block := block.set 2 block[10]
  let block := block.set 10 temp
  let temp := block[6]
  let block := block.set 6 block[14]
  let block := block.set 14 temp
  let temp := block[3]
  let block := block.set 3 block[15]
  let block := block.set 15 block[11]
  let block := block.set 11 block[7]
  block.set 7 temp

/-- `xtime`, `tls/src/crypto/aes/cipher.rs:110-112`. -/
def xtime (x : UInt8) : UInt8 := (x <<< 1) ^^^ (((x >>> 7) &&& 1) * 0x1b)

/-- One iteration of `mix_columns`, `tls/src/crypto/aes/cipher.rs:117-131`. -/
def mixColumn (i : Nat) (h : i < 4) (block : Block) : Block :=
  let t := block[i * 4]
  let tmp := block[i * 4] ^^^ block[i * 4 + 1] ^^^ block[i * 4 + 2] ^^^ block[i * 4 + 3]
  let tm := block[i * 4] ^^^ block[i * 4 + 1]
  let tm := xtime tm
  let block := block.set (i * 4) (block[i * 4] ^^^ (tm ^^^ tmp))
  let tm := block[i * 4 + 1] ^^^ block[i * 4 + 2]
  let tm := xtime tm
  let block := block.set (i * 4 + 1) (block[i * 4 + 1] ^^^ (tm ^^^ tmp))
  let tm := block[i * 4 + 2] ^^^ block[i * 4 + 3]
  let tm := xtime tm
  let block := block.set (i * 4 + 2) (block[i * 4 + 2] ^^^ (tm ^^^ tmp))
  let tm := block[i * 4 + 3] ^^^ t
  let tm := xtime tm
  block.set (i * 4 + 3) (block[i * 4 + 3] ^^^ (tm ^^^ tmp))

/-- `mix_columns`, `tls/src/crypto/aes/cipher.rs:115-133`. -/
def mixColumns (block : Block) : Block :=
  mixColumn 3 (by decide) (mixColumn 2 (by decide) (mixColumn 1 (by decide) (mixColumn 0 (by decide) block)))

/-- The four bytes `tempa` of an iteration of `key_expansion`, `tls/src/crypto/aes/cipher.rs:145-175`; they are given as they are before
(the last word). -/
def scheduleCore (i : Nat) (h : i < 44) (t0 t1 t2 t3 : UInt8) : UInt8 × UInt8 × UInt8 × UInt8 :=
  if i % 4 = 0 then (sbox t1 ^^^ rcon[i / 4], sbox t2, sbox t3, sbox t0) else (t0, t1, t2, t3)

/-- One iteration of `key_expansion`, `tls/src/crypto/aes/cipher.rs:144-183`. -/
def expandStep (i : Nat) (h4 : 4 ≤ i) (h : i < 44) (rk : Vector UInt8 176) : Vector UInt8 176 :=
  let k := (i - 1) * 4
  let t := scheduleCore i h (rk[k]'(by omega)) (rk[k + 1]'(by omega)) (rk[k + 2]'(by omega)) (rk[k + 3]'(by omega))
  let j := i * 4
  let k := (i - 4) * 4
  let rk := rk.set j (rk[k]'(by omega) ^^^ t.1) (by omega)
  let rk := rk.set (j + 1) (rk[k + 1]'(by omega) ^^^ t.2.1) (by omega)
  let rk := rk.set (j + 2) (rk[k + 2]'(by omega) ^^^ t.2.2.1) (by omega)
  rk.set (j + 3) (rk[k + 3]'(by omega) ^^^ t.2.2.2) (by omega)

/-- The loop of `key_expansion` from `i = 4` to `i = 3 + n`. -/
def expandLoop (rk : Vector UInt8 176) : (n : Nat) → n ≤ 40 → Vector UInt8 176
  | 0, _ => rk
  | n + 1, h => expandStep (n + 4) (by omega) (by omega) (expandLoop rk n (by omega))

/-- `key_expansion`, `tls/src/crypto/aes/cipher.rs:135-186`. -/
def keyExpansion (key : Block) : Vector UInt8 176 :=
  expandLoop (Vector.ofFn fun i : Fin 176 => if h : i.val < 16 then key[i.val] else 0) 40 (Nat.le_refl _)

/-- `Aes128`, `tls/src/crypto/aes/cipher.rs:188-190`. -/
structure Aes128 where
  roundKey : Vector UInt8 176

/-- `Aes128::new`, `tls/src/crypto/aes/cipher.rs:193-197`. -/
def Aes128.new (key : Block) : Aes128 := ⟨keyExpansion key⟩

/-- `Aes128::add_round_key`, `tls/src/crypto/aes/cipher.rs:199-204`. -/
def Aes128.addRoundKey (a : Aes128) (round : Nat) (h : round ≤ 10) (block : Block) : Block :=
  Vector.ofFn fun i : Fin 16 => block[i.val] ^^^ a.roundKey[round * 16 + i.val]'(by omega)

/-- The rounds with `mix_columns`, `tls/src/crypto/aes/cipher.rs:213-222`: `n` of them. -/
def Aes128.rounds (a : Aes128) (block : Block) : (n : Nat) → n ≤ 9 → Block
  | 0, _ => block
  | n + 1, h => a.addRoundKey (n + 1) (by omega) (mixColumns (shiftRows (subBytes (a.rounds block n (by omega)))))

/-- `Aes128::encrypt_block_inplace`, `tls/src/crypto/aes/cipher.rs:206-227`. -/
def Aes128.encryptBlock (a : Aes128) (block : Block) : Block :=
  a.addRoundKey 10 (Nat.le_refl _) (shiftRows (subBytes (a.rounds (a.addRoundKey 0 (by omega) block) 9 (Nat.le_refl _))))

end Verif.Tls

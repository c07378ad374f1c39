import Verif.Model.Tls.Ghash
/-!
# `tls/src/crypto/aes/gcm.rs`: AES-128-GCM

A function that changes its `&mut self` or `&mut [u8]` argument returns the changed value.  `data_len: usize` is a natural number: the counter stops
after one mebibyte.
-/
namespace Verif.Tls

/-- `Aes128Gcm`, `tls/src/crypto/aes/gcm.rs:4-12`. -/
structure Aes128Gcm where
  cipher : Aes128
  ghash : GHash
  counter : Block
  counter0Ct : Block
  dataLen : Nat

/-- A block that begins with the given bytes (16 at most) and continues with zeros, as `padded[..n].copy_from_slice(..)` on `[0; 16]` makes it. -/
def toBlock (l : Bytes) : Block := Vector.ofFn fun i : Fin 16 => l.getD i.val 0

/-- `block.iter_mut().zip(ek).for_each(|(a, b)| *a ^= b)`, `tls/src/crypto/aes/gcm.rs:63`. -/
def xorBlock (a b : Block) : Block := Vector.ofFn fun i : Fin 16 => a[i.val] ^^^ b[i.val]

/-- `u64::to_be_bytes`. -/
def be64 (x : UInt64) : Bytes := (List.range 8).map fun i => (x >>> UInt64.ofNat (56 - 8 * i)).toUInt8

namespace Aes128Gcm

/-- `Aes128Gcm::new`, `tls/src/crypto/aes/gcm.rs:17-47`. -/
def new (key : Block) (nonce : Vector UInt8 12) (aad : Vector UInt8 5) : Aes128Gcm :=
  let cipher := Aes128.new key
  let hashKey := cipher.encryptBlock (toBlock [])
  let ghash := (GHash.new hashKey).update (toBlock aad.toList)
  let counter := (toBlock nonce.toList).set 15 1
  { cipher, ghash, counter, counter0Ct := cipher.encryptBlock counter, dataLen := 0 }

/-- `Aes128Gcm::increment_counter`, `tls/src/crypto/aes/gcm.rs:49-56`.  `unwrap!` panics. -/
def incrementCounter (g : Aes128Gcm) : Except Err Aes128Gcm :=
  let counter := g.counter.set 15 (g.counter[15] + 1)
  if counter[15] = 0 then
    if counter[14] = 255 then .error .panic
    else .ok { g with counter := counter.set 14 (counter[14] + 1) }
  else .ok { g with counter }

/-- `Aes128Gcm::decrypt_block_inplace_inner` and `Aes128Gcm::encrypt_block_inplace_inner`, which are the same,
`tls/src/crypto/aes/gcm.rs:58-72`. -/
def cryptBlock (g : Aes128Gcm) (block : Block) : Except Err (Block × Aes128Gcm) :=
  g.incrementCounter >>= fun g => .ok (xorBlock block (g.cipher.encryptBlock g.counter), g)

/-- `Aes128Gcm::encrypt_block_inplace`, `tls/src/crypto/aes/gcm.rs:74-78`. -/
def encryptBlock (g : Aes128Gcm) (block : Block) : Except Err (Block × Aes128Gcm) :=
  g.cryptBlock block >>= fun x => .ok (x.1, { x.2 with ghash := x.2.ghash.update x.1, dataLen := x.2.dataLen + 16 })

/-- `Aes128Gcm::encrypt_remainder_inplace`, `tls/src/crypto/aes/gcm.rs:80-88`; `len` is at most 16 (with more, slicing panics). -/
def encryptRemainder (g : Aes128Gcm) (block : Block) (len : Nat) : Except Err (Block × Aes128Gcm) :=
  if 16 < len then .error .panic
  else
    g.cryptBlock block >>= fun x =>
    let block := toBlock (x.1.toList.take len)
    .ok (block, { x.2 with ghash := x.2.ghash.update block, dataLen := x.2.dataLen + len })

/-- The chunks of `Aes128Gcm::decrypt_inplace`, `tls/src/crypto/aes/gcm.rs:91-97`: `n` of them. -/
def decryptChunks (g : Aes128Gcm) : Nat → Bytes → Except Err (Bytes × Aes128Gcm)
  | 0, _ => .ok ([], g)
  | n + 1, data =>
    let chunk := toBlock (data.take 16)
    ({ g with ghash := g.ghash.update chunk }).cryptBlock chunk >>= fun x =>
    x.2.decryptChunks n (data.drop 16) >>= fun y => .ok (x.1.toList ++ y.1, y.2)

/-- The remainder of `Aes128Gcm::decrypt_inplace`, `tls/src/crypto/aes/gcm.rs:99-108`. -/
def decryptRest (g : Aes128Gcm) (rem : Bytes) : Except Err (Bytes × Aes128Gcm) :=
  if rem = [] then .ok ([], g)
  else
    let padded := toBlock rem
    ({ g with ghash := g.ghash.update padded }).cryptBlock padded >>= fun x => .ok (x.1.toList.take rem.length, x.2)

/-- `Aes128Gcm::decrypt_inplace`, `tls/src/crypto/aes/gcm.rs:90-111`. -/
def decrypt (g : Aes128Gcm) (data : Bytes) : Except Err (Bytes × Aes128Gcm) :=
  g.decryptChunks (data.length / 16) data >>= fun x =>
  x.2.decryptRest (data.drop (data.length / 16 * 16)) >>= fun y =>
  .ok (x.1 ++ y.1, { y.2 with dataLen := y.2.dataLen + data.length })

/-- `Aes128Gcm::finish`, `tls/src/crypto/aes/gcm.rs:113-130`. -/
def finish (g : Aes128Gcm) : Block :=
  let block := toBlock (be64 (5 * 8) ++ be64 (UInt64.ofNat g.dataLen * 8))
  xorBlock (g.ghash.update block).finalize g.counter0Ct

end Aes128Gcm

end Verif.Tls

import Verif.Model.Tls.Aes
/-!
# `tls/src/crypto/aes/ghash.rs`: GHASH

Arrays with constant indices are written as one variable for each element, and the loop of `mul` is written out for its four iterations.
-/
namespace Verif.Tls

/-- `u32::from_le_bytes`. -/
def u32OfLe (a b c d : UInt8) : UInt32 := be32 d c b a

/-- `u128::from_le_bytes`. -/
def u128OfLe (b : Block) : BitVec 128 := BitVec.ofNat 128 (b.toList.foldr (fun x n => x.toNat + 256 * n) 0)

/-- `u128::to_le_bytes`. -/
def leOfU128 (v : BitVec 128) : Block := Vector.ofFn fun i : Fin 16 => UInt8.ofNat (v.toNat >>> (8 * i.val))

/-- `mulx`, `tls/src/crypto/aes/ghash.rs:14-21`. -/
def mulx (block : Block) : Block :=
  let v := u128OfLe block
  let vHi := v >>> 127
  let v := v <<< 1
  let v := v ^^^ (vHi ^^^ (vHi <<< 127) ^^^ (vHi <<< 126) ^^^ (vHi <<< 121))
  leOfU128 v

/-- `U32x4`, `tls/src/crypto/aes/ghash.rs:78`. -/
structure U32x4 where
  w0 : UInt32
  w1 : UInt32
  w2 : UInt32
  w3 : UInt32
  deriving DecidableEq

/-- `Default`. -/
def U32x4.zero : U32x4 := ⟨0, 0, 0, 0⟩

/-- `<U32x4 as Add>::add`, `tls/src/crypto/aes/ghash.rs:84-92`. -/
def U32x4.add (a b : U32x4) : U32x4 := ⟨a.w0 ^^^ b.w0, a.w1 ^^^ b.w1, a.w2 ^^^ b.w2, a.w3 ^^^ b.w3⟩

/-- `bmul32`, `tls/src/crypto/aes/ghash.rs:209-230`.  Multiplication of `UInt32` wraps, as that of `Wrapping<u32>`. -/
def bmul32 (x y : UInt32) : UInt32 :=
  let x0 := x &&& 0x11111111
  let x1 := x &&& 0x22222222
  let x2 := x &&& 0x44444444
  let x3 := x &&& 0x88888888
  let y0 := y &&& 0x11111111
  let y1 := y &&& 0x22222222
  let y2 := y &&& 0x44444444
  let y3 := y &&& 0x88888888
  let z0 := (x0 * y0) ^^^ (x1 * y3) ^^^ (x2 * y2) ^^^ (x3 * y1)
  let z1 := (x0 * y1) ^^^ (x1 * y0) ^^^ (x2 * y3) ^^^ (x3 * y2)
  let z2 := (x0 * y2) ^^^ (x1 * y1) ^^^ (x2 * y0) ^^^ (x3 * y3)
  let z3 := (x0 * y3) ^^^ (x1 * y2) ^^^ (x2 * y1) ^^^ (x3 * y0)
  let z0 := z0 &&& 0x11111111
  let z1 := z1 &&& 0x22222222
  let z2 := z2 &&& 0x44444444
  let z3 := z3 &&& 0x88888888
  z0 ||| z1 ||| z2 ||| z3

/-- `rev32`, `tls/src/crypto/aes/ghash.rs:233-239`. -/
def rev32 (x : UInt32) : UInt32 :=
  let x := ((x &&& 0x55555555) <<< 1) ||| ((x >>> 1) &&& 0x55555555)
  let x := ((x &&& 0x33333333) <<< 2) ||| ((x >>> 2) &&& 0x33333333)
  let x := ((x &&& 0x0f0f0f0f) <<< 4) ||| ((x >>> 4) &&& 0x0f0f0f0f)
  let x := ((x &&& 0x00ff00ff) <<< 8) ||| ((x >>> 8) &&& 0x00ff00ff)
  (x >>> 16) ||| (x <<< 16)

/-- `lw ^ (lw >> 1) ^ (lw >> 2) ^ (lw >> 7)`, `tls/src/crypto/aes/ghash.rs:196`. -/
def foldHi (lw : UInt32) : UInt32 := lw ^^^ (lw >>> 1) ^^^ (lw >>> 2) ^^^ (lw >>> 7)

/-- `(lw << 31) ^ (lw << 30) ^ (lw << 25)`, `tls/src/crypto/aes/ghash.rs:197`. -/
def foldLo (lw : UInt32) : UInt32 := (lw <<< 31) ^^^ (lw <<< 30) ^^^ (lw <<< 25)

/-- The four iterations of the loop at `tls/src/crypto/aes/ghash.rs:194-198`, on `zw[0..8]`. -/
def reduce (zw0 zw1 zw2 zw3 zw4 zw5 zw6 zw7 : UInt32) : U32x4 :=
  let lw := zw0
  let zw4 := zw4 ^^^ foldHi lw
  let zw3 := zw3 ^^^ foldLo lw
  let lw := zw1
  let zw5 := zw5 ^^^ foldHi lw
  let zw4 := zw4 ^^^ foldLo lw
  let lw := zw2
  let zw6 := zw6 ^^^ foldHi lw
  let zw5 := zw5 ^^^ foldLo lw
  let lw := zw3
  let zw7 := zw7 ^^^ foldHi lw
  let zw6 := zw6 ^^^ foldLo lw
  ⟨zw4, zw5, zw6, zw7⟩

/-- `<U32x4 as Mul>::mul`, `tls/src/crypto/aes/ghash.rs:117-201`. -/
def U32x4.mul (self rhs : U32x4) : U32x4 :=
  let hw0 := self.w0
  let hw1 := self.w1
  let hw2 := self.w2
  let hw3 := self.w3
  let yw0 := rhs.w0
  let yw1 := rhs.w1
  let yw2 := rhs.w2
  let yw3 := rhs.w3
  let hwr0 := rev32 hw0
  let hwr1 := rev32 hw1
  let hwr2 := rev32 hw2
  let hwr3 := rev32 hw3
  let a0 := yw0
  let a1 := yw1
  let a2 := yw2
  let a3 := yw3
  let a4 := a0 ^^^ a1
  let a5 := a2 ^^^ a3
  let a6 := a0 ^^^ a2
  let a7 := a1 ^^^ a3
  let a8 := a6 ^^^ a7
  let a9 := rev32 yw0
  let a10 := rev32 yw1
  let a11 := rev32 yw2
  let a12 := rev32 yw3
  let a13 := a9 ^^^ a10
  let a14 := a11 ^^^ a12
  let a15 := a9 ^^^ a11
  let a16 := a10 ^^^ a12
  let a17 := a15 ^^^ a16
  let b0 := hw0
  let b1 := hw1
  let b2 := hw2
  let b3 := hw3
  let b4 := b0 ^^^ b1
  let b5 := b2 ^^^ b3
  let b6 := b0 ^^^ b2
  let b7 := b1 ^^^ b3
  let b8 := b6 ^^^ b7
  let b9 := hwr0
  let b10 := hwr1
  let b11 := hwr2
  let b12 := hwr3
  let b13 := b9 ^^^ b10
  let b14 := b11 ^^^ b12
  let b15 := b9 ^^^ b11
  let b16 := b10 ^^^ b12
  let b17 := b15 ^^^ b16
  let c0 := bmul32 a0 b0
  let c1 := bmul32 a1 b1
  let c2 := bmul32 a2 b2
  let c3 := bmul32 a3 b3
  let c4 := bmul32 a4 b4
  let c5 := bmul32 a5 b5
  let c6 := bmul32 a6 b6
  let c7 := bmul32 a7 b7
  let c8 := bmul32 a8 b8
  let c9 := bmul32 a9 b9
  let c10 := bmul32 a10 b10
  let c11 := bmul32 a11 b11
  let c12 := bmul32 a12 b12
  let c13 := bmul32 a13 b13
  let c14 := bmul32 a14 b14
  let c15 := bmul32 a15 b15
  let c16 := bmul32 a16 b16
  let c17 := bmul32 a17 b17
  let c4 := c4 ^^^ (c0 ^^^ c1)
  let c5 := c5 ^^^ (c2 ^^^ c3)
  let c8 := c8 ^^^ (c6 ^^^ c7)
  let c13 := c13 ^^^ (c9 ^^^ c10)
  let c14 := c14 ^^^ (c11 ^^^ c12)
  let c17 := c17 ^^^ (c15 ^^^ c16)
  let zw0 := c0
  let zw1 := c4 ^^^ (rev32 c9 >>> 1)
  let zw2 := c1 ^^^ c0 ^^^ c2 ^^^ c6 ^^^ (rev32 c13 >>> 1)
  let zw3 := c4 ^^^ c5 ^^^ c8 ^^^ (rev32 (c10 ^^^ c9 ^^^ c11 ^^^ c15) >>> 1)
  let zw4 := c2 ^^^ c1 ^^^ c3 ^^^ c7 ^^^ (rev32 (c13 ^^^ c14 ^^^ c17) >>> 1)
  let zw5 := c5 ^^^ (rev32 (c11 ^^^ c10 ^^^ c12 ^^^ c16) >>> 1)
  let zw6 := c3 ^^^ (rev32 c14 >>> 1)
  let zw7 := rev32 c12 >>> 1
  reduce zw0 zw1 zw2 zw3 zw4 zw5 zw6 zw7

/-- `GHash`, `tls/src/crypto/aes/ghash.rs:27-32`. -/
structure GHash where
  h : U32x4
  s : U32x4
  deriving DecidableEq

/-- `GHash::new`, `tls/src/crypto/aes/ghash.rs:36-51`. -/
def GHash.new (h : Block) : GHash :=
  let h := h.reverse
  let p := mulx h
  ⟨⟨u32OfLe p[0] p[1] p[2] p[3], u32OfLe p[4] p[5] p[6] p[7], u32OfLe p[8] p[9] p[10] p[11], u32OfLe p[12] p[13] p[14] p[15]⟩, U32x4.zero⟩

/-- The element read from a block by `GHash::update`, `tls/src/crypto/aes/ghash.rs:55-60`. -/
def U32x4.ofBlock (x : Block) : U32x4 :=
  ⟨be32 x[12] x[13] x[14] x[15], be32 x[8] x[9] x[10] x[11], be32 x[4] x[5] x[6] x[7], be32 x[0] x[1] x[2] x[3]⟩

/-- `GHash::update`, `tls/src/crypto/aes/ghash.rs:54-62`. -/
def GHash.update (g : GHash) (x : Block) : GHash := { g with s := (g.s.add (U32x4.ofBlock x)).mul g.h }

/-- `u32::to_be_bytes`, byte `i`. -/
def beByte (w : UInt32) (i : Nat) : UInt8 := (w >>> UInt32.ofNat (24 - 8 * i)).toUInt8

/-- `GHash::finalize`, `tls/src/crypto/aes/ghash.rs:65-74`. -/
def GHash.finalize (g : GHash) : Block :=
  #v[beByte g.s.w3 0, beByte g.s.w3 1, beByte g.s.w3 2, beByte g.s.w3 3, beByte g.s.w2 0, beByte g.s.w2 1, beByte g.s.w2 2, beByte g.s.w2 3,
    beByte g.s.w1 0, beByte g.s.w1 1, beByte g.s.w1 2, beByte g.s.w1 3, beByte g.s.w0 0, beByte g.s.w0 1, beByte g.s.w0 2, beByte g.s.w0 3]

end Verif.Tls

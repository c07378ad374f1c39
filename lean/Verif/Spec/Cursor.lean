import Verif.Model.Hl.Io
/-!
# An in-memory cursor, the specification of a reader
-/
namespace Verif.Spec
open Verif.Hl

/-- Bytes and a position. -/
structure Cursor where
  data : Bytes
  pos : Nat
  deriving DecidableEq

/-- The offset a seek asks for. -/
def seekTarget (len pos : Nat) : SeekFrom → Int
  | .start o => o.toNat
  | .«end» o => len + o.toInt
  | .current o => pos + o.toInt

/-- The reader operations on a cursor. -/
def cursorOps : Reader Cursor where
  read n := fun c =>
    let x := (c.data.drop c.pos).take n
    (.ok x, { c with pos := c.pos + x.length })
  readExact n := fun c =>
    if n ≤ c.data.length - c.pos then (.ok ((c.data.drop c.pos).take n), { c with pos := c.pos + n })
    else (.error .unexpectedEof, c)
  seek pos := fun c =>
    let t := seekTarget c.data.length c.pos pos
    if 0 ≤ t ∧ t ≤ c.data.length then (.ok (), { c with pos := t.toNat })
    else (.error .unexpectedEof, c)
  rewind := fun c => (.ok (), { c with pos := 0 })
  streamLen := fun c => (.ok (UInt16.ofNat c.data.length), c)
  streamPosition := fun c => (.ok (UInt16.ofNat c.pos), c)
  remain := fun c => (.ok (UInt16.ofNat (c.data.length - c.pos)), c)

/-- A fixed block of memory and a position, the specification of a writer. -/
structure Image where
  buf : Bytes
  pos : Nat
  deriving DecidableEq

/-- Store `bs` at the position and advance. -/
def Image.put (c : Image) (bs : Bytes) : Image :=
  { buf := c.buf.take c.pos ++ bs ++ c.buf.drop (c.pos + bs.length), pos := c.pos + bs.length }

/-- The writer operations on an image: `write` stores what fits, `write_all` everything or nothing.
(`send` does nothing to the image itself.) -/
def imageOps : Writer Image where
  write bs := fun c =>
    let n := min (c.buf.length - c.pos) bs.length
    (.ok (UInt16.ofNat n), c.put (bs.take n))
  writeAll bs := fun c =>
    if bs.length ≤ c.buf.length - c.pos then (.ok (), c.put bs) else (.error .outOfMemory, c)
  seek pos := fun c =>
    let t := seekTarget c.buf.length c.pos pos
    if 0 ≤ t ∧ t ≤ c.buf.length then (.ok (), { c with pos := t.toNat })
    else (.error .unexpectedEof, c)
  rewind := fun c => (.ok (), { c with pos := 0 })
  streamLen := fun c => (.ok (UInt16.ofNat c.buf.length), c)
  streamPosition := fun c => (.ok (UInt16.ofNat c.pos), c)
  remain := fun c => (.ok (UInt16.ofNat (c.buf.length - c.pos)), c)
  send := fun c => (.ok (), c)

end Verif.Spec

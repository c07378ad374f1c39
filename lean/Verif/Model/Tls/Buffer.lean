import Verif.Model.Tls.Codes
import Verif.Model.Hl.Prog
/-!
# `tls/src/io.rs`: the receive buffer and its readers

`N` is `buf.length`.  A slice that is handed out is modelled by its bytes.  `dbg` is true in a debug build: `debug_assert!`
panics and `+`, `-` on integers panic when they overflow.  The sizes used with the client are 1024 to 16384
(`tls/src/lib.rs:243-252`), so that no sum of positions overflows.
-/
namespace Verif.Tls
open Verif Hl

/-! ## `CircleReader` -/

/-- `struct CircleReader`, `tls/src/io.rs:20-24`. -/
structure CircleReader where
  a : Bytes
  b : Bytes
  ptr : UInt16
  deriving DecidableEq

namespace CircleReader

/-- `CircleReader::new`, `tls/src/io.rs:27-29`. -/
def new (a b : Bytes) : CircleReader := { a, b, ptr := 0 }

/-- `CircleReader::len`, `tls/src/io.rs:31-33`. -/
def len (r : CircleReader) : UInt16 := UInt16.ofNat (r.a.length + r.b.length)

/-- `CircleReader::as_slices`, `tls/src/io.rs:35-41`; slicing beyond the end panics. -/
def asSlices (r : CircleReader) : Except Err (Bytes × Bytes) :=
  if r.a.length ≤ r.ptr.toNat then
    if r.ptr.toNat - r.a.length ≤ r.b.length then .ok (r.b.drop (r.ptr.toNat - r.a.length), []) else .error .panic
  else .ok (r.a.drop r.ptr.toNat, r.b)

/-- `CircleReader::as_slices_of_n`, `tls/src/io.rs:43-53`. -/
def asSlicesOfN (r : CircleReader) (n : Nat) : Except Err (Option (Bytes × Bytes)) :=
  r.asSlices >>= fun s =>
  if s.1.length + s.2.length < n then .ok none
  else if n ≤ s.1.length then .ok (some (s.1.take n, []))
  else .ok (some (s.1, s.2.take (n - s.1.length)))

/-- `CircleReader::read_exact`, `tls/src/io.rs:55-66`; `n` is `buf.len()`. -/
def readExact (r : CircleReader) (n : Nat) : Res (Bytes × CircleReader) :=
  match r.asSlicesOfN n with
  | .error e => .error (.stop e)
  | .ok none => .error (.err .decodeError)
  | .ok (some s) => .ok (s.1 ++ s.2, { r with ptr := r.ptr + UInt16.ofNat n })

/-- `CircleReader::read`, `tls/src/io.rs:69-83`. -/
def read (r : CircleReader) (n : Nat) : Except Err (Bytes × CircleReader) :=
  r.asSlices >>= fun s =>
  let copyA := min s.1.length n
  let copyB := min s.2.length (n - s.1.length)
  .ok (s.1.take copyA ++ s.2.take copyB, { r with ptr := r.ptr + UInt16.ofNat (copyA + copyB) })

/-- `CircleReader::next_u8`, `tls/src/io.rs:95-98`. -/
def nextU8 (r : CircleReader) : Res (UInt8 × CircleReader) :=
  r.readExact 1 >>= fun x => .ok (x.1.getD 0 0, x.2)

/-- `CircleReader::next_u16`, `tls/src/io.rs:100-102`. -/
def nextU16 (r : CircleReader) : Res (UInt16 × CircleReader) :=
  r.readExact 2 >>= fun x => .ok (be16 (x.1.getD 0 0) (x.1.getD 1 0), x.2)

/-- `CircleReader::skip_n`, `tls/src/io.rs:104-112`. -/
def skipN (r : CircleReader) (n : UInt16) : Res CircleReader :=
  if r.ptr.toNat + n.toNat < 65536 ∧ r.ptr + n ≤ r.len then .ok { r with ptr := r.ptr + n }
  else .error (.err .decodeError)

end CircleReader

/-! ## `Buffer` -/

/-- `struct Buffer`, `tls/src/io.rs:489-495`. -/
structure Buffer where
  buf : Bytes
  head : Nat
  adTail : Nat
  hsHead : Nat
  tail : Nat
  deriving DecidableEq

/-- Store `src` at `pos`, `copy_from_slice` of a part of the buffer. -/
def writeAt (buf : Bytes) (pos : Nat) (src : Bytes) : Bytes := buf.take pos ++ src ++ buf.drop (pos + src.length)

/-- `as_slices!`, `tls/src/io.rs:510-531`: the bytes from `head` up to `tail`, around the end of the buffer if
`tail <= head`.  The Rust code is `unsafe`; the theorems show that the positions stay below `N`. -/
def asSlices (buf : Bytes) (tail head : Nat) : Bytes × Bytes :=
  if tail ≤ head then (buf.drop head, buf.take tail) else ((buf.drop head).take (tail - head), [])

namespace Buffer

/-- `From<&mut [u8; N]> for Buffer`, `tls/src/io.rs:497-507`. -/
def ofBuf (buf : Bytes) : Buffer := { buf, head := 0, adTail := 0, hsHead := 0, tail := 0 }

/-- The generic `N`. -/
def n (b : Buffer) : Nat := b.buf.length

/-- `Buffer::capacity`, `tls/src/io.rs:534-536`. -/
def capacity (b : Buffer) : Nat := b.n - 1

/-- `Buffer::len`, `tls/src/io.rs:538-544`. -/
def len (b : Buffer) : Nat := if b.tail < b.head then b.tail + b.capacity - b.head else b.tail - b.head

/-- `Buffer::hs_len`, `tls/src/io.rs:546-552`. -/
def hsLen (b : Buffer) : Nat := if b.tail < b.hsHead then b.tail + b.capacity - b.hsHead else b.tail - b.hsHead

/-- `Buffer::reset`, `tls/src/io.rs:554-559`. -/
def reset (b : Buffer) : Buffer := { b with head := 0, tail := 0, adTail := 0, hsHead := 0 }

/-- `Buffer::contains_handshake_fragment`, `tls/src/io.rs:561-563`. -/
def containsHandshakeFragment (b : Buffer) : Bool := b.tail ≠ b.adTail

/-- `Buffer::increment_application_data_tail`, `tls/src/io.rs:565-568`. -/
def incrementApplicationDataTail (dbg : Bool) (b : Buffer) (k : Nat) : Except Err Buffer :=
  if dbg = true ∧ b.capacity < k then .error .panic else .ok { b with adTail := (b.adTail + k) % b.n }

/-- `Buffer::is_empty`, `tls/src/io.rs:570-572`. -/
def isEmpty (b : Buffer) : Bool := b.head = b.tail

/-- `Buffer::remain`, `tls/src/io.rs:574-576`. -/
def remain (b : Buffer) : Nat := b.capacity - b.len

/-- `Buffer::pop_handshake_slices_of_n`, `tls/src/io.rs:578-595`. -/
def popHandshakeSlicesOfN (b : Buffer) (k : Nat) : Except Err (Option ((Bytes × Bytes) × Buffer)) :=
  if b.len < k then .ok none
  else
    let s := asSlices b.buf b.tail b.hsHead
    let hsHead := (b.hsHead + k) % b.n
    let b' := if hsHead = b.tail then { b with hsHead := b.adTail, tail := b.adTail } else { b with hsHead }
    if k ≤ s.1.length then .ok (some ((s.1.take k, []), b'))
    else if k - s.1.length ≤ s.2.length then .ok (some ((s.1, s.2.take (k - s.1.length)), b'))
    else .error .panic

/-- The lengths of the free parts `a` (from `tail` on) and `b` (from the start) in `Buffer::extend_from_slice`,
`tls/src/io.rs:603-615`. -/
def room (b : Buffer) : Nat × Nat :=
  if b.tail = b.head then (b.n - b.tail, b.tail)
  else if b.head < b.tail then (b.n - b.tail, b.head)
  else (b.head - b.tail, 0)

/-- `Buffer::extend_from_slice`, `tls/src/io.rs:598-630`. -/
def extendFromSlice (dbg : Bool) (b : Buffer) (src : Bytes) : Res Buffer :=
  if b.remain < src.length then .error (.err .internalError)
  else
    let aLen := min src.length b.room.1
    if b.room.2 < src.length - aLen then .error (.stop .panic)
    else
      let buf := writeAt (writeAt b.buf b.tail (src.take aLen)) 0 (src.drop aLen)
      let tail := (b.tail + src.length) % b.n
      if dbg = true ∧ src ≠ [] ∧ b.head = tail then .error (.stop .panic) else .ok { b with buf, tail }

/-- `Buffer::pop_tail`, `tls/src/io.rs:633-640`. -/
def popTail (b : Buffer) : Option (UInt8 × Buffer) :=
  if b.isEmpty then none
  else
    let tail := if b.tail = 0 then b.n - 1 else b.tail - 1
    some (b.buf.getD tail 0, { b with tail })

/-- The loop of `Buffer::read_head`, `tls/src/io.rs:643-658`. -/
def readHeadFrom (b : Buffer) : Nat → Nat → Bytes
  | _, 0 => []
  | pos, k + 1 => b.buf.getD pos 0 :: b.readHeadFrom (if pos + 1 = b.n then 0 else pos + 1) k

/-- `Buffer::read_head`, `tls/src/io.rs:643-658`. -/
def readHead (b : Buffer) (k : Nat) : Option Bytes := if b.len < k then none else some (b.readHeadFrom b.head k)

/-- `Buffer::pop_handshake_record`, `tls/src/io.rs:660-699`.  The bytes that are hashed are `header ++ a ++ b`. -/
def popHandshakeRecord (b : Buffer) : Res (Option ((HandshakeHeader × CircleReader) × Buffer)) :=
  match b.readHead 4 with
  | none => .ok none
  | some h =>
    let hdr : HandshakeHeader := #v[h.getD 0 0, h.getD 1 0, h.getD 2 0, h.getD 3 0]
    if b.capacity < hdr.lengthWithHeader.toNat then .error (.err .internalError)
    else if b.hsLen < hdr.lengthWithHeader.toNat then .ok none
    else
      let b := { b with hsHead := (b.hsHead + 4) % b.n }
      match b.popHandshakeSlicesOfN hdr.length.toNat with
      | .error e => .error (.stop e)
      | .ok none => .error (.stop .panic)
      | .ok (some (s, b)) => .ok (some ((hdr, CircleReader.new s.1 s.2), b))

end Buffer

/-! ## `TlsReader` -/

/-- `struct TlsReader`, `tls/src/io.rs:313-317`.  The borrowed `head` is `head`; `done` returns its new value. -/
structure TlsReader where
  inner : CircleReader
  head : Nat
  wrap : Nat
  deriving DecidableEq

/-- `Buffer::app_data_reader`, `tls/src/io.rs:715-727`. -/
def Buffer.appDataReader (b : Buffer) : Except Err TlsReader :=
  if b.adTail = b.head then .error .wouldBlock
  else
    let s := asSlices b.buf b.adTail b.head
    .ok { inner := CircleReader.new s.1 s.2, head := b.head, wrap := b.n }

/-- `i16::try_from(x).unwrap_or(i16::MAX)`. -/
def clampI16 (x : UInt16) : Int := min x.toNat 32767

namespace TlsReader

/-- `TlsReader::seek`, `tls/src/io.rs:320-361`. -/
def seek (r : TlsReader) (pos : SeekFrom) : Except Err TlsReader :=
  match pos with
  | .start k => if k > r.inner.len then .error .unexpectedEof else .ok { r with inner := { r.inner with ptr := k } }
  | .«end» k =>
    if k > 0 then .error .unexpectedEof
    else if unsignedAbs k > r.inner.len then .error .unexpectedEof
    else .ok { r with inner := { r.inner with ptr := r.inner.len - unsignedAbs k } }
  | .current offset =>
    let maxVal := clampI16 (if r.inner.ptr ≤ r.inner.len then r.inner.len - r.inner.ptr else 0)
    let minVal := - clampI16 r.inner.ptr
    if offset.toInt < minVal ∨ offset.toInt > maxVal then .error .unexpectedEof
    else .ok { r with inner := { r.inner with ptr := r.inner.ptr + offset.toUInt16 } }

/-- `TlsReader::rewind`, `tls/src/io.rs:364-366`. -/
def rewind (r : TlsReader) : TlsReader := { r with inner := { r.inner with ptr := 0 } }

/-- `impl Seek + Read for TlsReader`, `tls/src/io.rs:319-399`.  `remain` subtracts without a check. -/
def ops (dbg : Bool) : Reader TlsReader where
  read n := fun r => match r.inner.read n with
    | .ok (x, i) => (.ok x, { r with inner := i })
    | .error e => (.error e, r)
  readExact n := fun r => match r.inner.readExact n with
    | .ok (x, i) => (.ok x, { r with inner := i })
    | .error (.err _) => (.error .unexpectedEof, r)
    | .error (.stop e) => (.error e, r)
    | .error .noKey => (.error .panic, r)
  seek pos := fun r => match r.seek pos with
    | .ok r' => (.ok (), r')
    | .error e => (.error e, r)
  rewind := fun r => (.ok (), r.rewind)
  streamLen := fun r => (.ok r.inner.len, r)
  streamPosition := fun r => (.ok r.inner.ptr, r)
  remain := fun r =>
    if dbg = true ∧ r.inner.len < r.inner.ptr then (.error .panic, r) else (.ok (r.inner.len - r.inner.ptr), r)

/-- `TlsReader::done`, `tls/src/io.rs:395-398`: the new `head`. -/
def done (r : TlsReader) : Nat := (r.head + r.inner.ptr.toNat) % r.wrap

end TlsReader

end Verif.Tls

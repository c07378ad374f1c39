import Verif.Model.Hl.Io
/-!
# `hl/src/tcp.rs`
-/
namespace Verif.Hl
variable {σ : Type}

/-- `struct TcpReader`, `hl/src/tcp.rs:62-68` (the borrowed device is the state `σ`).
`TcpWriter` (`:162-168`) and `UdpWriter` (`hl/src/udp.rs:166-172`) have the same fields. -/
structure Ptrs where
  sn : Sn
  head : UInt16
  tail : UInt16
  ptr : UInt16
  deriving DecidableEq

/-- `Seek::stream_len`, `hl/src/tcp.rs:80-82`, `180-182`, `hl/src/udp.rs:184-186`. -/
def Ptrs.streamLen (r : Ptrs) : UInt16 := r.tail - r.head
/-- `Seek::stream_position`, `hl/src/tcp.rs:84-86`, `184-186`, `hl/src/udp.rs:188-190`. -/
def Ptrs.streamPosition (r : Ptrs) : UInt16 := r.ptr - r.head
/-- `Seek::remain`, `hl/src/tcp.rs:88-90`, `188-190`, `hl/src/udp.rs:192-194`. -/
def Ptrs.remain (r : Ptrs) : UInt16 := r.tail - r.ptr
/-- `Seek::rewind`, `hl/src/tcp.rs:76-78`, `176-178`, `hl/src/udp.rs:180-182`. -/
def Ptrs.rewind (r : Ptrs) : Ptrs := { r with ptr := r.head }
/-- `Seek::seek`, `hl/src/tcp.rs:71-74`, `171-174`, `hl/src/udp.rs:175-178`. -/
def Ptrs.seek (r : Ptrs) (pos : SeekFrom) : Except Err Ptrs :=
  match pos.newPtr r.ptr r.head r.tail with
  | none => .error .unexpectedEof
  | some p => .ok { r with ptr := p }

/-- `TcpReader::read`, `hl/src/tcp.rs:94-105`; `n` is `buf.len()`.  Returns the count, the bytes
stored at the front of `buf`, and the reader. -/
def tcpReaderRead (b : Bus σ) (r : Ptrs) (n : Nat) : M σ (UInt16 × Bytes × Ptrs) := do
  let readSize := min16 r.remain (lenU16 n)
  if readSize ≠ 0 then do
    let x ← b.snRxBuf r.sn r.ptr readSize.toNat
    pure (readSize, x, { r with ptr := r.ptr + readSize })
  else pure (0, [], r)

/-- `TcpReader::read_exact`, `hl/src/tcp.rs:107-117`. -/
def tcpReaderReadExact (b : Bus σ) (r : Ptrs) (n : Nat) : M σ (Bytes × Ptrs) := do
  let bufLen := lenU16 n
  let readSize := min16 r.remain bufLen
  if readSize ≠ bufLen then M.throw .unexpectedEof
  else do
    let x ← b.snRxBuf r.sn r.ptr n
    pure (x, { r with ptr := r.ptr + readSize })

/-- `TcpReader::done`, `hl/src/tcp.rs:119-123`. -/
def tcpReaderDone (b : Bus σ) (r : Ptrs) : M σ Unit := do
  b.setSnRxRd r.sn r.ptr
  b.setSnCr r.sn .recv

/-- `TcpWriter::write`, `hl/src/tcp.rs:194-205`; `UdpWriter::write`, `hl/src/udp.rs:198-209`. -/
def writerWrite (b : Bus σ) (r : Ptrs) (buf : Bytes) : M σ (UInt16 × Ptrs) := do
  let writeSize := min16 r.remain (lenU16 buf.length)
  if writeSize ≠ 0 then do
    b.setSnTxBuf r.sn r.ptr (buf.take writeSize.toNat)
    pure (writeSize, { r with ptr := r.ptr + writeSize })
  else pure (0, r)

/-- `TcpWriter::write_all`, `hl/src/tcp.rs:207-217`; `UdpWriter::write_all`,
`hl/src/udp.rs:211-221`. -/
def writerWriteAll (b : Bus σ) (r : Ptrs) (buf : Bytes) : M σ Ptrs := do
  let bufLen := lenU16 buf.length
  let writeSize := min16 r.remain bufLen
  if writeSize ≠ bufLen then M.throw .outOfMemory
  else do
    b.setSnTxBuf r.sn r.ptr buf
    pure { r with ptr := r.ptr + writeSize }

/-- `TcpWriter::send`, `hl/src/tcp.rs:219-223`; `UdpWriter::send`, `hl/src/udp.rs:223-227`. -/
def writerSend (b : Bus σ) (r : Ptrs) : M σ Unit := do
  b.setSnTxWr r.sn r.ptr
  b.setSnCr r.sn .send

/-- `Tcp::tcp_connect`, `hl/src/tcp.rs:294-317`; `fuel` bounds each of the two polling loops. -/
def tcpConnect (dbg : Bool) (fuel : Nat) (b : Bus σ) (sn : Sn) (port : UInt16) (addr : SockAddr) :
    M σ Unit := do
  debugAssert dbg (portIsUnique b sn port)
  b.setSnCr sn .close
  waitStatus b sn .closed fuel
  b.setSnMr sn (SocketMode.default.setProtocol .tcp)
  b.setSnPort sn port
  b.setSnCr sn .«open»
  b.setSnDest sn addr
  waitStatus b sn .init fuel
  b.setSnCr sn .connect

/-- `Tcp::tcp_listen`, `hl/src/tcp.rs:381-401`. -/
def tcpListen (dbg : Bool) (fuel : Nat) (b : Bus σ) (sn : Sn) (port : UInt16) : M σ Unit := do
  debugAssert dbg (portIsUnique b sn port)
  b.setSnCr sn .close
  waitStatus b sn .closed fuel
  b.setSnMr sn (SocketMode.default.setProtocol .tcp)
  b.setSnPort sn port
  b.setSnCr sn .«open»
  waitStatus b sn .init fuel
  b.setSnCr sn .listen

/-- `Tcp::tcp_read`, `hl/src/tcp.rs:447-464`. -/
def tcpRead (dbg : Bool) (b : Bus σ) (sn : Sn) (n : Nat) : M σ (UInt16 × Bytes) := do
  debugAssert dbg (notUdpInitMacraw b sn)
  let rsr ← b.snRxRsr sn
  let rxBytes := min16 rsr (lenU16 n)
  if rxBytes ≠ 0 then do
    let ptr ← b.snRxRd sn
    let x ← b.snRxBuf sn ptr rxBytes.toNat
    b.setSnRxRd sn (ptr + rxBytes)
    b.setSnCr sn .recv
    pure (rxBytes, x)
  else pure (rxBytes, [])

/-- `Tcp::tcp_write`, `hl/src/tcp.rs:501-519`. -/
def tcpWrite (dbg : Bool) (b : Bus σ) (sn : Sn) (buf : Bytes) : M σ UInt16 := do
  debugAssert dbg (notUdpInitMacraw b sn)
  let freeSize ← b.snTxFsr sn
  let txBytes := min16 (lenU16 buf.length) freeSize
  if txBytes ≠ 0 then do
    let ptr ← b.snTxWr sn
    b.setSnTxBuf sn ptr (buf.take txBytes.toNat)
    b.setSnTxWr sn (ptr + txBytes)
    b.setSnCr sn .send
    pure txBytes
  else pure txBytes

/-- `Tcp::tcp_disconnect`, `hl/src/tcp.rs:559-565`. -/
def tcpDisconnect (dbg : Bool) (b : Bus σ) (sn : Sn) : M σ Unit := do
  debugAssert dbg (notUdpInitMacraw b sn)
  b.setSnCr sn .disconnect

/-- `Tcp::tcp_reader`, `hl/src/tcp.rs:584-607`. -/
def tcpReader (dbg : Bool) (b : Bus σ) (sn : Sn) : M σ Ptrs := do
  debugAssert dbg (notUdpInitMacraw b sn)
  let rsr ← b.snRxRsr sn
  if rsr = 0 then M.throw .wouldBlock
  else do
    let rd ← b.snRxRd sn
    pure { sn := sn, head := rd, tail := rd + rsr, ptr := rd }

/-- `Tcp::tcp_writer`, `hl/src/tcp.rs:617-630`; `Udp::udp_writer`, `hl/src/udp.rs:810-823`. -/
def socketWriter (b : Bus σ) (sn : Sn) : M σ Ptrs := do
  let tx ← b.snTxPtrs sn
  pure { sn := sn, head := tx.wr, tail := tx.wr + tx.fsr, ptr := tx.wr }

/-- `impl Seek + Read for TcpReader`, `hl/src/tcp.rs:70-124`, as operations on the device together
with the reader. -/
def tcpReaderOps (b : Bus σ) : Reader (σ × Ptrs) where
  read n := fun (s, r) => match tcpReaderRead b r n s with
    | (.ok (_, x, r'), s') => (.ok x, (s', r'))
    | (.error e, s') => (.error e, (s', r))
  readExact n := fun (s, r) => match tcpReaderReadExact b r n s with
    | (.ok (x, r'), s') => (.ok x, (s', r'))
    | (.error e, s') => (.error e, (s', r))
  seek pos := fun (s, r) => match r.seek pos with
    | .ok r' => (.ok (), (s, r'))
    | .error e => (.error e, (s, r))
  rewind := fun (s, r) => (.ok (), (s, r.rewind))
  streamLen := fun (s, r) => (.ok r.streamLen, (s, r))
  streamPosition := fun (s, r) => (.ok r.streamPosition, (s, r))
  remain := fun (s, r) => (.ok r.remain, (s, r))

/-- `impl Seek + Write for TcpWriter`, `hl/src/tcp.rs:170-224`, and for `UdpWriter`,
`hl/src/udp.rs:174-228`. -/
def writerOps (b : Bus σ) : Writer (σ × Ptrs) where
  write buf := fun (s, r) => match writerWrite b r buf s with
    | (.ok (n, r'), s') => (.ok n, (s', r'))
    | (.error e, s') => (.error e, (s', r))
  writeAll buf := fun (s, r) => match writerWriteAll b r buf s with
    | (.ok r', s') => (.ok (), (s', r'))
    | (.error e, s') => (.error e, (s', r))
  seek pos := fun (s, r) => match r.seek pos with
    | .ok r' => (.ok (), (s, r'))
    | .error e => (.error e, (s, r))
  rewind := fun (s, r) => (.ok (), (s, r.rewind))
  streamLen := fun (s, r) => (.ok r.streamLen, (s, r))
  streamPosition := fun (s, r) => (.ok r.streamPosition, (s, r))
  remain := fun (s, r) => (.ok r.remain, (s, r))
  send := fun (s, r) => ((writerSend b r s).1, ((writerSend b r s).2, r))

end Verif.Hl

import Verif.Model.Hl.Tcp
/-!
# `hl/src/udp.rs`
-/
namespace Verif.Hl
variable {σ : Type}

/-- `struct UdpHeader`, `hl/src/udp.rs:15-23`. -/
structure UdpHeader where
  origin : SockAddr
  len : UInt16
  deriving DecidableEq, Repr

/-- `UdpHeader::LEN`, `hl/src/udp.rs:31`. -/
def UdpHeader.LEN : UInt16 := 8

/-- `UdpHeader::deser`, `hl/src/udp.rs:35-43`, applied to the 8 bytes read. -/
def UdpHeader.deser (buf : Bytes) : UdpHeader :=
  match buf with
  | [b0, b1, b2, b3, b4, b5, b6, b7] =>
    { origin := ⟨⟨b0, b1, b2, b3⟩, be16 b4 b5⟩, len := be16 b6 b7 }
  | _ => { origin := default, len := 0 } -- unreachable: the argument is `[u8; 8]`

/-- `struct UdpReader`, `hl/src/udp.rs:82-85`. -/
structure UdpReader where
  inner : Ptrs
  header : UdpHeader
  deriving DecidableEq

/-- `impl Seek + Read for UdpReader`, `hl/src/udp.rs:87-117`: everything is delegated to `inner`. -/
def udpReaderOps (b : Bus σ) : Reader (σ × UdpReader) :=
  let on {α : Type} (m : M (σ × Ptrs) α) : M (σ × UdpReader) α := fun (s, u) =>
    let r := m (s, u.inner)
    (r.1, (r.2.1, { u with inner := r.2.2 }))
  { read := fun n => on ((tcpReaderOps b).read n)
    readExact := fun n => on ((tcpReaderOps b).readExact n)
    seek := fun pos => on ((tcpReaderOps b).seek pos)
    rewind := on (tcpReaderOps b).rewind
    streamLen := on (tcpReaderOps b).streamLen
    streamPosition := on (tcpReaderOps b).streamPosition
    remain := on (tcpReaderOps b).remain }

/-- `UdpReader::done`, `hl/src/udp.rs:118-126`. -/
def udpReaderDone (b : Bus σ) (r : UdpReader) : M σ Unit := do
  b.setSnRxRd r.inner.sn r.inner.tail
  b.setSnCr r.inner.sn .recv

/-- `UdpWriter::udp_send_to`, `hl/src/udp.rs:237-241`. -/
def udpWriterSendTo (dbg : Bool) (b : Bus σ) (r : Ptrs) (addr : SockAddr) : M σ Unit := do
  debugAssert dbg (srIsUdp b r.sn)
  b.setSnDest r.sn addr
  writerSend b r

/-- `Udp::udp_bind`, `hl/src/udp.rs:327-347`. -/
def udpBind (dbg : Bool) (fuel : Nat) (b : Bus σ) (sn : Sn) (port : UInt16) : M σ Unit := do
  debugAssert dbg (portIsUnique b sn port)
  b.setSnCr sn .close
  waitStatus b sn .closed fuel
  b.setSnPort sn port
  b.setSnMr sn (SocketMode.default.setProtocol .udp)
  b.setSnCr sn .«open»
  waitStatus b sn .udp fuel

/-- `Udp::udp_recv_from`, `hl/src/udp.rs:398-430`; `n` is `buf.len()`. -/
def udpRecvFrom (dbg : Bool) (b : Bus σ) (sn : Sn) (n : Nat) : M σ (UInt16 × SockAddr × Bytes) := do
  let rsr ← b.snRxRsr sn
  if rsr < UdpHeader.LEN then M.throw .wouldBlock
  else do
    let rsr := rsr - UdpHeader.LEN
    debugAssert dbg (srIsUdp b sn)
    let ptr ← b.snRxRd sn
    let h ← b.snRxBuf sn ptr 8
    let ptr := ptr + UdpHeader.LEN
    let header := UdpHeader.deser h
    if rsr < header.len then M.throw .wouldBlock
    else do
      let readSize := min16 header.len (lenU16 n)
      let x ← if readSize ≠ 0 then b.snRxBuf sn ptr readSize.toNat else pure []
      let ptr := ptr + header.len
      b.setSnRxRd sn ptr
      b.setSnCr sn .recv
      pure (readSize, header.origin, x)

/-- `Udp::udp_peek_from`, `hl/src/udp.rs:480-510`. -/
def udpPeekFrom (dbg : Bool) (b : Bus σ) (sn : Sn) (n : Nat) : M σ (UInt16 × UdpHeader × Bytes) := do
  let rsr ← b.snRxRsr sn
  if rsr < UdpHeader.LEN then M.throw .wouldBlock
  else do
    let rsr := rsr - UdpHeader.LEN
    debugAssert dbg (srIsUdp b sn)
    let ptr ← b.snRxRd sn
    let h ← b.snRxBuf sn ptr 8
    let ptr := ptr + UdpHeader.LEN
    let header := UdpHeader.deser h
    if rsr < header.len then M.throw .wouldBlock
    else do
      let readSize := min16 header.len (lenU16 n)
      let x ← if readSize ≠ 0 then b.snRxBuf sn ptr readSize.toNat else pure []
      pure (readSize, header, x)

/-- `Udp::udp_peek_from_header`, `hl/src/udp.rs:551-565`. -/
def udpPeekFromHeader (dbg : Bool) (b : Bus σ) (sn : Sn) : M σ UdpHeader := do
  let rsr ← b.snRxRsr sn
  if rsr < UdpHeader.LEN then M.throw .wouldBlock
  else do
    debugAssert dbg (srIsUdp b sn)
    let ptr ← b.snRxRd sn
    let h ← b.snRxBuf sn ptr 8
    pure (UdpHeader.deser h)

/-- `Udp::udp_send`, `hl/src/udp.rs:682-695`. -/
def udpSend (dbg : Bool) (b : Bus σ) (sn : Sn) (buf : Bytes) : M σ UInt16 := do
  debugAssert dbg (srIsUdp b sn)
  let dataLen := lenU16 buf.length
  let freeSize ← b.snTxFsr sn
  let txBytes := min16 dataLen freeSize
  if txBytes ≠ 0 then do
    let ptr ← b.snTxWr sn
    b.setSnTxBuf sn ptr (buf.take txBytes.toNat)
    b.setSnTxWr sn (ptr + txBytes)
    b.setSnCr sn .send
    pure txBytes
  else pure txBytes

/-- `Udp::udp_send_to`, `hl/src/udp.rs:599-602`. -/
def udpSendTo (dbg : Bool) (b : Bus σ) (sn : Sn) (buf : Bytes) (addr : SockAddr) : M σ UInt16 := do
  b.setSnDest sn addr
  udpSend dbg b sn buf

/-- `Udp::udp_send_if_free`, `hl/src/udp.rs:733-748`. -/
def udpSendIfFree (dbg : Bool) (b : Bus σ) (sn : Sn) (buf : Bytes) : M σ UInt16 := do
  debugAssert dbg (srIsUdp b sn)
  if buf.length ≤ 65535 then do
    let dataLen := UInt16.ofNat buf.length
    let freeSize ← b.snTxFsr sn
    if dataLen ≤ freeSize then do
      let ptr ← b.snTxWr sn
      b.setSnTxBuf sn ptr buf
      b.setSnTxWr sn (ptr + dataLen)
      b.setSnCr sn .send
      pure dataLen
    else pure dataLen
  else pure 0

/-- `Udp::udp_send_to_if_free`, `hl/src/udp.rs:639-647`. -/
def udpSendToIfFree (dbg : Bool) (b : Bus σ) (sn : Sn) (buf : Bytes) (addr : SockAddr) : M σ UInt16 := do
  b.setSnDest sn addr
  udpSendIfFree dbg b sn buf

/-- `Udp::udp_reader`, `hl/src/udp.rs:767-800`. -/
def udpReader (dbg : Bool) (b : Bus σ) (sn : Sn) : M σ UdpReader := do
  debugAssert dbg (srIsUdp b sn)
  let rsr ← b.snRxRsr sn
  if rsr < UdpHeader.LEN then M.throw .wouldBlock
  else do
    let rsr := rsr - UdpHeader.LEN
    let rd ← b.snRxRd sn
    let h ← b.snRxBuf sn rd 8
    let header := UdpHeader.deser h
    let limit := min16 header.len rsr
    let head := rd + UdpHeader.LEN
    pure { inner := { sn := sn, head := head, tail := head + limit, ptr := head }, header := header }

end Verif.Hl

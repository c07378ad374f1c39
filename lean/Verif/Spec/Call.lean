import Verif.Model.Hl.Udp
/-!
# The calls a user can make on one socket

`Call` enumerates the public functions of the `hl` crate that take a socket number, and the
methods of its readers and writers, so that a statement can range over all of them and over
histories of them.
-/
namespace Verif.Spec
open Verif.Hl

inductive Call where
  | localAddr | close | isStateClosed | isStateTcp | isStateUdp
  | tcpConnect (port : UInt16) (addr : SockAddr)
  | tcpListen (port : UInt16)
  | tcpRead (n : Nat)
  | tcpWrite (buf : Bytes)
  | tcpDisconnect
  | tcpReader
  | tcpWriter
  /-- methods of a `TcpReader` (or of the reader inside a `UdpReader`) with the given pointers -/
  | readerRead (head tail ptr : UInt16) (n : Nat)
  | readerReadExact (head tail ptr : UInt16) (n : Nat)
  | tcpReaderDone (head tail ptr : UInt16)
  | udpReaderDone (head tail ptr : UInt16) (header : UdpHeader)
  /-- methods of a `TcpWriter` or `UdpWriter` with the given pointers -/
  | writerWrite (head tail ptr : UInt16) (buf : Bytes)
  | writerWriteAll (head tail ptr : UInt16) (buf : Bytes)
  | writerSend (head tail ptr : UInt16)
  | udpWriterSendTo (head tail ptr : UInt16) (addr : SockAddr)
  | udpBind (port : UInt16)
  | udpRecvFrom (n : Nat)
  | udpPeekFrom (n : Nat)
  | udpPeekFromHeader
  | udpSend (buf : Bytes)
  | udpSendTo (buf : Bytes) (addr : SockAddr)
  | udpSendIfFree (buf : Bytes)
  | udpSendToIfFree (buf : Bytes) (addr : SockAddr)
  | udpReader

/-- What a call returns. -/
inductive Value where
  | unit
  | bool (b : Bool)
  | addr (a : SockAddr)
  | count (n : UInt16)
  | data (n : UInt16) (x : Bytes)
  | datagram (n : UInt16) (src : SockAddr) (x : Bytes)
  | header (h : UdpHeader)
  | peeked (n : UInt16) (h : UdpHeader) (x : Bytes)
  | ptrs (r : Ptrs)
  | readPtrs (x : Bytes) (r : Ptrs)
  | udpReader (r : UdpReader)
  deriving DecidableEq

/-- Make the call. -/
def Call.exec {σ : Type} (dbg : Bool) (fuel : Nat) (b : Bus σ) (sn : Sn) : Call → M σ Value
  | .localAddr => do let a ← Hl.localAddr b sn; pure (.addr a)
  | .close => do Hl.close b sn; pure .unit
  | .isStateClosed => do let x ← Hl.isStateClosed b sn; pure (.bool x)
  | .isStateTcp => do let x ← Hl.isStateTcp b sn; pure (.bool x)
  | .isStateUdp => do let x ← Hl.isStateUdp b sn; pure (.bool x)
  | .tcpConnect port addr => do Hl.tcpConnect dbg fuel b sn port addr; pure .unit
  | .tcpListen port => do Hl.tcpListen dbg fuel b sn port; pure .unit
  | .tcpRead n => do let (k, x) ← Hl.tcpRead dbg b sn n; pure (.data k x)
  | .tcpWrite buf => do let n ← Hl.tcpWrite dbg b sn buf; pure (.count n)
  | .tcpDisconnect => do Hl.tcpDisconnect dbg b sn; pure .unit
  | .tcpReader => do let r ← Hl.tcpReader dbg b sn; pure (.ptrs r)
  | .tcpWriter => do let r ← Hl.socketWriter b sn; pure (.ptrs r)
  | .readerRead h t p n => do let (_, x, r) ← Hl.tcpReaderRead b ⟨sn, h, t, p⟩ n; pure (.readPtrs x r)
  | .readerReadExact h t p n => do let (x, r) ← Hl.tcpReaderReadExact b ⟨sn, h, t, p⟩ n; pure (.readPtrs x r)
  | .tcpReaderDone h t p => do Hl.tcpReaderDone b ⟨sn, h, t, p⟩; pure .unit
  | .udpReaderDone h t p hd => do Hl.udpReaderDone b ⟨⟨sn, h, t, p⟩, hd⟩; pure .unit
  | .writerWrite h t p buf => do let (_, r) ← Hl.writerWrite b ⟨sn, h, t, p⟩ buf; pure (.ptrs r)
  | .writerWriteAll h t p buf => do let r ← Hl.writerWriteAll b ⟨sn, h, t, p⟩ buf; pure (.ptrs r)
  | .writerSend h t p => do Hl.writerSend b ⟨sn, h, t, p⟩; pure .unit
  | .udpWriterSendTo h t p addr => do Hl.udpWriterSendTo dbg b ⟨sn, h, t, p⟩ addr; pure .unit
  | .udpBind port => do Hl.udpBind dbg fuel b sn port; pure .unit
  | .udpRecvFrom n => do let (k, a, x) ← Hl.udpRecvFrom dbg b sn n; pure (.datagram k a x)
  | .udpPeekFrom n => do let (k, h, x) ← Hl.udpPeekFrom dbg b sn n; pure (.peeked k h x)
  | .udpPeekFromHeader => do let h ← Hl.udpPeekFromHeader dbg b sn; pure (.header h)
  | .udpSend buf => do let n ← Hl.udpSend dbg b sn buf; pure (.count n)
  | .udpSendTo buf addr => do let n ← Hl.udpSendTo dbg b sn buf addr; pure (.count n)
  | .udpSendIfFree buf => do let n ← Hl.udpSendIfFree dbg b sn buf; pure (.count n)
  | .udpSendToIfFree buf addr => do let n ← Hl.udpSendToIfFree dbg b sn buf addr; pure (.count n)
  | .udpReader => do let r ← Hl.udpReader dbg b sn; pure (.udpReader r)

/-- A bus that records the block of every write. -/
def recordWrites {σ : Type} (b : Bus σ) : Bus (σ × List UInt8) where
  read addr block n := fun (s, log) => ((b.read addr block n s).1, ((b.read addr block n s).2, log))
  write addr block bs := fun (s, log) =>
    ((b.write addr block bs s).1, ((b.write addr block bs s).2, log ++ [block]))

/-- What a failure monitor remembers: the first failure, and the number of accesses after it. -/
structure Monitor where
  failed : Option Err
  after : Nat
  deriving DecidableEq

def Monitor.note {α : Type} (m : Monitor) (r : Except Err α) : Monitor :=
  match m.failed, r with
  | some e, _ => { failed := some e, after := m.after + 1 }
  | none, .ok _ => m
  | none, .error e => { m with failed := some e }

/-- A bus that watches for failures. -/
def monitorBus {σ : Type} (b : Bus σ) : Bus (σ × Monitor) where
  read addr block n := fun (s, m) => ((b.read addr block n s).1, ((b.read addr block n s).2, m.note (b.read addr block n s).1))
  write addr block bs := fun (s, m) =>
    ((b.write addr block bs s).1, ((b.write addr block bs s).2, m.note (b.write addr block bs s).1))

end Verif.Spec

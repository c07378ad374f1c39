import Verif.Spec.Call
import Verif.Spec.Stream
/-!
# Histories of calls on a TCP socket
-/
namespace Verif.Spec
open Verif.Hl

/-- One step of a history seen from socket `sn`: a read, a write, or any call on another socket. -/
inductive TcpStep where
  | read (n : Nat)
  | write (buf : Bytes)
  | other (sn' : Sn) (c : Call)

/-- What a history produced: the bytes of the successful reads, and the accepted prefixes of the
writes (the first `n` bytes of the argument where `n` is the count returned). -/
structure TcpLog where
  reads : List Bytes
  writes : List Bytes

/-- Run a history on a chip whose environment acts as scheduled.  Calls that fail are not retried
and the history goes on. -/
def runTcp (dbg : Bool) (fuel : Nat) (sn : Sn) : List TcpStep → World → TcpLog × World
  | [], w => (⟨[], []⟩, w)
  | .read n :: rest, w =>
    let r := tcpRead dbg worldBus sn n w
    let (l, w') := runTcp dbg fuel sn rest r.2
    (match r.1 with
      | .ok (k, x) => { l with reads := x.take k.toNat :: l.reads }
      | .error _ => l, w')
  | .write buf :: rest, w =>
    let r := tcpWrite dbg worldBus sn buf w
    let (l, w') := runTcp dbg fuel sn rest r.2
    (match r.1 with
      | .ok n => { l with writes := buf.take n.toNat :: l.writes }
      | .error _ => l, w')
  | .other sn' c :: rest, w => runTcp dbg fuel sn rest (c.exec dbg fuel worldBus sn' w).2

/-- The stream handed to the network for socket `k`. -/
def Chip.sentStream (c : Chip) (k : Nat) : Bytes :=
  ((c.sent.filter (·.sock = k)).map (·.payload)).flatten

end Verif.Spec

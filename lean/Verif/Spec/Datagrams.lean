import Verif.Spec.History
/-!
# Queues of datagrams, and histories of calls on a UDP socket
-/
namespace Verif.Spec
open Verif.Hl

structure Datagram where
  src : SockAddr
  payload : Bytes
  deriving DecidableEq

/-- How the chip queues datagrams: their frames one after the other. -/
def frames (gs : List Datagram) : Bytes := (gs.map fun g => udpFrame g.src g.payload).flatten

/-- The length of a payload fits the 16-bit length field. -/
def Fit (gs : List Datagram) : Prop := ∀ g ∈ gs, g.payload.length < 65536

/-- Everything received so far on socket `k`, and everything that will arrive, is whole datagrams. -/
structure WholeDatagrams (k : Nat) (w : World) : Prop where
  past : ∃ gs, Fit gs ∧ w.chip.received k = frames gs
  future : ∀ es ∈ w.sched, ∀ bs, EnvStep.arrive k bs ∈ es → ∃ gs, Fit gs ∧ bs = frames gs

/-- The bytes received on socket `k` after the first `p` are whole datagrams satisfying `P`, and so is everything that
will arrive. -/
structure Pending (P : Datagram → Prop) (k p : Nat) (w : World) : Prop where
  le : p ≤ (w.chip.received k).length
  now : ∃ gs, Fit gs ∧ (w.chip.received k).drop p = frames gs ∧ ∀ g ∈ gs, P g
  future : ∀ es ∈ w.sched, ∀ bs, EnvStep.arrive k bs ∈ es → ∃ gs, Fit gs ∧ bs = frames gs ∧ ∀ g ∈ gs, P g

/-- One step of a history seen from UDP socket `sn`. -/
inductive UdpStep where
  | recvFrom (n : Nat)
  | peekFrom (n : Nat)
  | peekFromHeader
  | sendTo (buf : Bytes) (addr : SockAddr)
  | other (sn' : Sn) (c : Call)

/-- A datagram returned to the caller, with the size of the caller's buffer. -/
structure Recvd where
  bufLen : Nat
  count : UInt16
  src : SockAddr
  data : Bytes
  deriving DecidableEq

/-- Run a history; the result lists what the successful `udp_recv_from` calls returned. -/
def runUdp (dbg : Bool) (fuel : Nat) (sn : Sn) : List UdpStep → World → List Recvd × World
  | [], w => ([], w)
  | .recvFrom n :: rest, w =>
    let r := udpRecvFrom dbg worldBus sn n w
    let (l, w') := runUdp dbg fuel sn rest r.2
    (match r.1 with
      | .ok (c, a, x) => ⟨n, c, a, x⟩ :: l
      | .error _ => l, w')
  | .peekFrom n :: rest, w => runUdp dbg fuel sn rest (udpPeekFrom dbg worldBus sn n w).2
  | .peekFromHeader :: rest, w => runUdp dbg fuel sn rest (udpPeekFromHeader dbg worldBus sn w).2
  | .sendTo buf addr :: rest, w => runUdp dbg fuel sn rest (udpSendTo dbg worldBus sn buf addr w).2
  | .other sn' c :: rest, w => runUdp dbg fuel sn rest (c.exec dbg fuel worldBus sn' w).2

/-- What a caller with a buffer of `n` bytes should get for a datagram. -/
def Datagram.given (g : Datagram) (n : Nat) : Recvd :=
  ⟨n, UInt16.ofNat (min g.payload.length n), g.src, g.payload.take n⟩

end Verif.Spec

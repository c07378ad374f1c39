import Verif.Model.Dhcp
import Verif.Spec.Call
import Verif.Spec.World
import Verif.Spec.Dhcp
/-!
# Histories of a DHCP client on a device
-/
namespace Verif.Spec
open Verif.Hl Verif.Dhcp

/-- The source IP address register of the chip (common block, offset 0x000F). -/
def Chip.ownIp (c : Chip) : Bytes := (List.range 4).map fun i => c.mem 0 (0x0F + i)

/-- What the user does: calls `process` with some clock value, changes the timeout, or makes any call of the `hl` crate
on any socket. -/
inductive DhcpStep where
  | process (secs : UInt32)
  | setTimeout (secs : UInt32)
  | other (sn : Sn) (c : Call)

/-- Make the calls one after another; a call that fails does not end the history.  `fuel` and `n` bound the polls and
the packets of one call. -/
def runDhcp (dbg : Bool) (fuel n : Nat) : List DhcpStep → World × Client → World × Client
  | [], s => s
  | .process secs :: rest, s => runDhcp dbg fuel n rest (process dbg fuel n worldBus secs s).2
  | .setTimeout secs :: rest, s => runDhcp dbg fuel n rest (s.1, s.2.setTimeoutSecs secs)
  | .other sn c :: rest, s => runDhcp dbg fuel n rest ((c.exec dbg fuel worldBus sn s.1).2, s.2)

/-! ## Timers -/

inductive DhcpTimer where
  /-- start again with a DISCOVER -/
  | restart
  /-- ask the server for the lease to be renewed (RFC 2131 section 4.4.5, T1) -/
  | renew
  /-- ask any server (T2) -/
  | rebind
  deriving DecidableEq, Repr

/-- The timer that is due at time `secs`.  While an answer is awaited (`stateTimeout`), it is the timeout; with a lease,
the most severe of those that have elapsed and were not acted on; a client that has done nothing yet starts at once. -/
def dueTimer (c : Client) (secs : UInt32) : Option DhcpTimer :=
  match c.stateTimeout with
  | some since => if c.timeout < secs - since then some .restart else none
  | none =>
    let elapsed := secs - c.leaseSecs
    match c.state with
    | .init => some .restart
    | .selecting => none
    | .requesting => none
    | .bound =>
      if c.lease < elapsed then some .restart else if c.t2 < elapsed then some .rebind
      else if c.t1 < elapsed then some .renew else none
    | .renewing => if c.lease < elapsed then some .restart else if c.t2 < elapsed then some .rebind else none
    | .rebinding => if c.lease < elapsed then some .restart else none

/-- The payload is long enough to have a transaction id and it is `xid`. -/
def HasXid (payload : Bytes) (xid : UInt32) : Prop := 8 ≤ payload.length ∧ Dhcp.num (Dhcp.field payload 4 4) = xid.toNat

instance (payload : Bytes) (xid : UInt32) : Decidable (HasXid payload xid) := by unfold HasXid; infer_instance

/-! ## Replies -/

/-- The gateway address register (common block, offset 1) and the subnet mask register (offset 5). -/
def Chip.gateway (c : Chip) : Bytes := (List.range 4).map fun i => c.mem 0 (0x01 + i)
def Chip.subnet (c : Chip) : Bytes := (List.range 4).map fun i => c.mem 0 (0x05 + i)

/-- The packet is a DHCPACK (RFC 2131, RFC 2132) with a lease time and what else the client looks at. -/
structure Ack where
  /-- option 1 -/
  mask : Option Bytes
  /-- option 54 -/
  server : Option Bytes
  /-- option 6 -/
  dns : Option Bytes
  /-- option 42 -/
  ntp : Option Bytes
  /-- option 51 -/
  lease : Bytes
  /-- option 58 -/
  t1 : Option Bytes
  /-- option 59 -/
  t2 : Option Bytes

structure IsAck (d : Bytes) (a : Ack) : Prop where
  type : Dhcp.contents d 53 (· == 1) 1 = .ok (some [5])
  mask : Dhcp.contents d 1 (· == 4) 4 = .ok a.mask
  server : Dhcp.contents d 54 (fun n => n % 4 == 0 && 4 ≤ n) 4 = .ok a.server
  dns : Dhcp.contents d 6 (fun n => n % 4 == 0 && 4 ≤ n) 4 = .ok a.dns
  ntp : Dhcp.contents d 42 (fun n => n % 4 == 0 && 4 ≤ n) 4 = .ok a.ntp
  lease : Dhcp.contents d 51 (· == 4) 4 = .ok (some a.lease)
  t1 : Dhcp.contents d 58 (· == 4) 4 = .ok a.t1
  t2 : Dhcp.contents d 59 (· == 4) 4 = .ok a.t2

/-- The client uses seven eighths of a time the server gives, so that it is early rather than late. -/
def derate (n : Nat) : Nat := n - n / 8

/-- The times of a lease in seconds: the server's, or, RFC 2131 section 4.4.5, one half and seven eighths of the lease. -/
def Ack.leaseSecs (a : Ack) : Nat := Dhcp.num a.lease
def Ack.t1Secs (a : Ack) : Nat := (a.t1.map Dhcp.num).getD (a.leaseSecs / 2)
def Ack.t2Secs (a : Ack) : Nat := (a.t2.map Dhcp.num).getD (min (a.leaseSecs * 7) (2 ^ 32 - 1) / 8)

end Verif.Spec

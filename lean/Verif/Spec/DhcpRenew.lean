import Verif.Spec.DhcpExchange
/-!
# Keeping a lease
-/
namespace Verif.Spec
open Verif.Hl Verif.Dhcp

/-- What has arrived for the client by the time of a call: nothing, or one acknowledgement of its last REQUEST, with the data `a`.  Nothing
more arrives during the call. -/
inductive Served (k : Nat) (w : World) (xid : UInt32) : Option Ack → Prop
  | nothing (h1 : w.chip.unread k = []) (h2 : ∀ es ∈ w.sched, ∀ bs, EnvStep.arrive k bs ∉ es) : Served k w xid none
  | ack (g : Datagram) (a : Ack) (h1 : OnlyArrived k w g) (h2 : g.payload.head? = some 2) (h3 : g.payload.length ≤ 65280)
      (h4 : HasXid g.payload xid) (h5 : IsAck g.payload a) (h6 : a.mask.isSome) (h7 : a.server.isSome) : Served k w xid (some a)

/-- At each call the server has answered or not, but never so late that the lease is over when the client is called and no answer is there
that extends it; and there is room for a REQUEST in the transmit buffer. -/
def ServedInTime (fuel n : Nat) : List (List EnvStep × UInt32 × List (List EnvStep)) → World × Client → Prop
  | [], _ => True
  | (es, t, sched) :: rest, s =>
    (∃ a, Served s.2.sn.toU8.toNat (s.1.pause es sched) s.2.xid a ∧ (a = none ∨ s.2.state = .bound → t - s.2.leaseSecs ≤ s.2.lease)) ∧
    275 + s.2.hostname.length ≤ (s.1.pause es sched).chip.txFsr s.2.sn.toU8.toNat ∧
    ServedInTime fuel n rest (process false fuel n worldBus t (s.1.pause es sched, s.2)).2

/-- What the calls return. -/
def laterResults (fuel n : Nat) : List (List EnvStep × UInt32 × List (List EnvStep)) → World × Client → List (Except Err UInt32)
  | [], _ => []
  | (es, t, sched) :: rest, s =>
    (process false fuel n worldBus t (s.1.pause es sched, s.2)).1 :: laterResults fuel n rest (process false fuel n worldBus t (s.1.pause es sched, s.2)).2

/-- The contents of option `k`, if the message has it. -/
def Dhcp.Message.option (m : Dhcp.Message) (k : Nat) : Option Bytes := (m.options.find? fun o => o.1 == k).map (·.2)

/-- A DHCPREQUEST as RFC 2131 section 4.3.2 has it from a client that answers an OFFER: the address of the client (`ciaddr`) is zero, the requested address
(option 50) and the server (option 54) are given. -/
structure SelectingRequest (m : Dhcp.Message) (ip server : Bytes) : Prop where
  op : m.op = 1
  type : m.option 53 = some [3]
  ciaddr : m.ciaddr = [0, 0, 0, 0]
  requested : m.option 50 = some ip
  server : m.option 54 = some server

/-- A DHCPREQUEST as RFC 2131 section 4.3.2 has it from a client that renews its lease of `ip`: the address of the client is `ip`, and there is
neither a requested address nor a server. -/
structure RenewingRequest (m : Dhcp.Message) (ip : Bytes) : Prop where
  op : m.op = 1
  type : m.option 53 = some [3]
  ciaddr : m.ciaddr = ip
  requested : m.option 50 = none
  server : m.option 54 = none

end Verif.Spec

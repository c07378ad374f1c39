import Verif.Spec.DhcpHistory
import Verif.Spec.Datagrams
/-!
# An exchange with a DHCP server
-/
namespace Verif.Spec
open Verif.Hl Verif.Dhcp

/-- Between two calls the environment does `es`; `s` is what it does from access to access during the next call. -/
def World.pause (w : World) (es : List EnvStep) (s : List (List EnvStep)) : World := ({ w with sched := es :: s } : World).tick

/-- By the time of the call the only unread datagram of socket `k` is `g`, and none arrives during the call. -/
structure OnlyArrived (k : Nat) (w : World) (g : Datagram) : Prop where
  unread : w.chip.unread k = udpFrame g.src g.payload
  silent : ∀ es ∈ w.sched, ∀ bs, EnvStep.arrive k bs ∉ es

/-- An OFFER (option 53 is 2) of the address `ip`, from the server that names itself `server` in option 54. -/
structure IsOffer (d ip : Bytes) (server : Option Bytes) : Prop where
  reply : d.head? = some 2
  type : Dhcp.contents d 53 (· == 1) 1 = .ok (some [2])
  yiaddr : Dhcp.field d 16 4 = ip
  long : 20 ≤ d.length
  short : d.length ≤ 65280
  server : Dhcp.contents d 54 (fun n => n % 4 == 0 && 4 ≤ n) 4 = .ok server

/-- Calls of `process`: before each the environment does the first list, then `process` is called at the given time while the
environment goes on with the second. -/
def laterCalls (dbg : Bool) (fuel n : Nat) : List (List EnvStep × UInt32 × List (List EnvStep)) → World × Client → World × Client
  | [], s => s
  | (es, t, sched) :: rest, s => laterCalls dbg fuel n rest (process dbg fuel n worldBus t (s.1.pause es sched, s.2)).2

end Verif.Spec

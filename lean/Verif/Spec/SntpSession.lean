import Verif.Model.Sntp
import Verif.Spec.Sntp
import Verif.Spec.DhcpExchange
/-!
# A session with an SNTP server
-/
namespace Verif.Spec
open Verif.Hl

/-- Whatever arrives at socket `k` in these steps of the environment is whole datagrams. -/
def WholeSteps (k : Nat) (sched : List (List EnvStep)) : Prop :=
  ∀ es ∈ sched, ∀ bs, EnvStep.arrive k bs ∈ es → ∃ gs, Fit gs ∧ bs = frames gs

namespace SntpSession
open Verif.Sntp

/-- What an application does: send a request, or ask for a reply; the environment does `before`, and then the client is called while
the environment goes on with `during`. -/
inductive Act where
  | request (before : List EnvStep) (during : List (List EnvStep))
  | recv (before : List EnvStep) (during : List (List EnvStep))

/-- What the environment does. -/
def Act.steps : Act → List (List EnvStep)
  | .request before during => before :: during
  | .recv before during => before :: during

/-- What the application sees of it. -/
inductive Done where
  | requested (r : Except Err Unit)
  | got (r : Except Err Reply)

/-- Do it: what the application sees, and the device afterwards.  (Release build.) -/
def Act.run (c : Client) : Act → World → Done × World
  | .request before during, w =>
    (.requested (Verif.Sntp.request worldBus c (w.pause before during)).1, (Verif.Sntp.request worldBus c (w.pause before during)).2)
  | .recv before during, w =>
    (.got (onRecvInterrupt false worldBus c (w.pause before during)).1, (onRecvInterrupt false worldBus c (w.pause before during)).2)

/-- One thing after the other. -/
def acts (c : Client) : List Act → World → List Done × World
  | [], w => ([], w)
  | a :: as, w => ((a.run c w).1 :: (acts c as (a.run c w).2).1, (acts c as (a.run c w).2).2)

/-- The replies the application got. -/
def replies : List Done → List Reply
  | .got (.ok r) :: ds => r :: replies ds
  | _ :: ds => replies ds
  | [] => []

/-- How many requests were accepted. -/
def accepted : List Done → Nat
  | .requested (.ok _) :: ds => accepted ds + 1
  | _ :: ds => accepted ds
  | [] => 0

/-- How many times the application asks for a reply. -/
def asked : List Act → Nat
  | .recv _ _ :: as => asked as + 1
  | .request _ _ :: as => asked as
  | [] => 0

/-- A datagram from the server that is too short for a message. -/
def short (server : SockAddr) (g : Datagram) : Bool := g.src == server && g.payload.length < 48

/-- The message in a datagram, if it is one from the server that a client may use. -/
def usable (server : SockAddr) (g : Datagram) : Option Sntp.Message :=
  if g.src = server then (Sntp.decode g.payload).filter fun m => decide m.Acceptable else none

/-- How many datagrams there are before the first short one. -/
def beforeShort (server : SockAddr) (gs : List Datagram) : Nat := (gs.takeWhile fun g => !short server g).length

end SntpSession
end Verif.Spec

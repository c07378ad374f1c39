import Verif.Spec.DhcpRenew
/-!
# A network without a DHCP server
-/
namespace Verif.Spec
open Verif.Hl Verif.Dhcp

/-- Nobody answers: nothing arrives at socket `k` between the call before and the end of this call, and the socket is not closed or opened by anybody
else while the call lasts. -/
structure NoAnswer (k : Nat) (call : List EnvStep × UInt32 × List (List EnvStep)) : Prop where
  silent : ∀ es ∈ call.1 :: call.2.2, ∀ bs, EnvStep.arrive k bs ∉ es
  status : ∀ es ∈ call.2.2, ∀ s, EnvStep.status k s ∉ es

/-- Of the times of the calls, those at which a client that asked last at `since` asks again: whenever more than `timeout` seconds have passed. -/
def askTimes (timeout : UInt32) : UInt32 → List UInt32 → List UInt32
  | _, [] => []
  | since, t :: ts => if timeout < t - since then t :: askTimes timeout t ts else askTimes timeout since ts

/-- The number of seconds after which the client is to be called again: what is left of the timeout. -/
def waitTimes (timeout : UInt32) : UInt32 → List UInt32 → List UInt32
  | _, [] => []
  | since, t :: ts => if timeout < t - since then timeout :: waitTimes timeout t ts else (timeout - (t - since)) :: waitTimes timeout since ts

/-- The next `n` numbers of the random generator. -/
def draws : Nat → Rand → List UInt32
  | 0, _ => []
  | n + 1, r => r.nextU32.1 :: draws n r.nextU32.2

end Verif.Spec

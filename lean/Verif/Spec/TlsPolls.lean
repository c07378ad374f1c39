import Verif.Spec.DhcpExchange
import Verif.Model.Tls.Client
import Verif.Spec.Mqtt
/-!
# Calls of `process` of the TLS client, one after the other
-/
namespace Verif.Spec.TlsPolls
open Verif Hl Spec Verif.Tls

/-- A call of `process`: before it the environment does `before`, then it is called at the time `secs` while the environment goes on with
`during`. -/
structure Poll (x : Crypto) where
  before : List EnvStep
  rng : Rng x
  secs : UInt32
  during : List (List EnvStep)

variable {x : Crypto}

/-- The result of the call, the device and the client afterwards.  (Release build.) -/
def poll (fuel : Nat) (q : Poll x) (s : World × Client x) : Except (Fail TErr) TEvent × World × Client x :=
  process false fuel worldBus q.rng q.secs (s.1.pause q.before q.during, s.2)

/-- Calls: their results, the device and the client afterwards. -/
def polls (fuel : Nat) : List (Poll x) → World × Client x → List (Except (Fail TErr) TEvent) × World × Client x
  | [], s => ([], s)
  | q :: qs, s => ((poll fuel q s).1 :: (polls fuel qs (poll fuel q s).2).1, (polls fuel qs (poll fuel q s).2).2)

/-- From the call before until the end of the call the connection is neither established nor closed, and does not time out. -/
def Poll.quiet (k : Nat) (q : Poll x) : Prop :=
  ∀ es ∈ q.before :: q.during, ∀ bits, EnvStep.raise k bits ∈ es → Mqtt.quiet bits = true

/-- The clock does not go backwards: the calls after one at `start` are at the times `ts`. -/
def Clock (start : UInt32) (ts : List UInt32) : Prop := (start :: ts).Pairwise fun a b => a.toNat ≤ b.toNat

/-- The caller is asked to call again after at most ten seconds. -/
def AsksAgain (r : Except (Fail TErr) TEvent) : Prop := ∃ n : UInt32, r = .ok (.callAfter n) ∧ n.toNat ≤ 10

end Verif.Spec.TlsPolls

import Verif.Spec.MqttSession
/-!
# Calls of `process` of the MQTT client, one after the other
-/
namespace Verif.Spec.MqttConnect
open Verif Hl Spec Verif.Mqtt

/-- A call of `process`: before it the environment does `before`, then it is called at the time `secs` while the environment goes on with
`during`. -/
structure Poll where
  before : List EnvStep
  secs : UInt32
  during : List (List EnvStep)

/-- The device when the call begins. -/
def Poll.start (x : Poll) (s : World × Client) : World := s.1.pause x.before x.during

/-- The result of the call, the device and the client afterwards.  (Release build.) -/
def poll (fuel : Nat) (x : Poll) (s : World × Client) : Except Err (Except MErr Event) × World × Client :=
  process false fuel worldBus x.secs (x.start s, s.2)

/-- Calls: their results, the device and the client afterwards. -/
def polls (fuel : Nat) : List Poll → World × Client → List (Except Err (Except MErr Event)) × World × Client
  | [], s => ([], s)
  | x :: xs, s => ((poll fuel x s).1 :: (polls fuel xs (poll fuel x s).2).1, (polls fuel xs (poll fuel x s).2).2)

/-- From the call before until the end of the call the connection is neither established nor closed, and does not time out. -/
def Poll.quiet (k : Nat) (x : Poll) : Prop :=
  ∀ es ∈ x.before :: x.during, ∀ bits, EnvStep.raise k bits ∈ es → Mqtt.quiet bits = true

/-- Before the call the connection is established, and until its end it is not closed and does not time out. -/
def Poll.connects (k : Nat) (x : Poll) : Prop :=
  (∃ bits, EnvStep.raise k bits ∈ x.before ∧ Mqtt.con bits = true) ∧ (∀ bits, EnvStep.raise k bits ∈ x.before → Mqtt.discon bits = false) ∧
    ∀ es ∈ x.during, ∀ bits, EnvStep.raise k bits ∈ es → Mqtt.quiet bits = true

/-- The call is at most ten seconds after `start`. -/
def Poll.within (start : UInt32) (x : Poll) : Prop := start.toNat ≤ x.secs.toNat ∧ x.secs.toNat ≤ start.toNat + 10

/-- Asking to be called again ten seconds after `start`. -/
def Poll.again (start : UInt32) (x : Poll) : Except Err (Except MErr Event) := .ok (.ok (.callAfter (10 - (x.secs - start))))

end Verif.Spec.MqttConnect

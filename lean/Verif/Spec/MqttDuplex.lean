import Verif.Spec.MqttSession
/-!
# A session in which the application also sends
-/
namespace Verif.Spec.MqttDuplex
open Verif Hl Spec Verif.Mqtt Verif.Spec.MqttSession

/-- What an application can send. -/
inductive Request where
  | publish (topic payload : Bytes)
  | subscribe (filter : Bytes)
  | unsubscribe (filter : Bytes)

/-- What an application does: a turn of its loop, or sending: the environment does `before`, and then the client is called while the
environment goes on with `during`. -/
inductive Act where
  | turn (t : Turn)
  | send (before : List EnvStep) (x : Request) (during : List (List EnvStep))

/-- What the application sees of it: what a turn shows, or the result of sending, which for SUBSCRIBE and UNSUBSCRIBE has a packet
identifier. -/
inductive Done where
  | seen (s : Seen)
  | sent (r : Except Err (Except MErr (Option UInt16)))
  deriving DecidableEq

/-- Call the client.  (Release build.) -/
def Request.call (x : Request) (s : World × Client) : Except Err (Except MErr (Option UInt16)) × World × Client :=
  match x with
  | .publish topic payload =>
    ((Verif.Mqtt.publish worldBus topic payload s).1.map (·.map fun _ => none), (Verif.Mqtt.publish worldBus topic payload s).2)
  | .subscribe filter => ((Verif.Mqtt.subscribe false worldBus filter s).1.map (·.map some), (Verif.Mqtt.subscribe false worldBus filter s).2)
  | .unsubscribe filter => ((Verif.Mqtt.unsubscribe false worldBus filter s).1.map (·.map some), (Verif.Mqtt.unsubscribe false worldBus filter s).2)

/-- Do it: what the application sees, the device and the client afterwards. -/
def Act.run (fuel : Nat) (a : Act) (s : World × Client) : Done × World × Client :=
  match a with
  | .turn t => (.seen (MqttSession.turn fuel t s).1, (MqttSession.turn fuel t s).2)
  | .send before x during => (.sent (x.call (s.1.pause before during, s.2)).1, (x.call (s.1.pause before during, s.2)).2)

/-- One thing after the other. -/
def acts (fuel : Nat) : List Act → World × Client → List Done × World × Client
  | [], s => ([], s)
  | a :: as, s => ((a.run fuel s).1 :: (acts fuel as (a.run fuel s).2).1, (acts fuel as (a.run fuel s).2).2)

/-- The packet for the broker if the request is accepted with this identifier.  (Options: QoS 0, no local, retained messages are not
sent.)  There is none for the empty filter. -/
def Request.packet : Request → Option UInt16 → List Bytes
  | .publish topic payload, none => [Spec.Mqtt.publish topic payload]
  | .subscribe filter, some id => if filter = [] then [] else [Spec.Mqtt.subscribe id.toNat filter (Spec.Mqtt.options 0 1 0 2)]
  | .unsubscribe filter, some id => if filter = [] then [] else [Spec.Mqtt.unsubscribe id.toNat filter]
  | _, _ => []

/-- The packets for the broker, for what was done and seen: those of the requests that were accepted, in order. -/
def outgoing : List Act → List Done → List Bytes
  | .send _ x _ :: as, .sent (.ok (.ok id)) :: ds => x.packet id ++ outgoing as ds
  | _ :: as, _ :: ds => outgoing as ds
  | _, _ => []

/-- The turns among what is done. -/
def turnsOf : List Act → List Turn
  | [] => []
  | .turn t :: as => t :: turnsOf as
  | _ :: as => turnsOf as

/-- What the turns showed. -/
def seenOf : List Done → List Seen
  | [] => []
  | .seen s :: ds => s :: seenOf ds
  | _ :: ds => seenOf ds

/-- The request was accepted, or the transmit buffer is too full for it. -/
def Done.answered : Done → Prop
  | .seen _ => True
  | .sent r => (∃ id, r = .ok (.ok id)) ∨ r = .ok (.error .outOfMemory)

/-- Meanwhile the connection is neither established nor closed, and does not time out. -/
def Act.quiet (k : Nat) : Act → Prop
  | .turn t => t.quiet k
  | .send before _ during => ∀ es ∈ before :: during, ∀ bits, EnvStep.raise k bits ∈ es → Spec.Mqtt.quiet bits = true

end Verif.Spec.MqttDuplex

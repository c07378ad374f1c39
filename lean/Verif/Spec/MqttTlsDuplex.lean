import Verif.Spec.MqttTlsSession
import Verif.Spec.MqttDuplex
/-!
# A session over TLS in which the application also sends
-/
namespace Verif.Spec.MqttTlsDuplex
open Verif Hl Spec
open Verif.Tls (Crypto Rng Fail Alert)
open Verif.MqttTls (Client Error)
open Verif.Spec.MqttDuplex (Request)
open Verif.Spec.MqttTlsSession (Turn Seen turn)

variable {x : Crypto}

/-- What an application does: a turn of its loop, or sending: the environment does `before`, and then the client is called while the
environment goes on with `during`. -/
inductive Act (x : Crypto) where
  | turn (t : Turn x)
  | send (before : List EnvStep) (r : Request) (during : List (List EnvStep))

/-- What the application sees of it: what a turn shows, or the result of sending, which for SUBSCRIBE and UNSUBSCRIBE has a packet
identifier. -/
inductive Done where
  | seen (s : Seen)
  | sent (r : Except (Fail Error) (Option UInt16))

/-- Call the client.  (Release build.) -/
def call (r : Request) (s : World × Client x) : Except (Fail Error) (Option UInt16) × World × Client x :=
  match r with
  | .publish topic payload =>
    ((Verif.MqttTls.publish worldBus topic payload s).1.map fun _ => none, (Verif.MqttTls.publish worldBus topic payload s).2)
  | .subscribe filter => ((Verif.MqttTls.subscribe false worldBus filter s).1.map some, (Verif.MqttTls.subscribe false worldBus filter s).2)
  | .unsubscribe filter => ((Verif.MqttTls.unsubscribe false worldBus filter s).1.map some, (Verif.MqttTls.unsubscribe false worldBus filter s).2)

/-- Do it: what the application sees, the device and the client afterwards. -/
def Act.run (fuel : Nat) (a : Act x) (s : World × Client x) : Done × World × Client x :=
  match a with
  | .turn t => (.seen (MqttTlsSession.turn fuel t s).1, (MqttTlsSession.turn fuel t s).2)
  | .send before r during => (.sent (call r (s.1.pause before during, s.2)).1, (call r (s.1.pause before during, s.2)).2)

/-- One thing after the other. -/
def acts (fuel : Nat) : List (Act x) → World × Client x → List Done × World × Client x
  | [], s => ([], s)
  | a :: as, s => ((a.run fuel s).1 :: (acts fuel as (a.run fuel s).2).1, (acts fuel as (a.run fuel s).2).2)

/-- The MQTT packets for the broker, for what was done and seen: those of the requests that were accepted, in order. -/
def outgoing : List (Act x) → List Done → List Bytes
  | .send _ r _ :: as, .sent (.ok id) :: ds => r.packet id ++ outgoing as ds
  | _ :: as, _ :: ds => outgoing as ds
  | _, _ => []

/-- The records that carry the packets, one each: application data, protected with the secret `t` and consecutive sequence numbers. -/
def records (t : Bytes) : Nat → List Bytes → List Bytes
  | _, [] => []
  | n, p :: ps => Spec.Tls.protect t n 23 p :: records t (n + 1) ps

/-- The turns among what is done. -/
def turnsOf : List (Act x) → List (Turn x)
  | [] => []
  | .turn t :: as => t :: turnsOf as
  | _ :: as => turnsOf as

/-- What the turns showed. -/
def seenOf : List Done → List Seen
  | [] => []
  | .seen s :: ds => s :: seenOf ds
  | _ :: ds => seenOf ds

/-- The request was accepted, or the transmit buffer is too full for it: for the packet, or for any record. -/
def Done.answered : Done → Prop
  | .seen _ => True
  | .sent r => (∃ id, r = .ok id) ∨ r = .error (.err (.mqtt .outOfMemory)) ∨
      r = .error (.err (.clientAlert (Alert.newWarning .internalError)))

/-- Meanwhile the connection is neither established nor closed, and does not time out. -/
def Act.quiet (k : Nat) : Act x → Prop
  | .turn t => t.quiet k
  | .send before _ during => ∀ es ∈ before :: during, ∀ bits, EnvStep.raise k bits ∈ es → Spec.Mqtt.quiet bits = true

/-- Meanwhile nothing arrives for the socket. -/
def Act.silent (k : Nat) : Act x → Prop
  | .turn t => ∀ es ∈ t.before :: t.during, ∀ bs, EnvStep.arrive k bs ∉ es
  | .send before _ during => ∀ es ∈ before :: during, ∀ bs, EnvStep.arrive k bs ∉ es

end Verif.Spec.MqttTlsDuplex

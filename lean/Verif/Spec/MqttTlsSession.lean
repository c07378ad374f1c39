import Verif.Spec.MqttSession
import Verif.Thm.MqttTlsIn
/-!
# A connection over TLS on which MQTT packets arrive
-/
namespace Verif.Spec.MqttTlsSession
open Verif Hl Spec
open Verif.Tls (Crypto Rng Fail)
open Verif.MqttTls (Client Error PubOp useReader publishDone process)
open Verif.Mqtt (SubAckReasonCode UnSubAckReasonCode)
open Verif.Spec.MqttSession (Packet)

variable {x : Crypto}

/-- What the application saw of one call of `process`: no event, an event, what it read of a message before it was done with it, or
anything else. -/
inductive Seen where
  | nothing
  | subAck (id : UInt16) (reason : SubAckReasonCode)
  | unSubAck (id : UInt16) (reason : UnSubAckReasonCode)
  | message (read : List (Except (Fail Error) Bytes))
  | failure

/-- What the application should see of a packet, if it uses the reader of a message for `ops`. -/
def seen (ops : List PubOp) : Packet → Seen
  | .message topic payload _ _ => .message (ops.map fun op => .ok (op.expected topic payload))
  | .subAck id reason _ => .subAck id reason
  | .unSubAck id reason _ => .unSubAck id reason
  | .other _ _ _ => .nothing

/-- One turn of the application's loop: the environment does `before`, `process` is called at the time `secs` while the environment goes
on with `during`, and if there is a message `ops` is done with its reader. -/
structure Turn (x : Crypto) where
  before : List EnvStep
  rng : Rng x
  secs : UInt32
  during : List (List EnvStep)
  ops : List PubOp

/-- A turn: what was seen, the device and the client afterwards. -/
def turn (fuel : Nat) (t : Turn x) (s : World × Client x) : Seen × World × Client x :=
  match process false fuel worldBus t.rng t.secs (s.1.pause t.before t.during, s.2) with
  | (.ok (.publish rd info), s') =>
    match publishDone false (useReader false info t.ops rd).2 info s' with
    | (.ok (), s'') => (.message (useReader false info t.ops rd).1, s'')
    | (.error _, s'') => (.failure, s'')
  | (.ok .none, s') => (.nothing, s')
  | (.ok (.subAck id reason), s') => (.subAck id reason, s')
  | (.ok (.unSubAck id reason), s') => (.unSubAck id reason, s')
  | (_, s') => (.failure, s')

/-- Turns: what was seen of each, the device and the client afterwards. -/
def turns (fuel : Nat) : List (Turn x) → World × Client x → List Seen × World × Client x
  | [], s => ([], s)
  | t :: ts, s => ((turn fuel t s).1 :: (turns fuel ts (turn fuel t s).2).1, (turns fuel ts (turn fuel t s).2).2)

/-- The turns show the packets, each once, in this order, at most one in a turn. -/
inductive Shows : List (Turn x) → List Seen → List Packet → Prop
  | nil : Shows [] [] []
  | none {t ts ss xs} : Shows ts ss xs → Shows (t :: ts) (.nothing :: ss) xs
  | packet {t : Turn x} {ts ss y ys} : Shows ts ss ys → Shows (t :: ts) (seen t.ops y :: ss) (y :: ys)

/-- During the turn the connection is neither established nor closed, and does not time out. -/
def Turn.quiet (k : Nat) (t : Turn x) : Prop :=
  ∀ es ∈ t.before :: t.during, ∀ bits, EnvStep.raise k bits ∈ es → Mqtt.quiet bits = true

/-- The first of the packets `xs` was taken from the unread data `D`, if it is complete: what is left. -/
def takePacket : Bytes → List Packet → Bytes × List Packet
  | D, [] => (D, [])
  | D, y :: ys => if y.bytes.isPrefixOf D then (D.drop y.bytes.length, ys) else (D, y :: ys)

/-- A buffer of `n` bytes has room for every one of the records with the contents `rs`, if `D` is unread, the packets `xs` are to come, and
one packet is taken after each record. -/
def Room (n : Nat) : Bytes → List Bytes → List Packet → Prop
  | _, [], _ => True
  | D, r :: rs, xs => (D ++ r).length + 2 ≤ n ∧ Room n (takePacket (D ++ r) xs).1 rs (takePacket (D ++ r) xs).2

end Verif.Spec.MqttTlsSession

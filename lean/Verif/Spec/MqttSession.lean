import Verif.Spec.Mqtt
import Verif.Spec.DhcpExchange
import Verif.Model.Mqtt
/-!
# Using the reader of a PUBLISH event, and a connection on which packets arrive
-/
namespace Verif.Spec.MqttSession
open Verif Hl Spec Verif.Mqtt

/-- What a user can do with the reader of a PUBLISH event: read the topic or the payload into a buffer of `n` bytes, or let time pass. -/
inductive PubOp where
  | topic (n : Nat)
  | payload (n : Nat)
  | wait

/-- What reading should give. -/
def PubOp.expected (topic payload : Bytes) : PubOp → List (Except Err (Except MErr Bytes))
  | .topic n => [.ok (.ok (topic.take n))]
  | .payload n => [.ok (.ok (payload.take n))]
  | .wait => []

/-- The result of reading, the reader and the device afterwards. -/
def readResult (rd : PublishReader) (x : Except Err (Except MErr (Bytes × PublishReader)) × World) :
    List (Except Err (Except MErr Bytes)) × PublishReader × World :=
  match x with
  | (.ok (.ok (bs, rd')), w') => ([.ok (.ok bs)], rd', w')
  | (.ok (.error e), w') => ([.ok (.error e)], rd, w')
  | (.error e, w') => ([.error e], rd, w')

/-- Do one thing with the reader. -/
def PubOp.run (rd : PublishReader) (w : World) : PubOp → List (Except Err (Except MErr Bytes)) × PublishReader × World
  | .wait => ([], rd, w.tick)
  | .topic n => readResult rd (onPublish worldBus rd (readTopicProg rd.info n) w)
  | .payload n => readResult rd (onPublish worldBus rd (readPayloadProg rd.info n) w)

/-- Use the reader: the results, the reader and the device afterwards. -/
def useReader : List PubOp → PublishReader → World → List (Except Err (Except MErr Bytes)) × PublishReader × World
  | [], rd, w => ([], rd, w)
  | op :: ops, rd, w =>
    ((op.run rd w).1 ++ (useReader ops (op.run rd w).2.1 (op.run rd w).2.2).1, (useReader ops (op.run rd w).2.1 (op.run rd w).2.2).2)

/-- What a broker sends: a message with QoS 0, the answer to a SUBSCRIBE or an UNSUBSCRIBE, or a packet the client has no use for. -/
inductive Packet where
  | message (topic payload properties : Bytes) (flags : Nat)
  | subAck (id : UInt16) (reason : SubAckReasonCode) (properties : Bytes)
  | unSubAck (id : UInt16) (reason : UnSubAckReasonCode) (properties : Bytes)
  | other (type flags : Nat) (body : Bytes)

def Packet.bytes : Packet → Bytes
  | .message topic payload properties flags => Mqtt.publish topic payload properties flags
  | .subAck id reason properties => Mqtt.ack 9 id.toNat properties [reason.code]
  | .unSubAck id reason properties => Mqtt.ack 11 id.toNat properties [reason.code]
  | .other type flags body => Mqtt.packet type flags body

/-- The packet is well formed, its properties are shorter than 128 bytes, it is not a CONNACK, and it is not longer than 65535 bytes. -/
def Packet.ok (x : Packet) : Prop :=
  x.bytes.length ≤ 65535 ∧
  match x with
  | .message _ _ properties flags => properties.length < 128 ∧ flags < 16 ∧ flags / 2 % 4 = 0
  | .subAck _ _ properties => properties.length < 128
  | .unSubAck _ _ properties => properties.length < 128
  | .other type flags _ => type < 16 ∧ flags < 16 ∧ type ∉ [0, 2, 3, 9, 11]

/-- What the application saw of one call of `process`: no event, an event, what it read of a message before it was done with it, or
anything else. -/
inductive Seen where
  | nothing
  | subAck (id : UInt16) (reason : SubAckReasonCode)
  | unSubAck (id : UInt16) (reason : UnSubAckReasonCode)
  | message (read : List (Except Err (Except MErr Bytes)))
  | failure
  deriving DecidableEq

/-- What the application should see of a packet, if it uses the reader of a message for `ops`. -/
def Packet.seen (ops : List PubOp) : Packet → Seen
  | .message topic payload _ _ => .message (ops.flatMap (PubOp.expected topic payload))
  | .subAck id reason _ => .subAck id reason
  | .unSubAck id reason _ => .unSubAck id reason
  | .other _ _ _ => .nothing

/-- One turn of the application's loop: the environment does `before`, `process` is called at the time `secs` while the environment goes
on with `during`, and if there is a message `ops` is done with its reader. -/
structure Turn where
  before : List EnvStep
  secs : UInt32
  during : List (List EnvStep)
  ops : List PubOp

/-- A turn: what was seen, the device and the client afterwards. -/
def turn (fuel : Nat) (t : Turn) (s : World × Client) : Seen × World × Client :=
  match process false fuel worldBus t.secs (s.1.pause t.before t.during, s.2) with
  | (.ok (.ok (.publish rd)), s') =>
    match publishDone false worldBus (useReader t.ops rd s'.1).2.1 (useReader t.ops rd s'.1).2.2 with
    | (.ok (.ok ()), w') => (.message (useReader t.ops rd s'.1).1, w', s'.2)
    | (_, w') => (.failure, w', s'.2)
  | (.ok (.ok .none), s') => (.nothing, s')
  | (.ok (.ok (.subAck id reason)), s') => (.subAck id reason, s')
  | (.ok (.ok (.unSubAck id reason)), s') => (.unSubAck id reason, s')
  | (_, s') => (.failure, s')

/-- Turns: what was seen of each, the device and the client afterwards. -/
def turns (fuel : Nat) : List Turn → World × Client → List Seen × World × Client
  | [], s => ([], s)
  | t :: ts, s => ((turn fuel t s).1 :: (turns fuel ts (turn fuel t s).2).1, (turns fuel ts (turn fuel t s).2).2)

/-- The turns show the packets, each once, in this order, at most one in a turn. -/
inductive Shows : List Turn → List Seen → List Packet → Prop
  | nil : Shows [] [] []
  | none {t ts ss xs} : Shows ts ss xs → Shows (t :: ts) (.nothing :: ss) xs
  | packet {t ts ss x xs} : Shows ts ss xs → Shows (t :: ts) (x.seen t.ops :: ss) (x :: xs)

/-- What was read of the messages among what was seen. -/
def messages : List Seen → List (List (Except Err (Except MErr Bytes)))
  | [] => []
  | .message read :: ss => read :: messages ss
  | _ :: ss => messages ss

/-- During the turn the connection is neither established nor closed, and does not time out. -/
def Turn.quiet (k : Nat) (t : Turn) : Prop :=
  ∀ es ∈ t.before :: t.during, ∀ bits, EnvStep.raise k bits ∈ es → Mqtt.quiet bits = true

end Verif.Spec.MqttSession

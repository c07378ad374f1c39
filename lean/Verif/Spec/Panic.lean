import Verif.Model.Dns
import Verif.Model.Sntp
import Verif.Model.Dhcp
import Verif.Model.Mqtt
/-!
# Panics

What a device may do, and what it means that a call does not panic.
-/
namespace Verif.Spec
open Verif.Hl

/-- The call never panics, whatever the state of the device. -/
def NoPanic {σ α : Type} (m : M σ α) : Prop := ∀ s, (m s).1 ≠ .error .panic

/-- A device: every access succeeds or fails with an error of the bus.  Nothing else is said about it: what is read may be
anything, at any time. -/
structure Device {σ : Type} (b : Bus σ) : Prop where
  read : ∀ a blk n s e, (b.read a blk n s).1 = .error e → ∃ x, e = .bus x
  write : ∀ a blk bs s e, (b.write a blk bs s).1 = .error e → ∃ x, e = .bus x

/-- The receive buffer of a socket has at most 16 KiB, so that the device does not report more received bytes than that. -/
def RxLimit {σ : Type} (b : Bus σ) (sn : Sn) : Prop := ∀ s n, (b.snRxRsr sn s).1 = .ok n → n.toNat ≤ 16384

/-- What the debug assertions of the functions for an open UDP socket ask for: whenever the status is read the socket is a
UDP socket. -/
def StatusUdp {σ : Type} (b : Bus σ) (sn : Sn) : Prop := ∀ s st, (b.snSr sn s).1 = .ok st → st = .ok .udp

/-- What the debug assertions of the functions for an open TCP socket ask for: whenever the status is read the socket is not
a UDP or MACRAW socket and not waiting for CONNECT. -/
def StatusTcp {σ : Type} (b : Bus σ) (sn : Sn) : Prop :=
  ∀ s st, (b.snSr sn s).1 = .ok st → st ≠ .ok .udp ∧ st ≠ .ok .init ∧ st ≠ .ok .macraw

/-- What the debug assertions of the functions that open a socket ask for: whenever the ports are compared no other open
socket has the port. -/
def PortUnique {σ : Type} (b : Bus σ) (sn : Sn) (port : UInt16) : Prop :=
  ∀ s v, (portIsUnique b sn port s).1 = .ok v → v = true

/-- A DNS or multicast DNS response the application got, after any number of calls of `next_rr`, failed ones included.  What the
device does between the calls does not matter. -/
inductive Answer {σ : Type} (dbg : Bool) (fuel : Nat) (b : Bus σ) (sn : Sn) : Dns.Response → Prop
  | got {cap : Nat} {id : Option UInt16} {s : σ} {r : Dns.Response} :
      (Dns.response dbg fuel b sn cap id s).1 = .ok r → Answer dbg fuel b sn r
  | next {r : Dns.Response} (s : σ) : Answer dbg fuel b sn r → Answer dbg fuel b sn (Dns.nextRr fuel b (s, r)).2.2

/-- The debug build of the MQTT client finds what its assertions ask for, and its clock has not gone backwards. -/
structure MqttAsserts {σ : Type} (b : Bus σ) (secs : UInt32) (c : Mqtt.Client) : Prop where
  status : c.state ≠ .init → StatusTcp b c.sn
  unique : c.state = .init → PortUnique b c.sn c.srcPort
  clock : ∀ t, c.timeout = some t → t ≤ secs

/-- A message the MQTT client handed out, after any number of reads of its topic and payload. -/
inductive Message {σ : Type} (dbg : Bool) (fuel : Nat) (b : Bus σ) : Mqtt.PublishReader → Prop
  | got {secs : UInt32} {c : Mqtt.Client} {s : σ} {r : Mqtt.PublishReader} : (dbg = true → MqttAsserts b secs c) →
      (Mqtt.process dbg fuel b secs (s, c)).1 = .ok (.ok (.publish r)) → Message dbg fuel b r
  | topic {n : Nat} {s : σ} {x : Bytes} {r r' : Mqtt.PublishReader} : Message dbg fuel b r →
      (Mqtt.onPublish b r (Mqtt.readTopicProg r.info n) s).1 = .ok (.ok (x, r')) → Message dbg fuel b r'
  | payload {n : Nat} {s : σ} {x : Bytes} {r r' : Mqtt.PublishReader} : Message dbg fuel b r →
      (Mqtt.onPublish b r (Mqtt.readPayloadProg r.info n) s).1 = .ok (.ok (x, r')) → Message dbg fuel b r'

end Verif.Spec

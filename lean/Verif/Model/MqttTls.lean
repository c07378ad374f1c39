import Verif.Model.Mqtt
import Verif.Model.Tls.Client
/-!
# `mqtt/src/tls.rs`: the MQTT client over TLS

The parsers and the packets are those of `Verif.Model.Mqtt`, run on the reader and the writer of the TLS client.  A call returns an error
`Fail.err`, or panics (`Fail.stop`, `Fail.noKey`).
-/
namespace Verif.MqttTls
open Verif Hl
open Verif.Tls (X Crypto TErr TEvent Rng TlsReader Fail Alert tlsWriter tlsSend)
open Verif.Mqtt (State MErr RecvOut PubInfo SubAckReasonCode UnSubAckReasonCode ConnectReasonCode)

variable {σ : Type} {x : Crypto}

/-- `enum Error`, `mqtt/src/lib.rs:228-262`, with the TLS alerts; the other errors are those of `MErr`, and `Other`. -/
inductive Error where
  | mqtt (e : MErr)
  | serverAlert (a : Alert)
  | clientAlert (a : Alert)
  | other (e : Nat)
  deriving DecidableEq

/-- `enum Event`, `mqtt/src/lib.rs:195-220`, with the reader of the TLS client in `Publish`. -/
inductive Event where
  | callAfter (secs : UInt32)
  | publish (r : TlsReader) (info : PubInfo)
  | subAck (pktId : UInt16) (code : SubAckReasonCode)
  | unSubAck (pktId : UInt16) (code : UnSubAckReasonCode)
  | connAck
  | none
  deriving DecidableEq

/-- `struct Client`, `mqtt/src/tls.rs:91-98`; `state` and `timeout` are its `StateTimeout`, `mqtt/src/lib.rs:146-151`. -/
structure Client (x : Crypto) where
  tls : Tls.Client x
  clientId : Option Bytes
  state : State
  timeout : Option UInt32
  pktId : UInt16

namespace Client

/-- `Client::new`, `mqtt/src/tls.rs:139-158`. -/
def new (x : Crypto) (sn : Sn) (srcPort : UInt16) (hostname : Bytes) (dst : SockAddr) (identity psk rx : Bytes) : Client x :=
  { tls := Tls.Client.new x sn srcPort hostname dst identity psk rx, clientId := none, state := .init, timeout := none, pktId := 1 }

/-- `Client::set_client_id`, `mqtt/src/tls.rs:161-163`. -/
def setClientId (c : Client x) (id : Bytes) : Client x := { c with clientId := some id }

/-- `Client::next_pkt_id`, `mqtt/src/tls.rs:165-168`. -/
def nextPktId (c : Client x) : Client x := { c with pktId := if c.pktId = 65535 then 1 else c.pktId + 1 }

/-- `StateTimeout::set_state_with_timeout`, `mqtt/src/lib.rs:158-167`. -/
def setStateWithTimeout (state : State) (secs : UInt32) (c : Client x) : Client x := { c with state := state, timeout := some secs }

/-- `StateTimeout::set_state`, `mqtt/src/lib.rs:169-173`. -/
def setState (state : State) (c : Client x) : Client x := { c with state := state, timeout := none }

/-- `Client::is_connected`, `mqtt/src/tls.rs:229-231`. -/
def isConnected (c : Client x) : Bool := c.state = .ready

/-- `StateTimeout::timeout_elapsed_secs`, `mqtt/src/lib.rs:154-156`: the subtraction panics in a debug build. -/
def elapsedSecs (dbg : Bool) (c : Client x) (secs : UInt32) : Except Err (Option UInt32) :=
  match c.timeout with
  | none => .ok none
  | some t => if dbg = true ∧ secs < t then .error .panic else .ok (some (secs - t))

/-- `rx_max` in `Client::send_connect`, `mqtt/src/tls.rs:273-278`; `N` is at least 1024. -/
def rxMax (c : Client x) : UInt16 := UInt16.ofNat c.tls.rx.n - 22

end Client

/-- The client. -/
def getC {ε : Type} : X ε (σ × Client x) (Client x) := fun s => (.ok s.2, s)

/-- Change the client. -/
def modC {ε : Type} (f : Client x → Client x) : X ε (σ × Client x) Unit := fun s => (.ok (), (s.1, f s.2))

/-- Use the TLS client; `f` maps what it returns instead of a value. -/
def onTls {ε α : Type} (f : Fail ε → Fail Error) (m : X ε (σ × Tls.Client x) α) : X Error (σ × Client x) α := fun s =>
  match m (s.1, s.2.tls) with
  | (.ok a, t) => (.ok a, (t.1, { s.2 with tls := t.2 }))
  | (.error e, t) => (.error (f e), (t.1, { s.2 with tls := t.2 }))

/-- `map_tls_writer_err`, `mqtt/src/tls.rs:76-85`. -/
def mapWriterErr : Fail TErr → Fail Error
  | .err .unexpectedDisconnect => .stop .panic
  | .err .tcpTimeout => .stop .panic
  | .err (.stateTimeout _) => .stop .panic
  | .err (.server a) => .err (.serverAlert a)
  | .err (.client a) => .err (.clientAlert a)
  | .err .notConnected => .err (.mqtt .notConnected)
  | .stop e => .stop e
  | .noKey => .noKey

/-- `Error::map_w5500`, `mqtt/src/lib.rs:265-272`. -/
def mapW5500 : Fail Err → Fail Error
  | .err .outOfMemory => .err (.mqtt .outOfMemory)
  | .err .unexpectedEof => .err (.mqtt .decode)
  | .err (.bus e) => .err (.other e)
  | .err _ => .stop .panic
  | .stop e => .stop e
  | .noKey => .noKey

/-- A packet written with the writer `r` of the TLS client, and `send`, e.g. `mqtt/src/publish.rs:8-38`. -/
def sendPacket (b : Bus σ) (r : Ptrs) (p : WProg Unit) : X Err (σ × Tls.Client x) Unit :=
  (X.ofM (onWriter b r p)).onFst >>= fun y => tlsSend b y.2

/-- `Client::publish`, `mqtt/src/tls.rs:234-242`. -/
def publish (b : Bus σ) (topic payload : Bytes) : X Error (σ × Client x) Unit :=
  onTls mapWriterErr (tlsWriter b) >>= fun r => onTls mapW5500 (sendPacket b r (Mqtt.publishProg topic payload))

/-- The common part of `Client::subscribe`, `mqtt/src/tls.rs:245-253`, and `Client::unsubscribe`, `:256-264`, including the check for
an empty filter, `mqtt/src/subscribe.rs:179-180`, `:225-226`. -/
def sendFilter (b : Bus σ) (filter : Bytes) (p : UInt16 → WProg Unit) : X Error (σ × Client x) UInt16 :=
  modC Client.nextPktId >>= fun _ =>
  getC >>= fun c =>
  onTls mapWriterErr (tlsWriter b) >>= fun r =>
  if filter.isEmpty then pure 0
  else onTls mapW5500 (sendPacket b r (p c.pktId)) >>= fun _ => pure c.pktId

/-- `Client::subscribe`, `mqtt/src/tls.rs:245-253`. -/
def subscribe (dbg : Bool) (b : Bus σ) (filter : Bytes) : X Error (σ × Client x) UInt16 :=
  sendFilter b filter (Mqtt.subscribeProg dbg filter)

/-- `Client::unsubscribe`, `mqtt/src/tls.rs:256-264`. -/
def unsubscribe (dbg : Bool) (b : Bus σ) (filter : Bytes) : X Error (σ × Client x) UInt16 :=
  sendFilter b filter (Mqtt.unsubscribeProg dbg filter)

/-- `Client::send_connect`, `mqtt/src/tls.rs:266-284`. -/
def sendConnect (b : Bus σ) (secs : UInt32) : X Error (σ × Client x) UInt32 :=
  getC >>= fun c =>
  onTls mapWriterErr (tlsWriter b) >>= fun r =>
  onTls mapW5500 (sendPacket b r (Mqtt.connectProg c.clientId c.rxMax)) >>= fun _ =>
  modC (Client.setStateWithTimeout .waitConAck secs) >>= fun _ =>
  pure Mqtt.timeoutSecs

/-- `TlsReader::done`, `tls/src/io.rs:395-398`: the bytes before the position of the reader are read. -/
def readerDone {ε : Type} (r : TlsReader) : X ε (σ × Client x) Unit :=
  modC fun c => { c with tls := { c.tls with rx := { c.tls.rx with head := r.done } } }

/-- `recv` after the reader was used, `mqtt/src/recv.rs:9-190`. -/
def recvFinish (r : TlsReader) : RecvOut → X Error (σ × Client x) (Option Event)
  | .pending => pure none
  | .bad e true => modC (Client.setState .init) >>= fun _ => X.throw (.mqtt e)
  | .bad e false => X.throw (.mqtt e)
  | .connAck code =>
    readerDone r >>= fun _ =>
    match ConnectReasonCode.tryFrom code with
    | .ok c => modC (Client.setState .init) >>= fun _ => X.throw (.mqtt (.connAck c))
    | .error e =>
      if e = 0 then modC (Client.setState .ready) >>= fun _ => pure (some .connAck)
      else modC (Client.setState .init) >>= fun _ => X.throw (.mqtt .protocol)
  | .subAck id code => readerDone r >>= fun _ => pure (some (.subAck id code))
  | .unSubAck id code => readerDone r >>= fun _ => pure (some (.unSubAck id code))
  | .publish info => pure (some (.publish r info))
  | .ignored => readerDone r >>= fun _ => pure none

/-- `recv`, `mqtt/src/recv.rs:9-190`, with `map_w5500_infallible`, `mqtt/src/lib.rs:275-289`, which changes nothing. -/
def recv (dbg : Bool) (r : TlsReader) : X Error (σ × Client x) (Option Event) :=
  getC >>= fun c =>
  match (Mqtt.recvProg dbg c.state).run (TlsReader.ops dbg) r with
  | (.ok out, r') => recvFinish r' out
  | (.error e, _) => X.ofExcept (.error (mapW5500 (X.ofErr e)))

/-- The end of `Client::process`, `mqtt/src/tls.rs:209-224`. -/
def checkTimeout (dbg : Bool) (secs : UInt32) : X Error (σ × Client x) Event :=
  getC >>= fun c =>
  Tls.ofCipher (c.elapsedSecs dbg secs) >>= fun e =>
  match e with
  | some elapsed =>
    if elapsed > Mqtt.timeoutSecs then
      modC (Client.setState .init) >>= fun _ => X.throw (.mqtt (.stateTimeout c.state))
    else pure (.callAfter (Mqtt.timeoutSecs - elapsed))
  | none => pure .none

/-- Receiving in `Client::process`, `mqtt/src/tls.rs:197-207`, and the end. -/
def receive (dbg : Bool) (secs : UInt32) : X Error (σ × Client x) Event :=
  getC >>= fun c =>
  match c.tls.reader with
  | .error .wouldBlock => checkTimeout dbg secs
  | .error _ => X.ofExcept (.error (.stop .panic))
  | .ok r =>
    recv dbg r >>= fun ev =>
    match ev with
    | some ev => pure ev
    | none => checkTimeout dbg secs

/-- The errors of the TLS client in `Client::process`, `mqtt/src/tls.rs:178-186`. -/
def mapProcessErr : Fail TErr → Fail Error
  | .err (.server a) => .err (.serverAlert a)
  | .err (.client a) => .err (.clientAlert a)
  | .err .unexpectedDisconnect => .err (.mqtt .disconnect)
  | .err .tcpTimeout => .err (.mqtt .tcpTimeout)
  | .err (.stateTimeout _) => .err (.mqtt (.stateTimeout .waitConAck))
  | .err .notConnected => .stop .panic
  | .stop e => .stop e
  | .noKey => .noKey

/-- What `Client::process` does with an event of the TLS client, `mqtt/src/tls.rs:187-195`, and the rest. -/
def onEvent (dbg : Bool) (b : Bus σ) (secs : UInt32) : TEvent → X Error (σ × Client x) Event
  | .callAfter after => pure (.callAfter after)
  | .applicationData => receive dbg secs
  | .handshakeFinished => sendConnect b secs >>= fun after => pure (.callAfter after)
  | .disconnect => X.throw (.mqtt .disconnect)
  | .none => receive dbg secs

/-- `Client::process`, `mqtt/src/tls.rs:171-225`; `fuel` is the one of the TLS client. -/
def process (dbg : Bool) (fuel : Nat) (b : Bus σ) (rng : Rng x) (secs : UInt32) : X Error (σ × Client x) Event :=
  onTls mapProcessErr (Tls.process dbg fuel b rng secs) >>= onEvent dbg b secs

/-! ## Reading a published message -/

/-- `PublishReader::read_topic` and `read_payload`, `mqtt/src/publish.rs:85-94`, with the reader of the TLS client: the bytes and the
reader afterwards. -/
def onPublish {α : Type} (dbg : Bool) (r : TlsReader) (p : RProg α) : Except (Fail Error) (α × TlsReader) :=
  match p.run (TlsReader.ops dbg) r with
  | (.ok a, r') => .ok (a, r')
  | (.error e, _) => .error (mapW5500 (X.ofErr e))

/-- `PublishReader::done`, `mqtt/src/publish.rs:103-109`. -/
def publishDone (dbg : Bool) (r : TlsReader) (info : PubInfo) : X Error (σ × Client x) Unit :=
  X.ofExcept (onPublish dbg r (Mqtt.publishDoneProg dbg info)) >>= fun y => readerDone y.2

end Verif.MqttTls

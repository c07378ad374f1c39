import Verif.Model.Hl.Prog
/-!
# `mqtt/src`: the MQTT client (over plain TCP)
-/
namespace Verif.Mqtt
open Verif.Hl
variable {σ : Type}

/-! ## Variable byte integers, `mqtt/src/data.rs` -/

/-- `enum DeserError`, `mqtt/src/data.rs:7-10`, and the panic of an overflowing `+=` or `*` in a debug build. -/
inductive DeserErr where
  | fragment | decode | panic
  deriving DecidableEq, Repr

/-- The loop of `decode_variable_byte_integer`, `mqtt/src/data.rs:22-34`; the bytes not yet read, `multiplier`, `value`
and `n_bytes`.  `n_bytes` and `multiplier` do not overflow, the loop ends before. -/
def decodeLoop (dbg : Bool) : Bytes → UInt32 → UInt32 → UInt8 → Except DeserErr (UInt32 × UInt8)
  | [], _, _, _ => .error .fragment
  | x :: xs, multiplier, value, n =>
    if dbg = true ∧ 4294967296 ≤ value.toNat + (x &&& 0x7F).toNat * multiplier.toNat then .error .panic
    else
      let value' := value + (x &&& 0x7F).toUInt32 * multiplier
      if multiplier > 128 * 128 * 128 then .error .decode
      else if x &&& 0x80 = 0 then .ok (value', n + 1)
      else decodeLoop dbg xs (multiplier * 128) value' (n + 1)

/-- `decode_variable_byte_integer`, `mqtt/src/data.rs:15-37`. -/
def decodeVbi (dbg : Bool) (buf : Bytes) : Except DeserErr (UInt32 × UInt8) := decodeLoop dbg buf 1 0 0

/-- The loop of `encode_variable_byte_integer`, `mqtt/src/data.rs:43-55`; the first argument is the number of elements of
`buf` not yet written.  `none` is the panic of `buf[len]` with `len = 4`. -/
def encodeLoop : Nat → UInt32 → Option Bytes
  | 0, _ => none
  | k + 1, integer =>
    if integer / 128 = 0 then some [(integer % 128).toUInt8]
    else (encodeLoop k (integer / 128)).map fun rest => ((integer % 128).toUInt8 ||| 0x80) :: rest

/-- `encode_variable_byte_integer`, `mqtt/src/data.rs:39-58`: the first `len` bytes of `buf`. -/
def encodeVbi (integer : UInt32) : Option Bytes := encodeLoop 4 integer

/-- `write_variable_byte_integer`, `mqtt/src/lib.rs:179-185`. -/
def writeVbi (integer : UInt32) : WProg Unit :=
  match encodeVbi integer with
  | none => .throw .panic
  | some bs => .doWriteAll bs

/-! ## Fixed header -/

/-- `enum CtrlPkt`, `mqtt/src/lib.rs:109-126`. -/
inductive CtrlPkt where
  | reserved | connect | connack | publish | puback | pubrec | pubrel | pubcomp
  | subscribe | suback | unsubscribe | unsuback | pingreq | pingresp | disconnect | auth
  deriving DecidableEq, Repr

/-- `CtrlPkt as u8`, `mqtt/src/lib.rs:109-126`. -/
def CtrlPkt.code : CtrlPkt → UInt8
  | .reserved => 0 | .connect => 1 | .connack => 2 | .publish => 3 | .puback => 4 | .pubrec => 5 | .pubrel => 6 | .pubcomp => 7
  | .subscribe => 8 | .suback => 9 | .unsubscribe => 10 | .unsuback => 11 | .pingreq => 12 | .pingresp => 13
  | .disconnect => 14 | .auth => 15

/-- The match on `byte0 >> 4`, `mqtt/src/fixed_header.rs:23-41`.  The `unreachable!()` arm is merged with the last. -/
def CtrlPkt.ofNibble (x : UInt8) : CtrlPkt :=
  if x = CtrlPkt.reserved.code then .reserved else if x = CtrlPkt.connect.code then .connect
  else if x = CtrlPkt.connack.code then .connack else if x = CtrlPkt.publish.code then .publish
  else if x = CtrlPkt.puback.code then .puback else if x = CtrlPkt.pubrec.code then .pubrec
  else if x = CtrlPkt.pubrel.code then .pubrel else if x = CtrlPkt.pubcomp.code then .pubcomp
  else if x = CtrlPkt.subscribe.code then .subscribe else if x = CtrlPkt.suback.code then .suback
  else if x = CtrlPkt.unsubscribe.code then .unsubscribe else if x = CtrlPkt.unsuback.code then .unsuback
  else if x = CtrlPkt.pingreq.code then .pingreq else if x = CtrlPkt.pingresp.code then .pingresp
  else if x = CtrlPkt.disconnect.code then .disconnect else .auth

/-- `struct FixedHeader`, `mqtt/src/fixed_header.rs:7-18`. -/
structure FixedHeader where
  ctrlPkt : CtrlPkt
  flags : UInt8
  remainingLen : UInt16
  len : UInt8
  deriving DecidableEq

/-- `FixedHeader::deser`, `mqtt/src/fixed_header.rs:21-51`. -/
def FixedHeader.deser (dbg : Bool) (buf : Bytes) : Except DeserErr FixedHeader :=
  match buf with
  | [] => .error .fragment
  | byte0 :: rest =>
    match decodeVbi dbg rest with
    | .error e => .error e
    | .ok (remainingLen, integerLen) =>
      if remainingLen.toNat ≤ 65535 then
        .ok ⟨CtrlPkt.ofNibble (byte0 >>> 4), byte0 &&& 0xF, remainingLen.toUInt16, integerLen + 1⟩
      else .error .decode

/-! ## Reason codes -/

/-- `enum ConnectReasonCode`, `mqtt/src/connect.rs:9-52`. -/
inductive ConnectReasonCode where
  | unspecifiedError | malformedPacket | protocolError | implementationSpecificError | unsupportedProtocolVersion
  | clientIdentifierNotValid | badUserNameOrPassword | notAuthorized | serverUnavailable | serverBusy | banned
  | badAuthenticationMethod | topicNameInvalid | packetTooLarge | quotaExceeded | payloadFormatInvalid
  | retainNotSupported | qoSNotSupported | useAnotherServer | serverMoved | connectionRateExceeded
  deriving DecidableEq, Repr

/-- The discriminants, `mqtt/src/connect.rs:9-52`. -/
def ConnectReasonCode.code : ConnectReasonCode → UInt8
  | .unspecifiedError => 0x80 | .malformedPacket => 0x81 | .protocolError => 0x82 | .implementationSpecificError => 0x83
  | .unsupportedProtocolVersion => 0x84 | .clientIdentifierNotValid => 0x85 | .badUserNameOrPassword => 0x86
  | .notAuthorized => 0x87 | .serverUnavailable => 0x88 | .serverBusy => 0x89 | .banned => 0x8A
  | .badAuthenticationMethod => 0x8C | .topicNameInvalid => 0x90 | .packetTooLarge => 0x95 | .quotaExceeded => 0x97
  | .payloadFormatInvalid => 0x99 | .retainNotSupported => 0x9A | .qoSNotSupported => 0x9B | .useAnotherServer => 0x9C
  | .serverMoved => 0x9D | .connectionRateExceeded => 0x9F

/-- All of them, in the order of the code. -/
def ConnectReasonCode.all : List ConnectReasonCode :=
  [.unspecifiedError, .malformedPacket, .protocolError, .implementationSpecificError, .unsupportedProtocolVersion,
    .clientIdentifierNotValid, .badUserNameOrPassword, .notAuthorized, .serverUnavailable, .serverBusy, .banned,
    .badAuthenticationMethod, .topicNameInvalid, .packetTooLarge, .quotaExceeded, .payloadFormatInvalid,
    .retainNotSupported, .qoSNotSupported, .useAnotherServer, .serverMoved, .connectionRateExceeded]

/-- The first value whose code is `value`, how the `TryFrom<u8>` implementations below find it. -/
def findCode {α : Type} (code : α → UInt8) (all : List α) (value : UInt8) : Except UInt8 α :=
  match all.find? fun a => value = code a with
  | some a => .ok a
  | none => .error value

/-- `TryFrom<u8> for ConnectReasonCode`, `mqtt/src/connect.rs:54-87`. -/
def ConnectReasonCode.tryFrom (value : UInt8) : Except UInt8 ConnectReasonCode := findCode code all value

/-- `enum SubAckReasonCode`, `mqtt/src/subscribe.rs:14-63`. -/
inductive SubAckReasonCode where
  | qoS0 | qoS1 | qoS2 | unspecifiedError | implementationSpecificError | notAuthorized | topicFilterInvalid
  | packetIdentifierInUse | quotaExceeded | sharedSubscriptionsNotSupported | subscriptionIdentifiersNotSupported
  | wildcardSubscriptionsNotSupported
  deriving DecidableEq, Repr

/-- The discriminants, `mqtt/src/subscribe.rs:14-63`. -/
def SubAckReasonCode.code : SubAckReasonCode → UInt8
  | .qoS0 => 0x00 | .qoS1 => 0x01 | .qoS2 => 0x02 | .unspecifiedError => 0x80 | .implementationSpecificError => 0x83
  | .notAuthorized => 0x87 | .topicFilterInvalid => 0x8F | .packetIdentifierInUse => 0x91 | .quotaExceeded => 0x97
  | .sharedSubscriptionsNotSupported => 0x9E | .subscriptionIdentifiersNotSupported => 0xA1
  | .wildcardSubscriptionsNotSupported => 0xA2

/-- All of them, in the order of the code. -/
def SubAckReasonCode.all : List SubAckReasonCode :=
  [.qoS0, .qoS1, .qoS2, .unspecifiedError, .implementationSpecificError, .notAuthorized, .topicFilterInvalid,
    .packetIdentifierInUse, .quotaExceeded, .sharedSubscriptionsNotSupported, .subscriptionIdentifiersNotSupported,
    .wildcardSubscriptionsNotSupported]

/-- `TryFrom<u8> for SubAckReasonCode`, `mqtt/src/subscribe.rs:65-93`. -/
def SubAckReasonCode.tryFrom (value : UInt8) : Except UInt8 SubAckReasonCode := findCode code all value

/-- `enum UnSubAckReasonCode`, `mqtt/src/subscribe.rs:103-119`. -/
inductive UnSubAckReasonCode where
  | success | noSubscriptionExisted | unspecifiedError | implementationSpecificError | notAuthorized | topicFilterInvalid
  | packetIdentifierInUse
  deriving DecidableEq, Repr

/-- The discriminants, `mqtt/src/subscribe.rs:103-119`. -/
def UnSubAckReasonCode.code : UnSubAckReasonCode → UInt8
  | .success => 0x00 | .noSubscriptionExisted => 0x11 | .unspecifiedError => 0x80 | .implementationSpecificError => 0x83
  | .notAuthorized => 0x87 | .topicFilterInvalid => 0x8F | .packetIdentifierInUse => 0x91

/-- All of them, in the order of the code. -/
def UnSubAckReasonCode.all : List UnSubAckReasonCode :=
  [.success, .noSubscriptionExisted, .unspecifiedError, .implementationSpecificError, .notAuthorized, .topicFilterInvalid,
    .packetIdentifierInUse]

/-- `TryFrom<u8> for UnSubAckReasonCode`, `mqtt/src/subscribe.rs:121-138`. -/
def UnSubAckReasonCode.tryFrom (value : UInt8) : Except UInt8 UnSubAckReasonCode := findCode code all value

/-! ## Client identifiers -/

/-- `char_is_valid`, `mqtt/src/client_id.rs:35-37`. -/
def charIsValid (ch : UInt8) : Bool := (ch ≥ 65 && ch ≤ 90) || (ch ≥ 97 && ch ≤ 122) || (ch ≥ 48 && ch ≤ 57)

/-- `ClientId::new`, `mqtt/src/client_id.rs:32-51`.  A `&str` is its bytes. -/
def clientIdNew (s : Bytes) : Option Bytes :=
  if s.isEmpty || s.length > 23 then none
  else if s.any fun ch => !charIsValid ch then none
  else some s

/-! ## Packets sent -/

/-- `send_publish`, `mqtt/src/publish.rs:8-38`, before `send`. -/
def publishProg (topic payload : Bytes) : WProg Unit := do
  let topicLen := lenU16 topic.length
  let payloadLen := lenU16 payload.length
  .doWriteAll [CtrlPkt.publish.code <<< 4]
  writeVbi (2 + topicLen.toUInt32 + 1 + payloadLen.toUInt32)
  .doWriteAll (toBe16 topicLen)
  .doWriteAll (topic.take topicLen.toNat)
  .doWriteAll [0]
  .doWriteAll (payload.take payloadLen.toNat)

/-- `filter.len() as u16 + x`, `mqtt/src/subscribe.rs:184`, `:228`: the sum overflows with a panic in a debug build. -/
def filterLen (dbg : Bool) (n : Nat) (x : UInt16) : Except Err UInt16 :=
  if dbg = true ∧ 65536 ≤ n % 65536 + x.toNat then .error .panic else .ok (UInt16.ofNat n + x)

/-- `send_subscribe` for a non-empty filter, `mqtt/src/subscribe.rs:184-215`, before `send`. -/
def subscribeProg (dbg : Bool) (filter : Bytes) (pktId : UInt16) : WProg Unit :=
  match filterLen dbg filter.length 3 with
  | .error e => .throw e
  | .ok n => do
    .doWriteAll [(CtrlPkt.subscribe.code <<< 4) ||| 0b0010]
    writeVbi (2 + 1 + n.toUInt32)
    .doWriteAll [(pktId >>> 8).toUInt8, pktId.toUInt8, 0]
    .doWriteAll (toBe16 (lenU16 filter.length))
    .doWriteAll filter
    .doWriteAll [0b00100100]

/-- `send_unsubscribe` for a non-empty filter, `mqtt/src/subscribe.rs:228-252`, before `send`. -/
def unsubscribeProg (dbg : Bool) (filter : Bytes) (pktId : UInt16) : WProg Unit :=
  match filterLen dbg filter.length 2 with
  | .error e => .throw e
  | .ok n => do
    .doWriteAll [(CtrlPkt.unsubscribe.code <<< 4) ||| 0b0010]
    writeVbi (2 + 1 + n.toUInt32)
    .doWriteAll [(pktId >>> 8).toUInt8, pktId.toUInt8, 0]
    .doWriteAll (toBe16 (lenU16 filter.length))
    .doWriteAll filter

/-- `send_connect`, `mqtt/src/connect.rs:89-126`, before `send`; `clientId` is a validated one. -/
def connectProg (clientId : Option Bytes) (rxMax : UInt16) : WProg Unit := do
  let keepAlive : UInt16 := 15 * 60
  let clientIdLen : UInt8 := match clientId with
    | some id => UInt8.ofNat id.length
    | none => 0
  .doWriteAll [CtrlPkt.connect.code <<< 4, 18 + clientIdLen, 0, 4, 77, 81, 84, 84, 5, 0b00000010,
    (keepAlive >>> 8).toUInt8, keepAlive.toUInt8, 5, 0x27, 0, 0, (rxMax >>> 8).toUInt8, rxMax.toUInt8, 0, clientIdLen]
  match clientId with
  | some id => .doWriteAll id
  | none => pure ()

/-! ## Receiving -/

/-- `enum State`, `mqtt/src/lib.rs:131-143`. -/
inductive State where
  | init | waitConInt | waitConAck | ready
  deriving DecidableEq, Repr

/-- `enum Error`, `mqtt/src/lib.rs:228-262`, without the TLS alerts.  `Other`, a bus error, is an error of the monad `M`
in the model (as are panics). -/
inductive MErr where
  | stateTimeout (s : State)
  | disconnect
  | tcpTimeout
  | decode
  | protocol
  | connAck (code : ConnectReasonCode)
  | outOfMemory
  | notConnected
  deriving DecidableEq, Repr

/-- The fields of `struct PublishReader` other than the reader, `mqtt/src/publish.rs:50-57`. -/
structure PubInfo where
  topicLen : UInt16
  topicIdx : UInt16
  payloadLen : UInt16
  payloadIdx : UInt16
  deriving DecidableEq

/-- What `recv` found out with the reader; what remains to be done (`done`, changing the state, returning) is `recvFinish`. -/
inductive RecvOut where
  /-- `Ok(None)` at once: the packet is not complete -/
  | pending
  /-- an error returned at once, with the state set to `Init` or not -/
  | bad (e : MErr) (reset : Bool)
  | connAck (code : UInt8)
  | subAck (pktId : UInt16) (code : SubAckReasonCode)
  | unSubAck (pktId : UInt16) (code : UnSubAckReasonCode)
  | publish (info : PubInfo)
  /-- `done` and `Ok(None)`: a packet of a type that is not handled -/
  | ignored
  deriving DecidableEq

/-- `u16` to `i16` with `try_into().unwrap_or(i16::MAX)`. -/
def toI16 (x : UInt16) : Int16 := if x ≤ 32767 then x.toInt16 else 32767

/-- `u16::saturating_sub`. -/
def satSub16 (a b : UInt16) : UInt16 := if a < b then 0 else a - b

/-- `u16::saturating_add(2)`. -/
def satAdd2 (a : UInt16) : UInt16 := if a.toNat + 2 ≤ 65535 then a + 2 else 65535

/-- The properties are skipped, `mqtt/src/recv.rs:84-89`, `:117-122`, `:158-163`. -/
def skipProperties (n : UInt8) : RProg Unit := if n ≠ 0 then .doSeek (.current n.toUInt16.toInt16) else pure ()

/-- CONNACK, `mqtt/src/recv.rs:47-56`. -/
def recvConnAck (state : State) (remainingLen : UInt16) : RProg RecvOut :=
  if state ≠ .waitConAck then pure (.bad .protocol false)
  else RProg.doReadExact 2 >>= fun buf =>
    RProg.doSeek (.start (satAdd2 remainingLen)) >>= fun _ =>
      pure (.connAck (buf.getD 1 0))

/-- SUBACK and UNSUBACK up to the reason code, `mqtt/src/recv.rs:75-92`, `:108-125`; `k` gets the packet identifier and the
reason code. -/
def recvAck (k : UInt16 → UInt8 → RecvOut) : RProg RecvOut :=
  RProg.doRead 3 >>= fun buf =>
    match buf with
    | [a, b, propertyLen] =>
      skipProperties propertyLen >>= fun _ =>
      RProg.doReadExact 1 >>= fun payload =>
        pure (k (be16 a b) (payload.getD 0 0))
    | _ => pure (.bad .decode false)

/-- SUBACK, `mqtt/src/recv.rs:93-103`. -/
def subAckOut (pktId : UInt16) (code : UInt8) : RecvOut :=
  match SubAckReasonCode.tryFrom code with
  | .ok code => .subAck pktId code
  | .error _ => .bad .protocol true

/-- UNSUBACK, `mqtt/src/recv.rs:126-136`. -/
def unSubAckOut (pktId : UInt16) (code : UInt8) : RecvOut :=
  match UnSubAckReasonCode.tryFrom code with
  | .ok code => .unSubAck pktId code
  | .error _ => .bad .protocol true

/-- PUBLISH, `mqtt/src/recv.rs:138-178`. -/
def recvPublish (remainingLen : UInt16) : RProg RecvOut := do
  let t ← .doReadExact 2
  let topicLen := be16 (t.getD 0 0) (t.getD 1 0)
  let topicIdx ← .doStreamPosition
  .doSeek (.current (toI16 topicLen))
  let p ← .doReadExact 1
  let propertyLen := p.getD 0 0
  skipProperties propertyLen
  let payloadIdx ← .doStreamPosition
  pure (.publish
    { topicLen := topicLen
      topicIdx := topicIdx
      payloadLen := satSub16 (satSub16 (satSub16 (satSub16 remainingLen topicLen) 2) 1) propertyLen.toUInt16
      payloadIdx := payloadIdx })

/-- The match on the packet type, `mqtt/src/recv.rs:39-188`. -/
def recvBody (state : State) (h : FixedHeader) : RProg RecvOut :=
  match h.ctrlPkt with
  | .reserved => pure (.bad .decode true)
  | .connack => recvConnAck state h.remainingLen
  | .suback => recvAck subAckOut
  | .unsuback => recvAck unSubAckOut
  | .publish => recvPublish h.remainingLen
  | _ => RProg.doSeek (.current (toI16 h.remainingLen)) >>= fun _ => pure .ignored

/-- `recv`, `mqtt/src/recv.rs:9-190`, up to calls of `done` and changes of the state. -/
def recvProg (dbg : Bool) (state : State) : RProg RecvOut :=
  RProg.doRead 5 >>= fun buf =>
    match FixedHeader.deser dbg buf with
    | .error .fragment => pure .pending
    | .error .decode => pure (.bad .decode true)
    | .error .panic => .throw .panic
    | .ok h =>
      RProg.doSeek (.start h.len.toUInt16) >>= fun _ =>
      RProg.doRemain >>= fun remain =>
        if h.remainingLen > remain then pure .pending else recvBody state h

/-- `struct PublishReader`, `mqtt/src/publish.rs:50-57`. -/
structure PublishReader where
  reader : Ptrs
  info : PubInfo
  deriving DecidableEq

/-- `enum Event`, `mqtt/src/lib.rs:195-221`. -/
inductive Event where
  | callAfter (secs : UInt32)
  | publish (r : PublishReader)
  | subAck (pktId : UInt16) (code : SubAckReasonCode)
  | unSubAck (pktId : UInt16) (code : UnSubAckReasonCode)
  | connAck
  | none
  deriving DecidableEq

/-- `struct Client`, `mqtt/src/lib.rs:319-328`; `state` and `timeout` are its `StateTimeout`, `:147-152`. -/
structure Client where
  sn : Sn
  srcPort : UInt16
  server : SockAddr
  clientId : Option Bytes
  state : State
  timeout : Option UInt32
  pktId : UInt16
  deriving DecidableEq

/-- `Client::new`, `mqtt/src/lib.rs:356-368`. -/
def Client.new (sn : Sn) (srcPort : UInt16) (server : SockAddr) : Client :=
  { sn := sn, srcPort := srcPort, server := server, clientId := none, state := .init, timeout := none, pktId := 1 }

/-- `Client::set_client_id`, `mqtt/src/lib.rs:398-400`. -/
def Client.setClientId (c : Client) (id : Bytes) : Client := { c with clientId := some id }

/-- `StateTimeout::set_state_with_timeout`, `mqtt/src/lib.rs:158-167`. -/
def Client.setStateWithTimeout (state : State) (secs : UInt32) (c : Client) : Client :=
  { c with state := state, timeout := some secs }
/-- `StateTimeout::set_state`, `mqtt/src/lib.rs:169-173`. -/
def Client.setState (state : State) (c : Client) : Client := { c with state := state, timeout := none }

/-- `TIMEOUT_SECS`, `mqtt/src/lib.rs:177`. -/
def timeoutSecs : UInt32 := 10

/-- Use the device. -/
def onBus {α : Type} (m : M σ α) : M (σ × Client) α := fun s => ((m s.1).1, ((m s.1).2, s.2))
/-- Change the client. -/
def modC (f : Client → Client) : M (σ × Client) Unit := fun s => (.ok (), (s.1, f s.2))
/-- Look at the client. -/
def getC : M (σ × Client) Client := fun s => (.ok s.2, s)

/-- `Error::map_w5500`, `mqtt/src/lib.rs:265-272`, applied to the result of a call; bus errors stay errors of `M`. -/
def mapW5500 {α : Type} (m : M σ α) : M σ (Except MErr α) := fun s =>
  match m s with
  | (.ok a, s') => (.ok (.ok a), s')
  | (.error .outOfMemory, s') => (.ok (.error .outOfMemory), s')
  | (.error .unexpectedEof, s') => (.ok (.error .decode), s')
  | (.error .wouldBlock, s') => (.error .panic, s')
  | (.error e, s') => (.error e, s')

/-- `recv` after the reader was used, `mqtt/src/recv.rs:9-190`. -/
def recvFinish (b : Bus σ) (r : Ptrs) : RecvOut → M (σ × Client) (Except MErr (Option Event))
  | .pending => pure (.ok none)
  | .bad e true => modC (Client.setState .init) >>= fun _ => pure (.error e)
  | .bad e false => pure (.error e)
  | .connAck code =>
    onBus (tcpReaderDone b r) >>= fun _ =>
    match ConnectReasonCode.tryFrom code with
    | .ok c => modC (Client.setState .init) >>= fun _ => pure (.error (.connAck c))
    | .error e =>
      if e = 0 then modC (Client.setState .ready) >>= fun _ => pure (.ok (some .connAck))
      else modC (Client.setState .init) >>= fun _ => pure (.error .protocol)
  | .subAck id code => onBus (tcpReaderDone b r) >>= fun _ => pure (.ok (some (.subAck id code)))
  | .unSubAck id code => onBus (tcpReaderDone b r) >>= fun _ => pure (.ok (some (.unSubAck id code)))
  | .publish info => pure (.ok (some (.publish ⟨r, info⟩)))
  | .ignored => onBus (tcpReaderDone b r) >>= fun _ => pure (.ok none)

/-- `recv`, `mqtt/src/recv.rs:9-190`. -/
def recv (dbg : Bool) (b : Bus σ) (r : Ptrs) : M (σ × Client) (Except MErr (Option Event)) :=
  getC >>= fun c =>
  onBus (mapW5500 (onTcpReader b r (recvProg dbg c.state))) >>= fun x =>
  match x with
  | .error e => pure (.error e)
  | .ok (out, r') => recvFinish b r' out

/-- Making the reader in `Client::process`, `mqtt/src/lib.rs:509-518`: `none` is `WouldBlock`. -/
def tryReader (dbg : Bool) (b : Bus σ) (sn : Sn) : M σ (Option Ptrs) := fun s =>
  match tcpReader dbg b sn s with
  | (.ok r, s') => (.ok (some r), s')
  | (.error .wouldBlock, s') => (.ok none, s')
  | (.error e, s') => (.error e, s')

/-- `StateTimeout::timeout_elapsed_secs`, `mqtt/src/lib.rs:155-157`: the subtraction panics in a debug build. -/
def Client.elapsedSecs (dbg : Bool) (c : Client) (secs : UInt32) : Except Err (Option UInt32) :=
  match c.timeout with
  | none => .ok none
  | some t => if dbg = true ∧ secs < t then .error .panic else .ok (some (secs - t))

/-- The end of `Client::process`, `mqtt/src/lib.rs:520-537`. -/
def checkTimeout (dbg : Bool) (secs : UInt32) : M (σ × Client) (Except MErr Event) :=
  getC >>= fun c =>
  M.ofExcept (c.elapsedSecs dbg secs) >>= fun e =>
  match e with
  | some elapsed =>
    if elapsed > timeoutSecs then modC (Client.setState .init) >>= fun _ => pure (.error (.stateTimeout c.state))
    else pure (.ok (.callAfter (timeoutSecs - elapsed)))
  | none => pure (.ok .none)

/-- `Client::tcp_connect`, `mqtt/src/lib.rs:663-676`. -/
def tcpConnectMqtt (dbg : Bool) (fuel : Nat) (b : Bus σ) (secs : UInt32) : M (σ × Client) UInt32 :=
  getC >>= fun c =>
  onBus b.simr >>= fun simr =>
  onBus (b.setSimr (c.sn.bitmask ||| simr)) >>= fun _ =>
  onBus (b.setSnImr c.sn SocketInterruptMask.default.maskSendok) >>= fun _ =>
  onBus (tcpConnect dbg fuel b c.sn c.srcPort c.server) >>= fun _ =>
  modC (Client.setStateWithTimeout .waitConInt secs) >>= fun _ =>
  pure timeoutSecs

/-- `rx_max` in `Client::send_connect`, `mqtt/src/lib.rs:683-687`. -/
def rxMax (size : Except UInt8 BufferSize) : UInt16 :=
  UInt16.ofNat (match size with
    | .ok s => s
    | .error _ => BufferSize.default).sizeInBytes

/-- A writer, a packet written with it, and `send`, e.g. `mqtt/src/lib.rs:590-591`. -/
def sendPacket (b : Bus σ) (r : Ptrs) (p : WProg Unit) : M σ Unit :=
  onWriter b r p >>= fun x => writerSend b x.2

/-- `Client::send_connect`, `mqtt/src/lib.rs:678-694`. -/
def sendConnect (b : Bus σ) (secs : UInt32) : M (σ × Client) (Except MErr UInt32) :=
  getC >>= fun c =>
  onBus (b.snRxbufSize c.sn) >>= fun size =>
  onBus (socketWriter b c.sn) >>= fun r =>
  onBus (mapW5500 (sendPacket b r (connectProg c.clientId (rxMax size)))) >>= fun x =>
  match x with
  | .error e => pure (.error e)
  | .ok () => modC (Client.setStateWithTimeout .waitConAck secs) >>= fun _ => pure (.ok timeoutSecs)

/-- Receiving in `Client::process`, `mqtt/src/lib.rs:509-518`, and the end, `:520-537`. -/
def receive (dbg : Bool) (b : Bus σ) (secs : UInt32) : M (σ × Client) (Except MErr Event) :=
  getC >>= fun c =>
  onBus (tryReader dbg b c.sn) >>= fun r =>
  match r with
  | none => checkTimeout dbg secs
  | some r =>
    recv dbg b r >>= fun x =>
    match x with
    | .error e => pure (.error e)
    | .ok (some ev) => pure (.ok ev)
    | .ok none => checkTimeout dbg secs

/-- The interrupts in `Client::process`, `mqtt/src/lib.rs:482-507`, and the rest. -/
def onInterrupt (dbg : Bool) (b : Bus σ) (secs : UInt32) (ir : SocketInterrupt) : M (σ × Client) (Except MErr Event) :=
  if ir.disconRaised then modC (Client.setState .init) >>= fun _ => pure (.error .disconnect)
  else if ir.conRaised then sendConnect b secs >>= fun x => pure (x.map .callAfter)
  else if ir.timeoutRaised then modC (Client.setState .init) >>= fun _ => pure (.error .tcpTimeout)
  else receive dbg b secs

/-- `Client::process`, `mqtt/src/lib.rs:472-538`; `fuel` bounds the polls of the socket status when connecting. -/
def process (dbg : Bool) (fuel : Nat) (b : Bus σ) (secs : UInt32) : M (σ × Client) (Except MErr Event) :=
  getC >>= fun c =>
  if c.state = .init then tcpConnectMqtt dbg fuel b secs >>= fun n => pure (.ok (.callAfter n))
  else
    onBus (b.snIr c.sn) >>= fun ir =>
    if ir.anyRaised then onBus (b.setSnIr c.sn ir.raw) >>= fun _ => onInterrupt dbg b secs ir
    else receive dbg b secs

/-- `Client::is_connected`, `mqtt/src/lib.rs:542-544`. -/
def Client.isConnected (c : Client) : Bool := c.state = .ready

/-- `Client::next_pkt_id`, `mqtt/src/lib.rs:402-405`. -/
def Client.nextPktId (c : Client) : Client := { c with pktId := if c.pktId = 65535 then 1 else c.pktId + 1 }

/-- `Client::publish`, `mqtt/src/lib.rs:583-592`. -/
def publish (b : Bus σ) (topic payload : Bytes) : M (σ × Client) (Except MErr Unit) :=
  getC >>= fun c =>
  if c.isConnected then
    onBus (socketWriter b c.sn) >>= fun r => onBus (mapW5500 (sendPacket b r (publishProg topic payload)))
  else pure (.error .notConnected)

/-- The common part of `Client::subscribe`, `mqtt/src/lib.rs:631-639`, and `Client::unsubscribe`, `:653-661`, including the
check for an empty filter, `mqtt/src/subscribe.rs:179-180`, `:225-226`. -/
def sendFilter (b : Bus σ) (filter : Bytes) (p : UInt16 → WProg Unit) : M (σ × Client) (Except MErr UInt16) :=
  getC >>= fun c =>
  if c.isConnected then
    onBus (socketWriter b c.sn) >>= fun r =>
    modC Client.nextPktId >>= fun _ =>
    getC >>= fun c =>
    if filter.isEmpty then pure (.ok 0)
    else onBus (mapW5500 (sendPacket b r (p c.pktId))) >>= fun x => pure (x.map fun _ => c.pktId)
  else pure (.error .notConnected)

/-- `Client::subscribe`, `mqtt/src/lib.rs:631-639`. -/
def subscribe (dbg : Bool) (b : Bus σ) (filter : Bytes) : M (σ × Client) (Except MErr UInt16) :=
  sendFilter b filter (subscribeProg dbg filter)

/-- `Client::unsubscribe`, `mqtt/src/lib.rs:653-661`. -/
def unsubscribe (dbg : Bool) (b : Bus σ) (filter : Bytes) : M (σ × Client) (Except MErr UInt16) :=
  sendFilter b filter (unsubscribeProg dbg filter)

/-! ## Reading a published message, `mqtt/src/publish.rs` -/

/-- `PublishReader::read_topic`, `mqtt/src/publish.rs:73-82`; `n` is `buf.len()`. -/
def readTopicProg (i : PubInfo) (n : Nat) : RProg Bytes :=
  RProg.doSeek (.start i.topicIdx) >>= fun _ => RProg.doReadExact (min16 (lenU16 n) i.topicLen).toNat

/-- `PublishReader::read_payload`, `mqtt/src/publish.rs:85-94`. -/
def readPayloadProg (i : PubInfo) (n : Nat) : RProg Bytes :=
  RProg.doSeek (.start i.payloadIdx) >>= fun _ => RProg.doReadExact (min16 (lenU16 n) i.payloadLen).toNat

/-- The seek in `PublishReader::done`, `mqtt/src/publish.rs:104-106`; the sum panics in a debug build if it overflows. -/
def publishDoneProg (dbg : Bool) (i : PubInfo) : RProg Unit :=
  if dbg = true ∧ 65536 ≤ i.payloadIdx.toNat + i.payloadLen.toNat then .throw .panic
  else .doSeek (.start (i.payloadIdx + i.payloadLen))

/-- `PublishReader::read_topic` and `read_payload` on the device: the bytes and the reader afterwards. -/
def onPublish {α : Type} (b : Bus σ) (r : PublishReader) (p : RProg α) : M σ (Except MErr (α × PublishReader)) := fun s =>
  match mapW5500 (onTcpReader b r.reader p) s with
  | (.ok (.ok (a, r')), s') => (.ok (.ok (a, { r with reader := r' })), s')
  | (.ok (.error e), s') => (.ok (.error e), s')
  | (.error e, s') => (.error e, s')

/-- `PublishReader::done`, `mqtt/src/publish.rs:103-109`. -/
def publishDone (dbg : Bool) (b : Bus σ) (r : PublishReader) : M σ (Except MErr Unit) :=
  onPublish b r (publishDoneProg dbg r.info) >>= fun x =>
  match x with
  | .error e => pure (.error e)
  | .ok (_, r') => tcpReaderDone b r'.reader >>= fun _ => pure (.ok ())

end Verif.Mqtt

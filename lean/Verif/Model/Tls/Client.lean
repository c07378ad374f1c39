import Verif.Model.Tls.Record
import Verif.Model.Tls.ServerHello
import Verif.Model.Tls.ClientHello
/-!
# `tls/src/lib.rs`: the TLS client

The random number generator is only used by `send_client_hello`, at most once per call of `process`; what it gives is an argument
of the model.  `fuel` bounds the polls of the socket status when connecting, and the number of handshake messages taken from the
buffer and of iterations of the loops over them.
-/
namespace Verif.Tls
open Verif Hl

/-- `enum State`, `tls/src/lib.rs:154-177`. -/
inductive TState where
  | reset | waitConInt | waitServerHello | waitEncryptedExtensions | waitFinished | sendFinished | connected
  | waitAlertSendOk | sendDiscon | waitDiscon
  deriving DecidableEq, Repr

/-- `enum Error`, `tls/src/lib.rs:130-145`. -/
inductive TErr where
  | server (a : Alert)
  | client (a : Alert)
  | unexpectedDisconnect
  | tcpTimeout
  | stateTimeout (s : TState)
  | notConnected
  deriving DecidableEq

/-- `enum Event`, `tls/src/lib.rs:187-208`. -/
inductive TEvent where
  | callAfter (secs : UInt32)
  | applicationData
  | handshakeFinished
  | disconnect
  | none
  deriving DecidableEq, Repr

/-- `struct Client`, `tls/src/lib.rs:225-241`. -/
structure Client (x : Crypto) where
  sn : Sn
  srcPort : UInt16
  hostname : Bytes
  dst : SockAddr
  state : TState
  timeout : Option UInt32
  ks : KeySchedule x
  identity : Bytes
  psk : Bytes
  rx : Buffer

/-- What the random number generator gives: the 32 bytes of `fill_bytes`, and the secret and the public key of `keygen`,
`tls/src/crypto/p256/rust_crypto.rs:10-17`. -/
structure Rng (x : Crypto) where
  random : Bytes
  secret : x.Secret
  publicKey : Bytes

/-- `TIMEOUT_SECS`, `tls/src/lib.rs:145`. -/
def timeoutSecs : UInt32 := 10

namespace Client
variable {x : Crypto}

/-- `Client::new`, `tls/src/lib.rs:314-335`. -/
def new (x : Crypto) (sn : Sn) (srcPort : UInt16) (hostname : Bytes) (dst : SockAddr) (identity psk rx : Bytes) : Client x :=
  { sn, srcPort, hostname, dst, state := .reset, timeout := none, ks := KeySchedule.default x, identity, psk
    rx := Buffer.ofBuf rx }

/-- `Client::RECORD_SIZE_LIMIT`, `tls/src/lib.rs:261-262`. -/
def recordSizeLimit (c : Client x) : UInt16 := UInt16.ofNat c.rx.n - 16 - 5 - 1

/-- `size_to_buffersize`, `tls/src/lib.rs:243-252`; a client with another size does not compile. -/
def rxBufferSize (c : Client x) : BufferSize :=
  if c.rx.n = 1024 then .kb1 else if c.rx.n = 2048 then .kb2 else if c.rx.n = 4096 then .kb4 else if c.rx.n = 8192 then .kb8
  else .kb16

/-- `Client::set_state_with_timeout`, `tls/src/lib.rs:341-349`. -/
def setStateWithTimeout (state : TState) (secs : UInt32) (c : Client x) : Client x := { c with state, timeout := some secs }

/-- `Client::set_state`, `tls/src/lib.rs:351-355`. -/
def setState (state : TState) (c : Client x) : Client x := { c with state, timeout := none }

/-- `KeySchedule::reset` of the client's key schedule. -/
def resetKeys (c : Client x) : Client x := { c with ks := KeySchedule.default x }

/-- `Client::set_state_send_discon`, `tls/src/lib.rs:357-360`. -/
def setStateSendDiscon (secs : UInt32) (c : Client x) : Client x := c.resetKeys.setStateWithTimeout .sendDiscon secs

/-- `Client::reset`, `tls/src/lib.rs:362-365`. -/
def reset (c : Client x) : Client x := c.resetKeys.setState .reset

/-- `Client::connected`, `tls/src/lib.rs:1170-1172`. -/
def connected (c : Client x) : Bool := c.state = .connected

/-- `Client::timeout_elapsed_secs`, `tls/src/lib.rs:337-339`: the subtraction panics in a debug build. -/
def elapsedSecs (dbg : Bool) (c : Client x) (secs : UInt32) : Except Err (Option UInt32) :=
  match c.timeout with
  | none => .ok none
  | some t => if dbg = true ∧ secs < t then .error .panic else .ok (some (secs - t))

end Client

variable {σ : Type} {x : Crypto}

/-- The client. -/
def getC {ε : Type} : X ε (σ × Client x) (Client x) := fun s => (.ok s.2, s)

/-- Change the client. -/
def modC {ε : Type} (f : Client x → Client x) : X ε (σ × Client x) Unit := fun s => (.ok (), (s.1, f s.2))

/-- A function on the socket and the receive buffer. -/
def onRx {ε α : Type} (m : X ε (σ × Buffer) α) : X ε (σ × Client x) α := fun s =>
  match m (s.1, s.2.rx) with
  | (r, t) => (r, (t.1, { s.2 with rx := t.2 }))

/-- A call of the bus whose errors become `InternalError`. -/
def onBus {α : Type} (m : M σ α) : X AlertDescription (σ × Client x) α := (internal m).onFst

/-- A call whose errors are mapped by `AlertDescription::map_w5500`. -/
def onHl {α : Type} (m : M σ α) : X AlertDescription (σ × Client x) α := ((X.ofM m).mapErr mapW5500).onFst

/-! ## Connecting -/

/-- `Client::tcp_connect`, `tls/src/lib.rs:506-529`. -/
def tlsTcpConnect (dbg : Bool) (fuel : Nat) (b : Bus σ) (secs : UInt32) : X AlertDescription (σ × Client x) UInt32 :=
  getC >>= fun c =>
  onBus (close b c.sn) >>= fun _ =>
  onBus (b.setSnRxbufSize c.sn c.rxBufferSize) >>= fun _ =>
  onBus b.simr >>= fun simr =>
  onBus (b.setSimr (c.sn.bitmask ||| simr)) >>= fun _ =>
  onBus (b.setSnImr c.sn SocketInterruptMask.default) >>= fun _ =>
  onBus (tcpConnect dbg fuel b c.sn c.srcPort c.dst) >>= fun _ =>
  modC (Client.setStateWithTimeout .waitConInt secs) >>= fun _ =>
  pure timeoutSecs

/-- The arguments of `client_hello::ser` in `Client::send_client_hello`, `tls/src/lib.rs:555-564`. -/
def Client.helloArgs (c : Client x) (rng : Rng x) : HelloArgs :=
  { random := rng.random, hostname := c.hostname, publicKey := rng.publicKey, psk := c.psk, identity := c.identity
    recordSizeLimit := c.recordSizeLimit }

/-- `client_hello::ser` in `Client::send_client_hello`, `tls/src/lib.rs:547-565`: the message in the receive buffer. -/
def makeHello (dbg : Bool) (rng : Rng x) : X AlertDescription (σ × Client x) Bytes :=
  modC (fun c => { c with rx := c.rx.reset, ks := { c.ks with clientSecret := some rng.secret } }) >>= fun _ =>
  getC >>= fun c =>
  ofCipher (clientHelloSer dbg c.rx.n (c.helloArgs rng) c.ks) >>= fun (out, ks) =>
  modC (fun c => { c with rx := { c.rx with buf := writeAt c.rx.buf 0 out }, ks }) >>= fun _ =>
  pure out

/-- `Client::send_client_hello`, `tls/src/lib.rs:541-580`. -/
def sendClientHello (dbg : Bool) (b : Bus σ) (rng : Rng x) (secs : UInt32) : X AlertDescription (σ × Client x) Unit :=
  makeHello dbg rng >>= fun buf =>
  getC >>= fun c =>
  onBus (socketWriter b c.sn) >>= fun r =>
  onBus (writerWriteAll b r buf) >>= fun r =>
  onBus (writerSend b r) >>= fun _ =>
  getC >>= fun c =>
  ofCipher c.ks.incrementWriteSeq >>= fun ks =>
  modC (fun c => Client.setStateWithTimeout .waitServerHello secs { c with ks := ks.initializeEarlySecret })

/-! ## Alerts -/

/-- `Client::send_encrypted_record`, `tls/src/lib.rs:949-998`. -/
def sendRecord (b : Bus σ) (contentType : ContentType) (data : Bytes) : X Err (σ × Client x) Unit :=
  getC >>= fun c => (sendEncryptedRecord b c.sn c.ks.clientKeyAndNonce contentType data).onFst

/-- `try_send_alert` in `Client::send_alert`, `tls/src/lib.rs:603-630`. -/
def trySendAlert (b : Bus σ) (level : AlertLevel) (description : AlertDescription) : X AlertDescription (σ × Client x) Unit :=
  getC >>= fun c =>
  if c.ks.serverTraffic.isSome then (sendRecord b .alert [level.code, description.code]).mapErr mapW5500
  else
    onBus (socketWriter b c.sn) >>= fun r =>
    onHl (writerWriteAll b r [ContentType.alert.code, 3, 3, 0, 2, level.code, description.code]) >>= fun r =>
    onBus (writerSend b r)

/-- `Client::send_alert`, `tls/src/lib.rs:594-643`. -/
def sendAlert {ε : Type} (b : Bus σ) (level : AlertLevel) (description : AlertDescription) (secs : UInt32) :
    X ε (σ × Client x) Unit :=
  (trySendAlert b level description).attempt >>= fun result =>
  modC Client.resetKeys >>= fun _ =>
  match result with
  | .error _ => modC (Client.setStateSendDiscon secs)
  | .ok _ => modC (fun c => c.resetKeys.setStateWithTimeout .waitAlertSendOk secs)

/-- `return Err(self.send_fatal_alert(…))`, `Client::send_fatal_alert`, `tls/src/lib.rs:645-653`. -/
def failFatal {α : Type} (b : Bus σ) (description : AlertDescription) (secs : UInt32) : X TErr (σ × Client x) α :=
  sendAlert b .fatal description secs >>= fun _ => X.throw (.client (Alert.newFatal description))

/-- `if let Err(e) = … { return Err(self.send_fatal_alert(w5500, e, monotonic_secs)) }`. -/
def orFatal {α : Type} (b : Bus σ) (secs : UInt32) (m : X AlertDescription (σ × Client x) α) : X TErr (σ × Client x) α :=
  m.attempt >>= fun r =>
  match r with
  | .ok a => pure a
  | .error e => failFatal b e secs

/-! ## Receiving -/

/-- `Client::recv_change_cipher_spec`, `tls/src/lib.rs:655-686`. -/
def recvChangeCipherSpec (header : RecordHeader) : X AlertDescription (σ × Client x) Unit :=
  if header.length ≠ 1 then X.throw .decodeError
  else
    onRx popTailRx >>= fun byte =>
    match byte with
    | none => X.throw .decodeError
    | some value => if value ≠ 1 then X.throw .unexpectedMessage else pure ()

/-- The five bytes of a header. -/
def toHeader (l : Bytes) : RecordHeader := #v[l.getD 0 0, l.getD 1 0, l.getD 2 0, l.getD 3 0, l.getD 4 0]

/-- `Client::recv_header`, `tls/src/lib.rs:688-718`. -/
def recvHeader (dbg : Bool) (b : Bus σ) : X AlertDescription (σ × Client x) (Option RecordHeader) :=
  getC >>= fun c =>
  onHl (tcpReader dbg b c.sn) >>= fun r =>
  onHl (tcpReaderReadExact b r 5) >>= fun (buf, r) =>
  X.ofExcept (RecordHeader.deser (toHeader buf)) >>= fun header =>
  if header.length > c.recordSizeLimit then X.throw .recordOverflow
  else if min 65535 (header.length.toNat + 5) > r.streamLen.toNat then pure none
  else onBus (tcpReaderDone b r) >>= fun _ => pure (some header)

/-- The loop of `Client::recv_unencrypted_body`, `tls/src/lib.rs:730-740`; the first argument bounds the number of iterations. -/
def recvBodyLoop (dbg : Bool) (b : Bus σ) : Nat → Ptrs → Nat → X AlertDescription (σ × Client x) Ptrs
  | 0, _, _ => X.ofExcept (.error (.stop .hang))
  | fuel + 1, r, remain =>
    let readLen := min remain 64
    if readLen = 0 then pure r
    else
      onHl (tcpReaderReadExact b r readLen) >>= fun (buf, r) =>
      onRx (extendRx dbg buf) >>= fun _ =>
      recvBodyLoop dbg b fuel r (remain - readLen)

/-- `Client::recv_unencrypted_body`, `tls/src/lib.rs:720-744`. -/
def recvUnencryptedBody (dbg : Bool) (b : Bus σ) (header : RecordHeader) : X AlertDescription (σ × Client x) Unit :=
  getC >>= fun c =>
  onHl (tcpReader dbg b c.sn) >>= fun r =>
  recvBodyLoop dbg b (header.length.toNat + 1) r header.length.toNat >>= fun r =>
  onBus (tcpReaderDone b r)

/-- A `ServerHello` in `Client::recv_handshake`, `tls/src/lib.rs:1014-1026`. -/
def onServerHello (fuel : Nat) (secs : UInt32) (hash : Bytes) (reader : CircleReader) : X AlertDescription (σ × Client x) Unit :=
  getC >>= fun c =>
  if c.state ≠ .waitServerHello then X.throw .unexpectedMessage
  else
    X.ofExcept (recvServerHello fuel x.sec1 reader) >>= fun publicKey =>
    unwrapKey (KeySchedule.initializeHandshakeSecret { c.ks with serverPublic := some publicKey, transcript := hash }) >>= fun ks =>
    modC fun c => Client.setStateWithTimeout .waitEncryptedExtensions secs { c with ks }

/-- A `NewSessionTicket` in `Client::recv_handshake`, `tls/src/lib.rs:1027-1039`. -/
def onNewSessionTicket : X AlertDescription (σ × Client x) Unit :=
  getC >>= fun c => if c.state ≠ .connected then X.throw .unexpectedMessage else pure ()

/-- An `EncryptedExtensions` in `Client::recv_handshake`, `tls/src/lib.rs:1046-1054`. -/
def onEncryptedExtensions (fuel : Nat) (secs : UInt32) (reader : CircleReader) : X AlertDescription (σ × Client x) Unit :=
  getC >>= fun c =>
  if c.state ≠ .waitEncryptedExtensions then X.throw .unexpectedMessage
  else
    X.ofExcept (recvEncryptedExtensions fuel reader) >>= fun _ =>
    modC (Client.setStateWithTimeout .waitFinished secs)

/-- A `Finished` in `Client::recv_handshake`, `tls/src/lib.rs:1066-1086`. -/
def onFinished (secs : UInt32) (header : HandshakeHeader) (reader : CircleReader) : X AlertDescription (σ × Client x) Unit :=
  getC >>= fun c =>
  if c.state ≠ .waitFinished then X.throw .unexpectedMessage
  else if header.length ≠ 32 then X.throw .unexpectedMessage
  else
    X.ofExcept (reader.readExact 32) >>= fun (verifyData, _) =>
    X.ofExcept (c.ks.verifyServerFinished verifyData) >>= fun _ =>
    modC (Client.setStateWithTimeout .sendFinished secs)

/-- A `KeyUpdate` in `Client::recv_handshake`, `tls/src/lib.rs:1087-1121`. -/
def onKeyUpdate (header : HandshakeHeader) (reader : CircleReader) : X AlertDescription (σ × Client x) Unit :=
  getC >>= fun c =>
  if c.state ≠ .connected then X.throw .unexpectedMessage
  else if header.length ≠ 1 then X.throw .unexpectedMessage
  else
    X.ofExcept reader.nextU8 >>= fun (value, _) =>
    match KeyUpdateRequest.tryFrom value with
    | .ok .updateNotRequested => pure ()
    | .ok .updateRequested => modC fun c => { c with ks := c.ks.updateTrafficSecret }
    | .error _ => X.throw .illegalParameter

/-- One handshake message, the `match` in `Client::recv_handshake`, `tls/src/lib.rs:1009-1126`.  `hash` is the transcript including
the message. -/
def onHandshake (fuel : Nat) (secs : UInt32) (hash : Bytes) (header : HandshakeHeader) (reader : CircleReader) :
    X AlertDescription (σ × Client x) Unit :=
  match header.msgType with
  | .ok .clientHello => X.throw .unexpectedMessage
  | .ok .serverHello => onServerHello fuel secs hash reader
  | .ok .newSessionTicket => onNewSessionTicket
  | .ok .endOfEarlyData => X.throw .unexpectedMessage
  | .ok .encryptedExtensions => onEncryptedExtensions fuel secs reader
  | .ok .certificate => X.throw .unexpectedMessage
  | .ok .certificateRequest => X.throw .unexpectedMessage
  | .ok .certificateVerify => X.throw .unexpectedMessage
  | .ok .finished => onFinished secs header reader
  | .ok .keyUpdate => onKeyUpdate header reader
  | .error _ => X.throw .unexpectedMessage

/-- `self.rx.pop_handshake_record(&mut hash)?`. -/
def popHandshake : X AlertDescription (σ × Client x) (Option (HandshakeHeader × CircleReader)) :=
  getC >>= fun c =>
  X.ofExcept c.rx.popHandshakeRecord >>= fun r =>
  match r with
  | none => pure none
  | some (m, rx) => modC (fun c => { c with rx }) >>= fun _ => pure (some m)

/-- `Client::recv_handshake`, `tls/src/lib.rs:1000-1130`; the first argument bounds the number of messages. -/
def recvHandshake (secs : UInt32) : Nat → X AlertDescription (σ × Client x) Unit
  | 0 => X.ofExcept (.error (.stop .hang))
  | fuel + 1 =>
    popHandshake >>= fun m =>
    match m with
    | none => pure ()
    | some (header, reader) =>
      getC >>= fun c =>
      let hash := c.ks.transcript ++ header.toList ++ reader.a ++ reader.b
      onHandshake 65536 secs hash header reader >>= fun _ =>
      modC (fun c => { c with ks := { c.ks with transcript := hash } }) >>= fun _ =>
      recvHandshake secs fuel

/-- The end of `Client::recv_alert`, `tls/src/lib.rs:900-926`. -/
def recvAlertLevel {α : Type} (description : AlertDescription) : X TErr (σ × Client x) α :=
  onRx popTailRx >>= fun byte =>
  modC (fun c => { c with rx := c.rx.reset }) >>= fun _ =>
  match byte with
  | none => X.throw (.client { level := .fatal, description := .decodeError })
  | some byte =>
    let level := match AlertLevel.tryFrom byte with
      | .ok level => level
      | .error _ => .fatal
    X.throw (.server { level, description })

/-- `return Err(self.recv_alert(…))`, `Client::recv_alert`, `tls/src/lib.rs:867-927`. -/
def failAlert {α : Type} (dbg : Bool) (b : Bus σ) (header : RecordHeader) : X TErr (σ × Client x) α :=
  modC Client.reset >>= fun _ =>
  if header.length ≠ 2 then
    modC (fun c => { c with rx := c.rx.reset }) >>= fun _ =>
    getC >>= fun c =>
    (onBus (tcpDisconnect dbg b c.sn)).attempt >>= fun _ =>
    X.throw (.client { level := .fatal, description := .decodeError })
  else
    onRx popTailRx >>= fun byte =>
    match byte with
    | none =>
      modC (fun c => { c with rx := c.rx.reset }) >>= fun _ =>
      X.throw (.client { level := .fatal, description := .decodeError })
    | some byte =>
      match AlertDescription.tryFrom byte with
      | .error _ => X.throw (.client { level := .fatal, description := .decodeError })
      | .ok description => recvAlertLevel description

/-- Decryption in `Client::recv`, `tls/src/lib.rs:760-794`. -/
def recvEncryptedBody (dbg : Bool) (b : Bus σ) (secs : UInt32) (header : RecordHeader) : X TErr (σ × Client x) ContentType :=
  getC >>= fun c =>
  match c.ks.serverKeyAndNonce with
  | none => failFatal b .unexpectedMessage secs
  | some (key, nonce) =>
    orFatal b secs (onRx (decryptRecordInplace dbg b c.sn key nonce header)) >>= fun ct =>
    match ct with
    | .ok ct => pure ct
    | .error _ => failFatal b .decodeError secs

/-- The body of the record and its content type in `Client::recv`, `tls/src/lib.rs:759-800`. -/
def recvBody (dbg : Bool) (b : Bus σ) (secs : UInt32) (header : RecordHeader) (outer : ContentType) :
    X TErr (σ × Client x) ContentType :=
  if outer = .applicationData then recvEncryptedBody dbg b secs header
  else orFatal b secs (recvUnencryptedBody dbg b header) >>= fun _ => pure outer

/-- `increment_application_data_tail` in `Client::recv`, `tls/src/lib.rs:804-811`. -/
def countAppData (dbg : Bool) (header : RecordHeader) (ct : ContentType) : X TErr (σ × Client x) Unit :=
  if ct = .applicationData then
    getC >>= fun c =>
    ofCipher (c.rx.incrementApplicationDataTail dbg (header.length.toNat - 17)) >>= fun rx =>
    modC fun c => { c with rx }
  else pure ()

/-- The `match` in `Client::recv`, `tls/src/lib.rs:825-858`, for the content types other than an alert, which is an early
return. -/
def recvContent (fuel : Nat) (b : Bus σ) (secs : UInt32) (header : RecordHeader) (ct : ContentType) :
    X TErr (σ × Client x) (Option TEvent) :=
  match ct with
  | .changeCipherSpec => orFatal b secs (recvChangeCipherSpec header) >>= fun _ => pure none
  | .handshake => orFatal b secs (recvHandshake secs fuel) >>= fun _ => pure none
  | _ =>
    getC >>= fun c =>
    if c.state = .connected then pure (some .applicationData) else failFatal b .unexpectedMessage secs

/-- `increment_read_record_sequence_number` in `Client::recv`, `tls/src/lib.rs:860-862`. -/
def countRead (outer : ContentType) : X TErr (σ × Client x) Unit :=
  if outer = .applicationData then
    getC >>= fun c =>
    ofCipher c.ks.incrementReadSeq >>= fun ks =>
    modC fun c => { c with ks }
  else pure ()

/-- The end of `Client::recv`, `tls/src/lib.rs:746-865`: the content of a record. -/
def recvRecord (dbg : Bool) (fuel : Nat) (b : Bus σ) (secs : UInt32) (header : RecordHeader) (outer ct : ContentType)
    (fragment : Bool) : X TErr (σ × Client x) (Option TEvent) :=
  if fragment = true ∧ ct ≠ .handshake then failFatal b .unexpectedMessage secs
  else if ct = .alert then failAlert dbg b header
  else
    (recvContent fuel b secs header ct).attempt >>= fun ret =>
    countRead outer >>= fun _ =>
    X.ofExcept (ret.mapError .err)

/-- `Client::recv`, `tls/src/lib.rs:746-865`.  The content type of the header was checked by `deser`. -/
def recv (dbg : Bool) (fuel : Nat) (b : Bus σ) (secs : UInt32) : X TErr (σ × Client x) (Option TEvent) :=
  orFatal b secs (recvHeader dbg b) >>= fun header =>
  match header with
  | none => pure none
  | some header =>
    getC >>= fun c =>
    match header.contentType with
    | none => X.ofExcept (.error (.stop .panic))
    | some outer =>
      recvBody dbg b secs header outer >>= fun ct =>
      countAppData dbg header ct >>= fun _ =>
      recvRecord dbg fuel b secs header outer ct c.rx.containsHandshakeFragment

/-- `client_finished`, `tls/src/handshake/finished.rs:5-14`. -/
def clientFinished (verifyData : Bytes) : Bytes := [HandshakeType.finished.code, 0, 0, 32] ++ verifyData

/-- `Client::send_client_finished`, `tls/src/lib.rs:929-945`. -/
def sendClientFinished (b : Bus σ) : X AlertDescription (σ × Client x) Unit :=
  getC >>= fun c =>
  unwrapKey c.ks.clientFinishedVerifyData >>= fun verifyData =>
  (sendRecord b .handshake (clientFinished verifyData)).mapErr mapW5500 >>= fun _ =>
  modC fun c => Client.setState .connected { c with ks := c.ks.initializeMasterSecret }

/-! ## `process` -/

/-- The end of `Client::process`, `tls/src/lib.rs:387-504`. -/
def checkTimeout (dbg : Bool) (secs : UInt32) : X TErr (σ × Client x) TEvent :=
  getC >>= fun c =>
  ofCipher (c.elapsedSecs dbg secs) >>= fun e =>
  match e with
  | some elapsed =>
    if elapsed > timeoutSecs then
      modC (fun c => if c.state = .waitDiscon then c.reset else c.setState .sendDiscon) >>= fun _ =>
      X.throw (.stateTimeout c.state)
    else pure (.callAfter (timeoutSecs - elapsed))
  | none => pure .none

/-- After receiving in `Client::process`, `tls/src/lib.rs:476-481` and `:484-503`. -/
def afterRecv (dbg : Bool) (b : Bus σ) (secs : UInt32) : X TErr (σ × Client x) TEvent :=
  getC >>= fun c =>
  if c.state = .sendFinished then orFatal b secs (sendClientFinished b) >>= fun _ => pure .handshakeFinished
  else checkTimeout dbg secs

/-- Receiving in `Client::process`, `tls/src/lib.rs:458-482`, and the rest. -/
def receiveRecords (dbg : Bool) (fuel : Nat) (b : Bus σ) (secs : UInt32) : X TErr (σ × Client x) TEvent :=
  getC >>= fun c =>
  if c.state = .waitAlertSendOk ∨ c.state = .waitDiscon then checkTimeout dbg secs
  else
    orFatal b secs (onBus (b.snRxRsr c.sn)) >>= fun rsr =>
    if rsr ≥ 5 then
      recv dbg fuel b secs >>= fun event =>
      match event with
      | some event => pure event
      | none => afterRecv dbg b secs
    else afterRecv dbg b secs

/-- The states `Reset` and `SendDiscon` in `Client::process`, `tls/src/lib.rs:437-456`, and the rest. -/
def onState (dbg : Bool) (fuel : Nat) (b : Bus σ) (secs : UInt32) : X TErr (σ × Client x) TEvent :=
  getC >>= fun c =>
  match c.state with
  | .reset => orFatal b secs (tlsTcpConnect dbg fuel b secs) >>= fun after => pure (.callAfter after)
  | .sendDiscon =>
    orFatal b secs (onBus (tcpDisconnect dbg b c.sn)) >>= fun _ =>
    modC (Client.setStateWithTimeout .waitDiscon secs) >>= fun _ =>
    pure (.callAfter timeoutSecs)
  | _ => receiveRecords dbg fuel b secs

/-- The interrupts other than `CON` in `Client::process`, `tls/src/lib.rs:410-434`, and the rest. -/
def onInterrupt (dbg : Bool) (fuel : Nat) (b : Bus σ) (secs : UInt32) (ir : SocketInterrupt) : X TErr (σ × Client x) TEvent :=
  getC >>= fun c =>
  if ir.disconRaised then
    if c.state ≠ .waitDiscon then modC Client.reset >>= fun _ => pure .disconnect
    else X.throw .unexpectedDisconnect
  else if ir.timeoutRaised then modC Client.reset >>= fun _ => X.throw .tcpTimeout
  else if ir.sendokRaised ∧ c.state = .waitAlertSendOk then
    modC (Client.setStateSendDiscon secs) >>= fun _ => pure (.callAfter timeoutSecs)
  else onState dbg fuel b secs

/-- The interrupts in `Client::process`, `tls/src/lib.rs:395-435`, and the rest. -/
def onInterrupts (dbg : Bool) (fuel : Nat) (b : Bus σ) (rng : Rng x) (secs : UInt32) (ir : SocketInterrupt) :
    X TErr (σ × Client x) TEvent :=
  getC >>= fun c =>
  orFatal b secs (onBus (b.setSnIr c.sn ir.raw)) >>= fun _ =>
  if ir.conRaised then
    orFatal b secs (sendClientHello dbg b rng secs) >>= fun _ => onInterrupt dbg fuel b secs ir
  else onInterrupt dbg fuel b secs ir

/-- `Client::process`, `tls/src/lib.rs:387-504`. -/
def process (dbg : Bool) (fuel : Nat) (b : Bus σ) (rng : Rng x) (secs : UInt32) : X TErr (σ × Client x) TEvent :=
  getC >>= fun c =>
  (onBus (b.snIr c.sn)).attempt >>= fun ir =>
  match ir with
  | .ok ir => if ir.anyRaised then onInterrupts dbg fuel b rng secs ir else onState dbg fuel b secs
  | .error _ => onState dbg fuel b secs

/-! ## Application data -/

/-- `Error::Client(Alert::new_warning(AlertDescription::InternalError))`. -/
def writeErr {α ε : Type} (m : X ε σ α) : X TErr σ α := m.mapErr fun _ => .client (Alert.newWarning .internalError)

/-- `Client::writer`, `tls/src/lib.rs:1196-1233`. -/
def tlsWriter (b : Bus σ) : X TErr (σ × Client x) Ptrs :=
  getC >>= fun c =>
  if c.connected then
    (writeErr (X.ofM (b.snTxFsr c.sn))).onFst >>= fun fsr =>
    if fsr < 22 then X.throw (.client (Alert.newWarning .internalError))
    else
      (writeErr (X.ofM (b.snTxWr c.sn))).onFst >>= fun wr =>
      pure { sn := c.sn, head := wr + 5, tail := wr + 5 + (fsr - 22), ptr := wr + 5 }
  else X.throw .notConnected

/-- `Client::write_all`, `tls/src/lib.rs:1250-1261`. -/
def tlsWriteAll (b : Bus σ) (data : Bytes) : X TErr (σ × Client x) Unit :=
  getC >>= fun c =>
  if c.connected then writeErr (sendRecord b .applicationData data) else X.throw .notConnected

/-- `TlsWriter::send` on the client. -/
def tlsSend (b : Bus σ) (r : Ptrs) : X Err (σ × Client x) Unit := fun s =>
  match tlsWriterSend b r (s.1, s.2.ks) with
  | (e, t) => (e, (t.1, { s.2 with ks := t.2 }))

/-- `Client::reader`, `tls/src/lib.rs:1275-1277`. -/
def Client.reader (c : Client x) : Except Err TlsReader := c.rx.appDataReader

end Verif.Tls

import Verif.Model.LL
/-!
# The register simulator (`regsim/src/lib.rs`)

The simulator implements the `Registers` trait with sockets of the operating system.  Those are not modelled; every call of them takes
the next element of a list of answers, so that a theorem about all states is a theorem about every behaviour of the operating system.
What the simulator hands over to the operating system is recorded.  Logging (`log::…`, `set_socket_buffer_logging`) and the file in which
reads can be recorded (`set_corpus_file`, `log_byte`) have no effect on the registers and are left out.
-/
namespace Verif.Sim

/-- What a call of `std::net` returned. -/
inductive Answer where
  /-- `Ok`, without data -/
  | done
  /-- `Ok`, with the bytes of a datagram or of a stream, and where they come from -/
  | data (origin : SockAddr) (bytes : Bytes)
  /-- `Err` with `ErrorKind::WouldBlock` -/
  | wouldBlock
  /-- `Err` with another kind -/
  | fail (kind : Nat)
  deriving DecidableEq, Repr, Inhabited

/-- `enum SocketType`, `regsim/src/lib.rs:92-96`, without the handle of the operating system. -/
inductive SocketType where
  | udp | tcpListener | tcpStream
  deriving DecidableEq, Repr, Inhabited

/-- `struct CommonRegs`, `regsim/src/lib.rs:150-172`. -/
structure CommonRegs where
  mr : UInt8
  gar : Ipv4
  subr : Ipv4
  shar : Eui48
  sipr : Ipv4
  intlevel : UInt16
  ir : UInt8
  imr : UInt8
  sir : UInt8
  simr : UInt8
  rtr : UInt16
  rcr : UInt8
  ptimer : UInt8
  pmagic : UInt8
  phar : Eui48
  psid : UInt16
  pmru : UInt16
  uipr : Ipv4
  uportr : UInt16
  phycfgr : UInt8
  versionr : UInt8
  deriving DecidableEq, Repr, Inhabited

/-- `CommonRegs::RESET`, `regsim/src/lib.rs:176-198`; `VERSION` is 4, `ll/src/lib.rs:114`. -/
def CommonRegs.reset : CommonRegs where
  mr := 0x00
  gar := .unspecified
  subr := .unspecified
  shar := ⟨0, 0, 0, 0, 0, 0⟩
  sipr := .unspecified
  intlevel := 0x00
  ir := 0x00
  imr := 0x00
  sir := 0x00
  simr := 0x00
  rtr := 0x07D0
  rcr := 0x08
  ptimer := 0x0028
  pmagic := 0x00
  phar := ⟨0, 0, 0, 0, 0, 0⟩
  psid := 0x00
  pmru := 0xFFFF
  uipr := .unspecified
  uportr := 0x0000
  phycfgr := 0b10111111
  versionr := 0x04

/-- `struct SocketRegs`, `regsim/src/lib.rs:202-225`. -/
structure SocketRegs where
  mr : UInt8
  cr : UInt8
  ir : SocketInterrupt
  sr : SocketStatus
  port : UInt16
  dhar : Eui48
  dipr : Ipv4
  dport : UInt16
  mssr : UInt16
  tos : UInt8
  ttl : UInt8
  rxbufSize : BufferSize
  txbufSize : BufferSize
  txFsr : UInt16
  txRd : UInt16
  txWr : UInt16
  rxRsr : UInt16
  rxRd : UInt16
  rxWr : UInt16
  imr : UInt8
  frag : UInt16
  kpalvtr : UInt8
  deriving DecidableEq, Repr, Inhabited

/-- `SocketRegs::RESET`, `regsim/src/lib.rs:229-252`. -/
def SocketRegs.reset : SocketRegs where
  mr := 0x00
  cr := 0x00
  ir := .default
  sr := .closed
  port := 0x0000
  dhar := ⟨0xFF, 0xFF, 0xFF, 0xFF, 0xFF, 0xFF⟩
  dipr := .unspecified
  dport := 0x00
  mssr := 0x0000
  tos := 0x00
  ttl := 0x80
  rxbufSize := .kb2
  txbufSize := .kb2
  txFsr := 0x0800
  txRd := 0x0000
  txWr := 0x0000
  rxRsr := 0x0000
  rxRd := 0x0000
  rxWr := 0x0000
  imr := 0xFF
  frag := 0x4000
  kpalvtr := 0x00

/-- `SocketRegs::dest`, `regsim/src/lib.rs:254-256`. -/
def SocketRegs.dest (r : SocketRegs) : SockAddr := ⟨r.dipr, r.dport⟩

/-- `struct Socket`, `regsim/src/lib.rs:260-266`; `client` tells whether there is an accepted stream. -/
structure Socket where
  regs : SocketRegs
  txBuf : Bytes
  rxBuf : Bytes
  inner : Option SocketType
  client : Bool
  deriving DecidableEq, Repr, Inhabited

/-- `Socket::default`, `regsim/src/lib.rs:280-288`. -/
def Socket.default : Socket := ⟨.reset, List.replicate 2048 0, List.replicate 2048 0, none, false⟩

/-- Bytes given to the operating system: the socket, the destination in its registers, and the bytes. -/
structure Out where
  sn : Sn
  dest : SockAddr
  bytes : Bytes
  deriving DecidableEq, Repr, Inhabited

/-- `struct W5500`, `regsim/src/lib.rs:293-298`, with what the operating system will answer and what was given to it. -/
structure Sim where
  regs : CommonRegs
  sn : Sn → Socket
  answers : List Answer
  out : List Out

/-- `W5500::default`, `regsim/src/lib.rs:1105-1112`, as a change of the state: the operating system keeps its own. -/
def Sim.reset (s : Sim) : Sim := { s with regs := .reset, sn := fun _ => .default }

/-- The next answer of the operating system; it has nothing when the list is empty. -/
def ask : M Sim Answer := fun s =>
  match s.answers with
  | [] => (.ok .wouldBlock, s)
  | a :: rest => (.ok a, { s with answers := rest })

/-- A call whose error is returned with `?` (`set_nonblocking`, `set_ttl`, `write_all`, `flush`, `send_to`). -/
def askUnit : M Sim Unit :=
  ask >>= fun a =>
  match a with
  | .fail kind => M.throw (.bus kind)
  | _ => pure ()

/-- Whether a call succeeded whose error is handled (`bind`, `connect`). -/
def askOk : M Sim Bool :=
  ask >>= fun a =>
  match a with
  | .fail _ => pure false
  | _ => pure true

/-- `W5500::socket` and `W5500::socket_mut`, `regsim/src/lib.rs:462-468`. -/
def getSocket (sn : Sn) : M Sim Socket := M.get >>= fun s => pure (s.sn sn)

/-- A change of one socket. -/
def Sim.setSocket (s : Sim) (sn : Sn) (k : Socket) : Sim := { s with sn := fun j => if j = sn then k else s.sn j }

def modSocket (sn : Sn) (f : Socket → Socket) : M Sim Unit := M.modify fun s => s.setSocket sn (f (s.sn sn))

def modRegs (sn : Sn) (f : SocketRegs → SocketRegs) : M Sim Unit := modSocket sn fun k => { k with regs := f k.regs }

/-- `enum BlockType`, `regsim/src/lib.rs:110-115`. -/
inductive BlockType where
  | common | socket (sn : Sn) | tx (sn : Sn) | rx (sn : Sn)
  deriving DecidableEq, Repr, Inhabited

/-- `block_type`, `regsim/src/lib.rs:133-147`; `none` is a panic. -/
def blockType (block : UInt8) : Option BlockType :=
  if block = 0 then some .common
  else
    let snVal := block / 4
    match Sn.tryFrom snVal.toNat with
    | .error _ => none
    | .ok sn =>
      let k := block - snVal * 4
      if k = 1 then some (.socket sn) else if k = 2 then some (.tx sn) else if k = 3 then some (.rx sn) else none

/-- `W5500::sim_set_sn_sr`, `regsim/src/lib.rs:470-477`. -/
def simSetSnSr (sn : Sn) (status : SocketStatus) : M Sim Unit := modRegs sn fun r => { r with sr := status }

/-- `W5500::raise_sn_ir`, `regsim/src/lib.rs:590-594`. -/
def raiseSnIr (sn : Sn) (int : UInt8) : M Sim Unit :=
  M.modify (fun s => { s with regs.sir := s.regs.sir ||| sn.bitmask }) >>= fun _ =>
  modRegs sn fun r => { r with ir := ⟨r.ir.raw ||| int⟩ }

/-- `W5500::socket_cmd_open`, `regsim/src/lib.rs:362-410`. -/
def socketCmdOpen (sn : Sn) : M Sim Unit :=
  modRegs sn (fun r => { r with rxWr := 0, rxRd := 0, txRd := 0, txWr := 0 }) >>= fun _ =>
  getSocket sn >>= fun k =>
  match (⟨k.regs.mr⟩ : SocketMode).protocol with
  | .ok .closed => pure ()
  | .ok .tcp =>
    modSocket sn (fun k => { k with inner := none }) >>= fun _ =>
    simSetSnSr sn .init
  | .ok .udp =>
    askOk >>= fun bound =>
    if bound then
      askUnit >>= fun _ =>
      askUnit >>= fun _ =>
      modSocket sn (fun k => { k with inner := some .udp }) >>= fun _ =>
      simSetSnSr sn .udp
    else simSetSnSr sn .closed
  | .ok .macraw => if sn = .sn0 then M.throw .panic else pure ()
  | .error _ => pure ()

/-- `W5500::socket_cmd_connect`, `regsim/src/lib.rs:412-436`. -/
def socketCmdConnect (sn : Sn) : M Sim Unit :=
  getSocket sn >>= fun k =>
  if k.regs.sr ≠ .init then M.throw .panic
  else
    askOk >>= fun connected =>
    if connected then
      askUnit >>= fun _ =>
      askUnit >>= fun _ =>
      modSocket sn (fun k => { k with inner := some .tcpStream }) >>= fun _ =>
      raiseSnIr sn SocketInterrupt.conMask >>= fun _ =>
      simSetSnSr sn .established
    else
      raiseSnIr sn SocketInterrupt.disconMask >>= fun _ =>
      simSetSnSr sn .closed

/-- `W5500::socket_cmd_listen`, `regsim/src/lib.rs:438-460`. -/
def socketCmdListen (sn : Sn) : M Sim Unit :=
  getSocket sn >>= fun k =>
  if k.regs.sr ≠ .init then M.throw .panic
  else
    askOk >>= fun bound =>
    if bound then
      askUnit >>= fun _ =>
      askUnit >>= fun _ =>
      modSocket sn (fun k => { k with inner := some .tcpListener }) >>= fun _ =>
      simSetSnSr sn .listen
    else
      simSetSnSr sn .closed >>= fun _ =>
      raiseSnIr sn SocketInterrupt.timeoutMask

/-- `W5500::socket_cmd_close`, `regsim/src/lib.rs:479-483`. -/
def socketCmdClose (sn : Sn) : M Sim Unit :=
  modSocket sn (fun k => { k with inner := none }) >>= fun _ =>
  simSetSnSr sn .closed

/-- `socket.tx_buf[buffer_adr % socket.tx_buf.len()]` for the addresses of a range, `regsim/src/lib.rs:511-525`. -/
def ringSlice (buf : Bytes) (lo hi : Nat) : Bytes := (List.range (hi - lo)).map fun i => buf.getD ((lo + i) % buf.length) 0

/-- The bytes of a SEND, `regsim/src/lib.rs:487-527`; `none` is a panic (a division by zero, or a failed `debug_assert!`). -/
def sendBytes (dbg : Bool) (k : Socket) : Option Bytes :=
  let tail := k.regs.txRd.toNat
  let head := k.regs.txWr.toNat
  let size := if head ≥ tail then head - tail else 65535 + head - tail
  if dbg = true ∧ ¬ size ≤ k.regs.txbufSize.sizeInBytes then none
  else if k.txBuf.length = 0 then none
  else
    let bytes := if head ≥ tail then ringSlice k.txBuf tail head else ringSlice k.txBuf tail 65535 ++ ringSlice k.txBuf 0 head
    if dbg = true ∧ bytes = [] then none else some bytes

/-- `W5500::socket_cmd_send`, `regsim/src/lib.rs:485-555`.  A failed call is one that sent nothing. -/
def socketCmdSend (dbg : Bool) (sn : Sn) : M Sim Unit :=
  getSocket sn >>= fun k =>
  if k.regs.txWr = k.regs.txRd then pure ()
  else
    match sendBytes dbg k with
    | none => M.throw .panic
    | some bytes =>
      let record := M.modify fun s => { s with out := s.out ++ [⟨sn, k.regs.dest, bytes⟩] }
      (match k.inner with
       | some .tcpStream => askUnit >>= fun _ => askUnit >>= fun _ => record
       | some .udp => askUnit >>= fun _ => record
       | some .tcpListener => if k.client then askUnit >>= fun _ => askUnit >>= fun _ => record else pure ()
       | none => M.throw .panic) >>= fun _ =>
      modRegs sn fun r => { r with txRd := r.txWr }

/-- `W5500::socket_cmd_recv`, `regsim/src/lib.rs:560-572`. -/
def socketCmdRecv (dbg : Bool) (sn : Sn) : M Sim Unit :=
  getSocket sn >>= fun k =>
  if k.regs.rxWr ≥ k.regs.rxRd then modRegs sn fun r => { r with rxRsr := r.rxWr - r.rxRd }
  else
    let size := UInt16.ofNat k.regs.rxbufSize.sizeInBytes
    if dbg = true ∧ (size < k.regs.rxWr ∨ ¬ (size - k.regs.rxWr).toNat + k.regs.rxRd.toNat < 65536) then M.throw .panic
    else modRegs sn fun r => { r with rxRsr := size - r.rxWr + r.rxRd }

/-- `W5500::sim_set_sn_rx_buf`, `regsim/src/lib.rs:574-588`: `none` is a panic. -/
def Socket.rxPush (k : Socket) : Bytes → Option Socket
  | [] => some k
  | byte :: rest =>
    if k.rxBuf.length = 0 then none
    else if k.regs.rxRsr.toNat + 1 > k.rxBuf.length then some k
    else if k.regs.rxRsr.toNat + 1 ≥ 65536 then none
    else
      Socket.rxPush { k with
        rxBuf := k.rxBuf.set (k.regs.rxWr.toNat % k.rxBuf.length) byte
        regs := { k.regs with rxWr := k.regs.rxWr + 1, rxRsr := k.regs.rxRsr + 1 } } rest

def simSetSnRxBuf (sn : Sn) (data : Bytes) : M Sim Unit :=
  getSocket sn >>= fun k =>
  match k.rxPush data with
  | none => M.throw .panic
  | some k => modSocket sn fun _ => k

/-- `stream.read` in `W5500::check_socket`, `regsim/src/lib.rs:625-636,638-650`: at most a buffer full. -/
def readStream (sn : Sn) (bufsize : Nat) : M Sim Unit :=
  ask >>= fun a =>
  match a with
  | .data _ bytes =>
    if bytes.take bufsize = [] then pure ()
    else
      simSetSnRxBuf sn (bytes.take bufsize) >>= fun _ =>
      raiseSnIr sn SocketInterrupt.recvMask
  | .fail kind => M.throw (.bus kind)
  | _ => pure ()

/-- `W5500::check_socket`, `regsim/src/lib.rs:596-670`.  A received datagram that is longer than the buffer is cut, as
`UdpSocket::recv_from` does. -/
def checkSocket (sn : Sn) : M Sim Unit :=
  getSocket sn >>= fun k =>
  let bufsize := k.regs.rxbufSize.sizeInBytes
  match k.inner with
  | some .udp =>
    ask >>= fun a =>
    match a with
    | .data origin bytes =>
      let bytes := bytes.take bufsize
      let num := UInt16.ofNat (min 65535 bytes.length)
      simSetSnRxBuf sn origin.ip.octets >>= fun _ =>
      simSetSnRxBuf sn (toBe16 origin.port) >>= fun _ =>
      simSetSnRxBuf sn (toBe16 num) >>= fun _ =>
      simSetSnRxBuf sn (bytes.take num.toNat) >>= fun _ =>
      raiseSnIr sn SocketInterrupt.recvMask
    | .fail kind => M.throw (.bus kind)
    | _ => pure ()
  | some .tcpStream => readStream sn bufsize
  | some .tcpListener =>
    if k.client then readStream sn bufsize
    else
      ask >>= fun a =>
      match a with
      | .wouldBlock => pure ()
      | .fail kind => M.throw (.bus kind)
      | _ =>
        askUnit >>= fun _ =>
        modSocket sn (fun k => { k with client := true }) >>= fun _ =>
        raiseSnIr sn SocketInterrupt.conMask >>= fun _ =>
        simSetSnSr sn .established
  | none => pure ()

/-- `x &= 0x00FF; x |= u16::from(byte) << 8`, as in `regsim/src/lib.rs:813-816`. -/
def setHi (x : UInt16) (byte : UInt8) : UInt16 := (x &&& (0x00FF : UInt16)) ||| (byte.toUInt16 <<< 8)

/-- `x &= 0xFF00; x |= u16::from(byte)`, as in `regsim/src/lib.rs:817-820`. -/
def setLo (x : UInt16) (byte : UInt8) : UInt16 := (x &&& (0xFF00 : UInt16)) ||| byte.toUInt16

/-- The registers in `W5500::common_reg_rd`, `regsim/src/lib.rs:675-724`. -/
def CommonRegs.get (r : CommonRegs) : Reg → UInt8
  | .MR => r.mr
  | .GAR0 => r.gar.a
  | .GAR1 => r.gar.b
  | .GAR2 => r.gar.c
  | .GAR3 => r.gar.d
  | .SUBR0 => r.subr.a
  | .SUBR1 => r.subr.b
  | .SUBR2 => r.subr.c
  | .SUBR3 => r.subr.d
  | .SHAR0 => r.shar.a
  | .SHAR1 => r.shar.b
  | .SHAR2 => r.shar.c
  | .SHAR3 => r.shar.d
  | .SHAR4 => r.shar.e
  | .SHAR5 => r.shar.f
  | .SIPR0 => r.sipr.a
  | .SIPR1 => r.sipr.b
  | .SIPR2 => r.sipr.c
  | .SIPR3 => r.sipr.d
  | .INTLEVEL0 => (r.intlevel >>> 8).toUInt8
  | .INTLEVEL1 => r.intlevel.toUInt8
  | .IR => r.ir
  | .IMR => r.imr
  | .SIR => r.sir
  | .SIMR => r.simr
  | .RTR0 => (r.rtr >>> 8).toUInt8
  | .RTR1 => r.rtr.toUInt8
  | .RCR => r.rcr
  | .PTIMER => r.ptimer
  | .PMAGIC => r.pmagic
  | .PHAR0 => r.phar.a
  | .PHAR1 => r.phar.b
  | .PHAR2 => r.phar.c
  | .PHAR3 => r.phar.d
  | .PHAR4 => r.phar.e
  | .PHAR5 => r.phar.f
  | .PSID0 => (r.psid >>> 8).toUInt8
  | .PSID1 => r.psid.toUInt8
  | .PMRU0 => (r.pmru >>> 8).toUInt8
  | .PMRU1 => r.pmru.toUInt8
  | .UIPR0 => r.uipr.a
  | .UIPR1 => r.uipr.b
  | .UIPR2 => r.uipr.c
  | .UIPR3 => r.uipr.d
  | .UPORTR0 => (r.uportr >>> 8).toUInt8
  | .UPORTR1 => r.uportr.toUInt8
  | .PHYCFGR => r.phycfgr
  | .VERSIONR => r.versionr

/-- `W5500::common_reg_rd`, `regsim/src/lib.rs:672-734`. -/
def commonRegRd (r : CommonRegs) (addr : UInt16) : UInt8 :=
  match Reg.tryFrom addr with
  | .ok reg => r.get reg
  | .error _ => 0x00

/-- The registers in `W5500::common_reg_wr` (`MR` without the reset), `regsim/src/lib.rs:740-866`. -/
def CommonRegs.put (r : CommonRegs) (byte : UInt8) : Reg → CommonRegs
  | .MR => { r with mr := byte }
  | .GAR0 => { r with gar.a := byte }
  | .GAR1 => { r with gar.b := byte }
  | .GAR2 => { r with gar.c := byte }
  | .GAR3 => { r with gar.d := byte }
  | .SUBR0 => { r with subr.a := byte }
  | .SUBR1 => { r with subr.b := byte }
  | .SUBR2 => { r with subr.c := byte }
  | .SUBR3 => { r with subr.d := byte }
  | .SHAR0 => { r with shar.a := byte }
  | .SHAR1 => { r with shar.b := byte }
  | .SHAR2 => { r with shar.c := byte }
  | .SHAR3 => { r with shar.d := byte }
  | .SHAR4 => { r with shar.e := byte }
  | .SHAR5 => { r with shar.f := byte }
  | .SIPR0 => { r with sipr.a := byte }
  | .SIPR1 => { r with sipr.b := byte }
  | .SIPR2 => { r with sipr.c := byte }
  | .SIPR3 => { r with sipr.d := byte }
  | .INTLEVEL0 => { r with intlevel := setHi r.intlevel byte }
  | .INTLEVEL1 => { r with intlevel := setLo r.intlevel byte }
  | .IR => { r with ir := byte }
  | .IMR => { r with imr := byte }
  | .SIR => { r with sir := byte }
  | .SIMR => { r with simr := byte }
  | .RTR0 => { r with rtr := setHi r.rtr byte }
  | .RTR1 => { r with rtr := setLo r.rtr byte }
  | .RCR => { r with rcr := byte }
  | .PTIMER => { r with ptimer := byte }
  | .PMAGIC => { r with pmagic := byte }
  | .PHAR0 => { r with phar.a := byte }
  | .PHAR1 => { r with phar.b := byte }
  | .PHAR2 => { r with phar.c := byte }
  | .PHAR3 => { r with phar.d := byte }
  | .PHAR4 => { r with phar.e := byte }
  | .PHAR5 => { r with phar.f := byte }
  | .PSID0 => { r with psid := setHi r.psid byte }
  | .PSID1 => { r with psid := setLo r.psid byte }
  | .PMRU0 => { r with pmru := setHi r.pmru byte }
  | .PMRU1 => { r with pmru := setLo r.pmru byte }
  | .UIPR0 => r
  | .UIPR1 => r
  | .UIPR2 => r
  | .UIPR3 => r
  | .UPORTR0 => r
  | .UPORTR1 => r
  | .PHYCFGR => { r with phycfgr := byte }
  | .VERSIONR => r

/-- `W5500::common_reg_wr`, `regsim/src/lib.rs:736-883`: it returns no error. -/
def commonRegWr (addr : UInt16) (byte : UInt8) : M Sim Unit :=
  match Reg.tryFrom addr with
  | .ok .MR =>
    M.modify fun s =>
      let s := { s with regs := s.regs.put byte .MR }
      if byte &&& Mode.rstMask ≠ 0 then s.reset else s
  | .ok reg => M.modify fun s => { s with regs := s.regs.put byte reg }
  | .error _ => pure ()

/-- The registers in `W5500::socket_reg_rd`, `regsim/src/lib.rs:889-931`. -/
def SocketRegs.get (r : SocketRegs) : SnReg → UInt8
  | .MR => r.mr
  | .CR => r.cr
  | .IR => r.ir.raw
  | .SR => r.sr.code
  | .PORT0 => (r.port >>> 8).toUInt8
  | .PORT1 => r.port.toUInt8
  | .DHAR0 => r.dhar.a
  | .DHAR1 => r.dhar.b
  | .DHAR2 => r.dhar.c
  | .DHAR3 => r.dhar.d
  | .DHAR4 => r.dhar.e
  | .DHAR5 => r.dhar.f
  | .DIPR0 => r.dipr.a
  | .DIPR1 => r.dipr.b
  | .DIPR2 => r.dipr.c
  | .DIPR3 => r.dipr.d
  | .DPORT0 => (r.dport >>> 8).toUInt8
  | .DPORT1 => r.dport.toUInt8
  | .MSSR0 => (r.mssr >>> 8).toUInt8
  | .MSSR1 => r.mssr.toUInt8
  | .TOS => r.tos
  | .TTL => r.ttl
  | .RXBUF_SIZE => r.rxbufSize.code
  | .TXBUF_SIZE => r.txbufSize.code
  | .TX_FSR0 => (r.txFsr >>> 8).toUInt8
  | .TX_FSR1 => r.txFsr.toUInt8
  | .TX_RD0 => (r.txRd >>> 8).toUInt8
  | .TX_RD1 => r.txRd.toUInt8
  | .TX_WR0 => (r.txWr >>> 8).toUInt8
  | .TX_WR1 => r.txWr.toUInt8
  | .RX_RSR0 => (r.rxRsr >>> 8).toUInt8
  | .RX_RSR1 => r.rxRsr.toUInt8
  | .RX_RD0 => (r.rxRd >>> 8).toUInt8
  | .RX_RD1 => r.rxRd.toUInt8
  | .RX_WR0 => (r.rxWr >>> 8).toUInt8
  | .RX_WR1 => r.rxWr.toUInt8
  | .IMR => r.imr
  | .FRAG0 => (r.frag >>> 8).toUInt8
  | .FRAG1 => r.frag.toUInt8
  | .KPALVTR => r.kpalvtr

/-- `W5500::socket_reg_rd`, `regsim/src/lib.rs:885-944`: the value is that before `check_socket`. -/
def socketRegRd (addr : UInt16) (sn : Sn) : M Sim UInt8 :=
  getSocket sn >>= fun k =>
  let ret :=
    match SnReg.tryFrom addr with
    | .ok reg => k.regs.get reg
    | .error _ => 0x00
  (if SnReg.tryFrom addr ≠ .ok .RX_RSR0 then checkSocket sn else pure ()) >>= fun _ =>
  pure ret

/-- The plain registers of `W5500::socket_reg_wr`, `regsim/src/lib.rs:950-1087`: `none` is a `todo!()`.  `CR`, `IR` and the buffer sizes are in
`socketRegWr`. -/
def SocketRegs.put (r : SocketRegs) (byte : UInt8) : SnReg → Option SocketRegs
  | .MR => some { r with mr := byte }
  | .CR => some r
  | .IR => some r
  | .SR => some r
  | .PORT0 => some { r with port := setHi r.port byte }
  | .PORT1 => some { r with port := setLo r.port byte }
  | .DHAR0 => some { r with dhar.a := byte }
  | .DHAR1 => some { r with dhar.b := byte }
  | .DHAR2 => some { r with dhar.c := byte }
  | .DHAR3 => some { r with dhar.d := byte }
  | .DHAR4 => some { r with dhar.e := byte }
  | .DHAR5 => some { r with dhar.f := byte }
  | .DIPR0 => some { r with dipr.a := byte }
  | .DIPR1 => some { r with dipr.b := byte }
  | .DIPR2 => some { r with dipr.c := byte }
  | .DIPR3 => some { r with dipr.d := byte }
  | .DPORT0 => some { r with dport := setHi r.dport byte }
  | .DPORT1 => some { r with dport := setLo r.dport byte }
  | .MSSR0 => none
  | .MSSR1 => none
  | .TOS => none
  | .TTL => some { r with ttl := byte }
  | .RXBUF_SIZE => some r
  | .TXBUF_SIZE => some r
  | .TX_FSR0 => some r
  | .TX_FSR1 => some r
  | .TX_RD0 => some r
  | .TX_RD1 => some r
  | .TX_WR0 => some { r with txWr := setHi r.txWr byte }
  | .TX_WR1 => some { r with txWr := setLo r.txWr byte }
  | .RX_RSR0 => some r
  | .RX_RSR1 => some r
  | .RX_RD0 => some { r with rxRd := setHi r.rxRd byte }
  | .RX_RD1 => some { r with rxRd := setLo r.rxRd byte }
  | .RX_WR0 => none
  | .RX_WR1 => none
  | .IMR => some { r with imr := byte }
  | .FRAG0 => none
  | .FRAG1 => none
  | .KPALVTR => none

/-- One bit in the write of `Sn_IR`, `regsim/src/lib.rs:966-990`. -/
def clearBit (mask byte : UInt8) (ir : UInt8) : UInt8 := if ir &&& mask ≠ 0 ∧ byte &&& mask ≠ 0 then ~~~mask &&& ir else ir

/-- The write of `Sn_IR`, `regsim/src/lib.rs:963-994`. -/
def writeIr (sn : Sn) (byte : UInt8) (s : Sim) : Sim :=
  let k := s.sn sn
  let ir := clearBit SocketInterrupt.conMask byte k.regs.ir.raw
  let ir := clearBit SocketInterrupt.disconMask byte ir
  let ir := clearBit SocketInterrupt.recvMask byte ir
  let ir := clearBit SocketInterrupt.timeoutMask byte ir
  let ir := clearBit SocketInterrupt.sendokMask byte ir
  let s := s.setSocket sn { k with regs := { k.regs with ir := ⟨ir⟩ } }
  if ir &&& k.regs.imr &&& 0x1F = 0 then { s with regs.sir := s.regs.sir &&& ~~~sn.bitmask } else s

/-- `Vec::resize(n, 0)`. -/
def resize (b : Bytes) (n : Nat) : Bytes := b.take n ++ List.replicate (n - b.length) 0

/-- The commands of `W5500::socket_reg_wr`, `regsim/src/lib.rs:954-962`. -/
def socketCmd (dbg : Bool) (sn : Sn) (byte : UInt8) : M Sim Unit :=
  match SocketCommand.tryFrom byte with
  | .ok .open => socketCmdOpen sn
  | .ok .connect => socketCmdConnect sn
  | .ok .close => socketCmdClose sn
  | .ok .send => socketCmdSend dbg sn
  | .ok .recv => socketCmdRecv dbg sn
  | .ok .listen => socketCmdListen sn
  | _ => M.throw .panic

/-- `W5500::socket_reg_wr`, `regsim/src/lib.rs:946-1101`. -/
def socketRegWr (dbg : Bool) (addr : UInt16) (byte : UInt8) (sn : Sn) : M Sim Unit :=
  match SnReg.tryFrom addr with
  | .error _ => pure ()
  | .ok .CR => socketCmd dbg sn byte
  | .ok .IR => M.modify (writeIr sn byte)
  | .ok .RXBUF_SIZE =>
    match BufferSize.tryFrom byte with
    | .ok bs => modSocket sn fun k => { k with rxBuf := resize k.rxBuf bs.sizeInBytes, regs := { k.regs with rxbufSize := bs } }
    | .error _ => M.throw .panic
  | .ok .TXBUF_SIZE =>
    match BufferSize.tryFrom byte with
    | .ok bs => modSocket sn fun k => { k with txBuf := resize k.txBuf bs.sizeInBytes, regs := { k.regs with txbufSize := bs } }
    | .error _ => M.throw .panic
  | .ok reg =>
    getSocket sn >>= fun k =>
    match k.regs.put byte reg with
    | none => M.throw .panic
    | some regs => modRegs sn fun _ => regs

/-- `for byte in data.iter_mut()` with an access to the register at the next address, `regsim/src/lib.rs:1120-1161`. -/
def readEach (f : UInt16 → M Sim UInt8) : Nat → UInt16 → M Sim Bytes
  | 0, _ => pure []
  | n + 1, addr => f addr >>= fun byte => readEach f n (addr + 1) >>= fun rest => pure (byte :: rest)

/-- `for byte in data`, `regsim/src/lib.rs:1167-1204`. -/
def writeEach (f : UInt16 → UInt8 → M Sim Unit) : UInt16 → Bytes → M Sim Unit
  | _, [] => pure ()
  | addr, byte :: rest => f addr byte >>= fun _ => writeEach f (addr + 1) rest

/-- The access to a byte of a socket buffer, `regsim/src/lib.rs:1139-1147`. -/
def bufRd (buf : Bytes) (addr : UInt16) : M Sim UInt8 :=
  if buf.length = 0 then M.throw .panic else pure (buf.getD (addr.toNat % buf.length) 0)

/-- The change of a byte of a socket buffer, `regsim/src/lib.rs:1185-1192`. -/
def bufWr (buf : Bytes) (addr : UInt16) (byte : UInt8) : M Sim Bytes :=
  if buf.length = 0 then M.throw .panic else pure (buf.set (addr.toNat % buf.length) byte)

/-- `Registers::read`, `regsim/src/lib.rs:1118-1163`. -/
def read (addr : UInt16) (block : UInt8) (n : Nat) : M Sim Bytes :=
  match blockType block with
  | none => M.throw .panic
  | some .common => readEach (fun addr => M.get >>= fun s => pure (commonRegRd s.regs addr)) n addr
  | some (.socket sn) => readEach (fun addr => socketRegRd addr sn) n addr
  | some (.rx sn) => readEach (fun addr => getSocket sn >>= fun k => bufRd k.rxBuf addr) n addr
  | some (.tx sn) => readEach (fun addr => getSocket sn >>= fun k => bufRd k.txBuf addr) n addr

/-- `Registers::write`, `regsim/src/lib.rs:1166-1207`. -/
def write (dbg : Bool) (addr : UInt16) (block : UInt8) (data : Bytes) : M Sim Unit :=
  match blockType block with
  | none => M.throw .panic
  | some .common => writeEach commonRegWr addr data
  | some (.socket sn) => writeEach (fun addr byte => socketRegWr dbg addr byte sn) addr data
  | some (.rx sn) => writeEach (fun addr byte => getSocket sn >>= fun k => bufWr k.rxBuf addr byte >>= fun b =>
      modSocket sn fun k => { k with rxBuf := b }) addr data
  | some (.tx sn) => writeEach (fun addr byte => getSocket sn >>= fun k => bufWr k.txBuf addr byte >>= fun b =>
      modSocket sn fun k => { k with txBuf := b }) addr data

/-- The simulator as a bus for the drivers: `impl Registers for W5500`, `regsim/src/lib.rs:1115-1208`. -/
def simBus (dbg : Bool) : Bus Sim where
  read addr block n := read addr block n >>= fun bytes => pure (Vector.ofFn fun i : Fin n => bytes.getD i.val 0)
  write addr block bytes := write dbg addr block bytes

end Verif.Sim

import Verif.Model.Hl.Prog
import Verif.Model.Hl.Hostname
import Verif.Model.Rand
/-!
# `dhcp/src`: the DHCP client
-/
namespace Verif.Dhcp
open Verif.Hl
variable {σ : Type}

/-! ## Messages, `dhcp/src/pkt.rs` -/

/-- The discriminants of `enum Options` that the code uses, `dhcp/src/pkt.rs:12-38`. -/
def optSubnetMask : UInt8 := 1
/-- `Options::Router`, `dhcp/src/pkt.rs:16`. -/
def optRouter : UInt8 := 3
/-- `Options::Dns`, `dhcp/src/pkt.rs:19`. -/
def optDns : UInt8 := 6
/-- `Options::Hostname`, `dhcp/src/pkt.rs:20`. -/
def optHostname : UInt8 := 12
/-- `Options::Ntp`, `dhcp/src/pkt.rs:22`. -/
def optNtp : UInt8 := 42
/-- `Options::RequestedIp`, `dhcp/src/pkt.rs:26`. -/
def optRequestedIp : UInt8 := 50
/-- `Options::LeaseTime`, `dhcp/src/pkt.rs:27`. -/
def optLeaseTime : UInt8 := 51
/-- `Options::MessageType`, `dhcp/src/pkt.rs:28`. -/
def optMessageType : UInt8 := 53
/-- `Options::ServerId`, `dhcp/src/pkt.rs:29`. -/
def optServerId : UInt8 := 54
/-- `Options::ParameterRequest`, `dhcp/src/pkt.rs:30`. -/
def optParameterRequest : UInt8 := 55
/-- `Options::RenewalTime`, `dhcp/src/pkt.rs:31`. -/
def optRenewalTime : UInt8 := 58
/-- `Options::RebindingTime`, `dhcp/src/pkt.rs:32`. -/
def optRebindingTime : UInt8 := 59
/-- `Options::ClientId`, `dhcp/src/pkt.rs:36`. -/
def optClientId : UInt8 := 61
/-- `Options::End`, `dhcp/src/pkt.rs:37`. -/
def optEnd : UInt8 := 255

/-- `enum MsgType`, `dhcp/src/pkt.rs:51-68`. -/
inductive MsgType where
  | discover | offer | request | decline | ack | nak | release | inform
  deriving DecidableEq, Repr

/-- `From<MsgType> for u8`, `dhcp/src/pkt.rs:70-74`. -/
def MsgType.code : MsgType → UInt8
  | .discover => 1 | .offer => 2 | .request => 3 | .decline => 4 | .ack => 5 | .nak => 6 | .release => 7 | .inform => 8

/-- `TryFrom<u8> for MsgType`, `dhcp/src/pkt.rs:76-92`. -/
def MsgType.tryFrom (v : UInt8) : Except UInt8 MsgType :=
  if v = 1 then .ok .discover else if v = 2 then .ok .offer else if v = 3 then .ok .request
  else if v = 4 then .ok .decline else if v = 5 then .ok .ack else if v = 6 then .ok .nak
  else if v = 7 then .ok .release else if v = 8 then .ok .inform else .error v

/-- A field setter: seek to its offset and write it. -/
def setAt (off : UInt16) (bs : Bytes) : WProg Unit := do
  .doSeek (.start off)
  .doWriteAll bs

/-- `PktSer::set_chaddr`, `dhcp/src/pkt.rs:239-244`. -/
def setChaddr (mac : Eui48) : WProg Unit := do
  setAt 28 mac.octets
  .doWriteAll (List.replicate 10 0)

/-- `PktSer::set_file_zero`, `dhcp/src/pkt.rs:254-261`. -/
def setFileZero : WProg Unit := do
  setAt 108 (List.replicate 64 0)
  .doWriteAll (List.replicate 64 0)

/-- `PktSer::prepare_message`, `dhcp/src/pkt.rs:142-161`, with the setters of `:164-272` inlined
(`set_op` to `set_giaddr`, `set_sname_zero`, `set_magic_cookie` are `setAt`). -/
def prepareMessage (mac : Eui48) (xid : UInt32) : WProg Unit := do
  setAt 0 [1]
  setAt 1 [1]
  setAt 2 [6]
  setAt 3 [0]
  setAt 4 (toBe32 xid)
  setAt 8 (toBe16 0)
  setAt 10 [(1 : UInt8) <<< 7, 0]
  setAt 12 Ipv4.unspecified.octets
  setAt 16 Ipv4.unspecified.octets
  setAt 20 Ipv4.unspecified.octets
  setAt 24 Ipv4.unspecified.octets
  setChaddr mac
  setAt 44 (List.replicate 64 0)
  setFileZero
  setAt 236 [0x63, 0x82, 0x53, 0x63]
  .doSeek (.start 240)

/-- `PktSer::set_option_msg_type`, `dhcp/src/pkt.rs:274-277`. -/
def setOptionMsgType (t : MsgType) : WProg Unit := .doWriteAll [optMessageType, 1, t.code]

/-- `PktSer::set_option_client_id`, `dhcp/src/pkt.rs:279-286`. -/
def setOptionClientId (mac : Eui48) : WProg Unit := do
  .doWriteAll [optClientId, 7, 1]
  .doWriteAll mac.octets

/-- `PktSer::set_option_hostname`, `dhcp/src/pkt.rs:288-293`. -/
def setOptionHostname (hostname : Bytes) : WProg Unit := do
  .doWriteAll [optHostname, hostnameLen hostname]
  .doWriteAll hostname

/-- `PktSer::set_option_parameter_request`, `dhcp/src/pkt.rs:295-306`. -/
def setOptionParameterRequest : WProg Unit :=
  .doWriteAll [optParameterRequest, 6, optSubnetMask, optRouter, optDns, optRenewalTime, optRebindingTime, optNtp]

/-- `PktSer::set_option_requested_ip`, `dhcp/src/pkt.rs:308-311`. -/
def setOptionRequestedIp (ip : Ipv4) : WProg Unit := do
  .doWriteAll [optRequestedIp, 4]
  .doWriteAll ip.octets

/-- `PktSer::set_option_server_id`, `dhcp/src/pkt.rs:313-316`. -/
def setOptionServerId (ip : Ipv4) : WProg Unit := do
  .doWriteAll [optServerId, 4]
  .doWriteAll ip.octets

/-- `if let Some(server_id) = server_id_option { … }`, `dhcp/src/pkt.rs:352-354`. -/
def setOptionServerIdOpt : Option Ipv4 → WProg Unit
  | some ip => setOptionServerId ip
  | none => pure ()

/-- `PktSer::set_option_end`, `dhcp/src/pkt.rs:318-320`. -/
def setOptionEnd : WProg Unit := .doWriteAll [optEnd]

/-- `PktSer::dhcp_discover`, `dhcp/src/pkt.rs:323-335`. -/
def dhcpDiscover (mac : Eui48) (hostname : Bytes) (xid : UInt32) : WProg Unit := do
  prepareMessage mac xid
  setOptionMsgType .discover
  setOptionClientId mac
  setOptionHostname hostname
  setOptionEnd

/-- `PktSer::dhcp_request`, `dhcp/src/pkt.rs:338-357`. -/
def dhcpRequest (mac : Eui48) (ip : Ipv4) (hostname : Bytes) (serverId : Option Ipv4) (xid : UInt32) : WProg Unit := do
  prepareMessage mac xid
  setOptionMsgType .request
  setOptionClientId mac
  setOptionHostname hostname
  setOptionParameterRequest
  setOptionRequestedIp ip
  setOptionServerIdOpt serverId
  setOptionEnd

/-- `send_dhcp_discover`, `dhcp/src/pkt.rs:360-373`. -/
def sendDhcpDiscover (dbg : Bool) (b : Bus σ) (sn : Sn) (mac : Eui48) (hostname : Bytes) (xid : UInt32)
    (broadcastAddr : SockAddr) : M σ Unit := do
  let w ← socketWriter b sn
  let (_, w) ← onWriter b w (dhcpDiscover mac hostname xid)
  udpWriterSendTo dbg b w broadcastAddr

/-- `send_dhcp_request`, `dhcp/src/pkt.rs:375-389`. -/
def sendDhcpRequest (b : Bus σ) (sn : Sn) (mac : Eui48) (ip : Ipv4) (hostname : Bytes) (serverId : Option Ipv4)
    (xid : UInt32) : M σ Unit := do
  let w ← socketWriter b sn
  let (_, w) ← onWriter b w (dhcpRequest mac ip hostname serverId xid)
  writerSend b w

/-- `struct OptionLocation`, `dhcp/src/pkt.rs:391-396`. -/
structure Loc where
  option : UInt8
  ptr : UInt16
  len : UInt8
  deriving DecidableEq

/-- `option_location_cache: [OptionLocation; 9]`, `dhcp/src/pkt.rs:409`. -/
abbrev Cache := List Loc

/-- `[OptionLocation::DEFAULT; 9]`, `dhcp/src/pkt.rs:398-404,416`. -/
def Cache.empty : Cache := List.replicate 9 ⟨0, 0, 0⟩

/-- `PktDe::option_location_cache_insert`, `dhcp/src/pkt.rs:447-459`: the first empty entry is replaced. -/
def Cache.insert (new : Loc) : Cache → Cache
  | [] => []
  | l :: ls => if l.option = 0 then new :: ls else l :: Cache.insert new ls

/-- `PktDe::is_bootreply`, `dhcp/src/pkt.rs:423-428`.  (As written it is true of a BOOT*REQUEST*; its only
caller treats `true` as "not a reply".) -/
def isBootreply : RProg Bool := do
  .doSeek (.start 0)
  let x ← .doReadExact 1
  pure (decide (x = [1]))

/-- The four bytes read by `xid`, `yiaddr` and the options. -/
def quad : Bytes → Ipv4
  | [a, b, c, d] => ⟨a, b, c, d⟩
  | _ => ⟨0, 0, 0, 0⟩ -- unreachable: the argument is `[u8; 4]`

/-- `u32::from_be_bytes` of four bytes. -/
def quadU32 (x : Ipv4) : UInt32 := be32 x.a x.b x.c x.d

/-- `PktDe::xid`, `dhcp/src/pkt.rs:430-435`. -/
def pktXid : RProg UInt32 := do
  .doSeek (.start 4)
  let x ← .doReadExact 4
  pure (quadU32 (quad x))

/-- `PktDe::yiaddr`, `dhcp/src/pkt.rs:440-445`. -/
def pktYiaddr : RProg Ipv4 := do
  .doSeek (.start 16)
  let x ← .doReadExact 4
  pure (quad x)

/-- Checking the cache, `dhcp/src/pkt.rs:465-478`: the location of the option if it is cached, otherwise
where the unknown options start.  `location.ptr + location.len` overflows only beyond 65535 (a panic in
a debug build; the model panics in any build). -/
def cacheFind (option : UInt8) : Cache → UInt16 → Except Err (Except UInt16 Loc)
  | [], start => .ok (.error start)
  | l :: ls, start =>
    if l.option ≠ 0 then
      if l.option = option then .ok (.ok l)
      else if l.ptr.toNat + l.len.toNat ≤ 65535 then cacheFind option ls (l.ptr + l.len.toUInt16)
      else .error .panic
    else .ok (.error start)

/-- The loop of `seek_to_option`, `dhcp/src/pkt.rs:484-510`.  It runs at most `fuel` times. -/
def seekLoop (option : UInt8) : (fuel : Nat) → Cache → RProg (Option UInt8 × Cache)
  | 0, _ => .throw .hang
  | fuel + 1, cache =>
    RProg.doRead 2 >>= fun x =>
      match x with
      | [byte, len] =>
        if byte = 0xFF then pure (none, cache)
        else if byte = 0 then
          if len = 0 then seekLoop option fuel cache
          else RProg.doSeek (.current (-1)) >>= fun _ => seekLoop option fuel cache
        else if byte = option then
          RProg.doStreamPosition >>= fun pos => pure (some len, cache.insert ⟨byte, pos, len⟩)
        else
          RProg.doStreamPosition >>= fun pos =>
          RProg.doSeek (.current len.toUInt16.toInt16) >>= fun _ =>
            seekLoop option fuel (cache.insert ⟨byte, pos, len⟩)
      | _ => pure (none, cache)

/-- `PktDe::seek_to_option`, `dhcp/src/pkt.rs:462-511`.  Returns the length and the updated cache.  An
iteration of the loop consumes at least one byte and a reader has at most 65535 of them, so the limit on
the iterations is never reached (`C33` proves it). -/
def seekToOption (option : UInt8) (cache : Cache) : RProg (Option UInt8 × Cache) :=
  match cacheFind option cache 240 with
  | .error e => .throw e
  | .ok (.ok l) => RProg.doSeek (.start l.ptr) >>= fun _ => pure (some l.len, cache)
  | .ok (.error start) => RProg.doSeek (.start start) >>= fun _ => seekLoop option 65536 cache

/-- `PktDe::find_option_fixed_size`, `dhcp/src/pkt.rs:513-532`; `n` is `N`. -/
def findOptionFixedSize (n : Nat) (option : UInt8) (cache : Cache) : RProg (Option Bytes × Cache) :=
  seekToOption option cache >>= fun r =>
    match r.1 with
    | none => pure (none, r.2)
    | some len =>
      if len.toNat ≠ n then pure (none, r.2)
      else RProg.doReadExact n >>= fun x => pure (some x, r.2)

/-- `PktDe::find_option_u32`, `dhcp/src/pkt.rs:534-539`. -/
def findOptionU32 (option : UInt8) (cache : Cache) : RProg (Option UInt32 × Cache) :=
  findOptionFixedSize 4 option cache >>= fun r => pure (r.1.map fun x => quadU32 (quad x), r.2)

/-- `PktDe::find_option_ipv4`, `dhcp/src/pkt.rs:541-546`. -/
def findOptionIpv4 (option : UInt8) (cache : Cache) : RProg (Option Ipv4 × Cache) :=
  findOptionFixedSize 4 option cache >>= fun r => pure (r.1.map quad, r.2)

/-- `PktDe::find_option_ipv4_list`, `dhcp/src/pkt.rs:549-568`. -/
def findOptionIpv4List (option : UInt8) (cache : Cache) : RProg (Option Ipv4 × Cache) :=
  seekToOption option cache >>= fun r =>
    match r.1 with
    | none => pure (none, r.2)
    | some len =>
      if len.toNat % 4 ≠ 0 ∨ len.toNat < 4 then pure (none, r.2)
      else RProg.doReadExact 4 >>= fun x => pure (some (quad x), r.2)

/-- `PktDe::subnet_mask`, `dhcp/src/pkt.rs:571-573`. -/
def subnetMask : Cache → RProg (Option Ipv4 × Cache) := findOptionIpv4 optSubnetMask
/-- `PktDe::dns`, `dhcp/src/pkt.rs:576-578`. -/
def pktDns : Cache → RProg (Option Ipv4 × Cache) := findOptionIpv4List optDns
/-- `PktDe::ntp`, `dhcp/src/pkt.rs:581-583`. -/
def pktNtp : Cache → RProg (Option Ipv4 × Cache) := findOptionIpv4List optNtp
/-- `PktDe::lease_time`, `dhcp/src/pkt.rs:586-588`. -/
def leaseTime : Cache → RProg (Option UInt32 × Cache) := findOptionU32 optLeaseTime
/-- `PktDe::msg_type`, `dhcp/src/pkt.rs:591-603`. -/
def msgType (cache : Cache) : RProg (Option MsgType × Cache) :=
  findOptionFixedSize 1 optMessageType cache >>= fun r =>
    pure (r.1.bind fun x => match x with
      | [v] => (MsgType.tryFrom v).toOption
      | _ => none, r.2) -- unreachable: one byte was read
/-- `PktDe::dhcp_server`, `dhcp/src/pkt.rs:606-608`. -/
def dhcpServer : Cache → RProg (Option Ipv4 × Cache) := findOptionIpv4List optServerId
/-- `PktDe::rebinding_time`, `dhcp/src/pkt.rs:611-613`. -/
def rebindingTime : Cache → RProg (Option UInt32 × Cache) := findOptionU32 optRebindingTime
/-- `PktDe::renewal_time`, `dhcp/src/pkt.rs:616-618`. -/
def renewalTime : Cache → RProg (Option UInt32 × Cache) := findOptionU32 optRenewalTime

/-! ## The client, `dhcp/src/lib.rs` -/

/-- `enum State`, `dhcp/src/lib.rs:59-72`. -/
inductive State where
  | init | selecting | requesting | bound | renewing | rebinding
  deriving DecidableEq, Repr

/-- `struct Client`, `dhcp/src/lib.rs:113-150`. -/
structure Client where
  sn : Sn
  state : State
  stateTimeout : Option UInt32
  timeout : UInt32
  t1 : UInt32
  t2 : UInt32
  lease : UInt32
  leaseSecs : UInt32
  serverId : Option Ipv4
  xid : UInt32
  rand : Rand
  mac : Eui48
  ip : Ipv4
  hostname : Bytes
  dns : Option Ipv4
  ntp : Option Ipv4
  broadcastAddr : SockAddr
  srcPort : UInt16
  deriving DecidableEq

/-- `Client::new`, `dhcp/src/lib.rs:176-199`. -/
def Client.new (sn : Sn) (seed : UInt64) (mac : Eui48) (hostname : Bytes) : Client :=
  { sn := sn, state := .init, stateTimeout := none, timeout := 5, t1 := 0, t2 := 0, lease := 0, leaseSecs := 0
    serverId := none, xid := (Rand.nextU32 ⟨seed⟩).1, rand := (Rand.nextU32 ⟨seed⟩).2, mac := mac
    ip := .unspecified, hostname := hostname, dns := none, ntp := none
    broadcastAddr := ⟨.broadcast, 67⟩, srcPort := 68 }

/-- `Client::set_timeout_secs`, `dhcp/src/lib.rs:228-230`. -/
def Client.setTimeoutSecs (c : Client) (secs : UInt32) : Client := { c with timeout := secs }

/-- `Client::has_lease`, `dhcp/src/lib.rs:255-260`. -/
def Client.hasLease (c : Client) : Bool :=
  match c.state with
  | .bound | .rebinding | .renewing => true
  | _ => false

/-- `Client::leased_ip`, `dhcp/src/lib.rs:312-318`. -/
def Client.leasedIp (c : Client) : Option Ipv4 := if c.hasLease then some c.ip else none

/-- `Client::dns`, `dhcp/src/lib.rs:327-329`. -/
def Client.dnsServer (c : Client) : Option Ipv4 := c.dns

/-- `Client::ntp`, `dhcp/src/lib.rs:338-340`. -/
def Client.ntpServer (c : Client) : Option Ipv4 := c.ntp

/-- `Client::t1`, `dhcp/src/lib.rs:647-652`. -/
def Client.t1Time (c : Client) : Option UInt32 :=
  match c.state with
  | .init | .selecting | .requesting => none
  | .bound | .renewing | .rebinding => some c.t1

/-- `Client::t2`, `dhcp/src/lib.rs:662-667`. -/
def Client.t2Time (c : Client) : Option UInt32 :=
  match c.state with
  | .init | .selecting | .requesting => none
  | .bound | .renewing | .rebinding => some c.t2

/-- `Client::lease_time`, `dhcp/src/lib.rs:677-682`. -/
def Client.leaseTime (c : Client) : Option UInt32 :=
  match c.state with
  | .init | .selecting | .requesting => none
  | .bound | .renewing | .rebinding => some c.lease

/-- `Client::set_src_port`, `dhcp/src/lib.rs:617-619`. -/
def Client.setSrcPort (port : UInt16) (c : Client) : Client := { c with srcPort := port }

/-- `Client::set_broadcast_addr`, `dhcp/src/lib.rs:628-630`. -/
def Client.setBroadcastAddr (addr : SockAddr) (c : Client) : Client := { c with broadcastAddr := addr }

/-- `Client::setup_socket`, `dhcp/src/lib.rs:268-276`. -/
def setupSocket (dbg : Bool) (fuel : Nat) (b : Bus σ) (c : Client) : M σ Unit := do
  let simr ← b.simr
  b.setSimr (c.sn.bitmask ||| simr)
  b.setSnImr c.sn SocketInterruptMask.allMasked.unmaskRecv
  close b c.sn
  b.setSipr c.ip
  udpBind dbg fuel b c.sn c.srcPort

/-- `Client::timeout_elapsed_secs`, `dhcp/src/lib.rs:278-280`.  `monotonic_secs - to` panics in a debug
build if the clock went backwards. -/
def Client.timeoutElapsed (dbg : Bool) (c : Client) (secs : UInt32) : Except Err (Option UInt32) :=
  match c.stateTimeout with
  | none => .ok none
  | some to => if dbg ∧ secs < to then .error .panic else .ok (some (secs - to))

/-- `u32::saturating_sub`. -/
def satSub (a b : UInt32) : UInt32 := if a < b then 0 else a - b

/-- `u32::saturating_mul(7)`. -/
def satMul7 (a : UInt32) : UInt32 := if a.toNat * 7 < 4294967296 then a * 7 else 0xFFFFFFFF

/-- The `else` branch of `Client::next_call`, `dhcp/src/lib.rs:286-292`. -/
def Client.nextLeaseCall (c : Client) (secs : UInt32) : UInt32 :=
  match c.state with
  | .bound => satSub c.t1 (satSub secs c.leaseSecs)
  | .renewing => satSub c.t2 (satSub secs c.leaseSecs)
  | _ => satSub c.lease (satSub secs c.leaseSecs)

/-- `Client::next_call`, `dhcp/src/lib.rs:282-294`. -/
def Client.nextCall (dbg : Bool) (c : Client) (secs : UInt32) : Except Err UInt32 :=
  match c.timeoutElapsed dbg secs with
  | .error e => .error e
  | .ok (some elapsed) => .ok (satSub c.timeout elapsed)
  | .ok none => .ok (c.nextLeaseCall secs)

/-- Use the device. -/
def onBus {α : Type} (m : M σ α) : M (σ × Client) α := fun s => ((m s.1).1, ((m s.1).2, s.2))
/-- Change the client. -/
def modC (f : Client → Client) : M (σ × Client) Unit := fun s => (.ok (), (s.1, f s.2))
/-- Look at the client. -/
def getC : M (σ × Client) Client := fun s => (.ok s.2, s)

/-- `Client::set_state_with_timeout`, `dhcp/src/lib.rs:296-303`. -/
def Client.setStateWithTimeout (state : State) (secs : UInt32) (c : Client) : Client :=
  { c with state := state, stateTimeout := some secs }
/-- `Client::set_state`, `dhcp/src/lib.rs:305-309`. -/
def Client.setState (state : State) (c : Client) : Client := { c with state := state, stateTimeout := none }

/-- `Client::discover`, `dhcp/src/lib.rs:571-593`. -/
def discover (dbg : Bool) (fuel : Nat) (b : Bus σ) (secs : UInt32) : M (σ × Client) Unit :=
  modC (fun c => { c with ip := .unspecified, xid := c.rand.nextU32.1, rand := c.rand.nextU32.2 }) >>= fun _ =>
  getC >>= fun c =>
  onBus (b.setSipr c.ip) >>= fun _ =>
  onBus (udpBind dbg fuel b c.sn c.srcPort) >>= fun _ =>
  onBus (sendDhcpDiscover dbg b c.sn c.mac c.hostname c.xid c.broadcastAddr) >>= fun _ =>
  modC (Client.setStateWithTimeout .selecting secs)

/-- `Client::request`, `dhcp/src/lib.rs:595-608`. -/
def request (b : Bus σ) : M (σ × Client) Unit :=
  modC (fun c => { c with xid := c.rand.nextU32.1, rand := c.rand.nextU32.2 }) >>= fun _ =>
  getC >>= fun c =>
  onBus (sendDhcpRequest b c.sn c.mac c.ip c.hostname c.serverId c.xid)

/-- The checks of `recv` in `Client::process` that read the packet, `dhcp/src/lib.rs:410-419`. -/
def checkProg (xid : UInt32) : RProg Bool :=
  isBootreply >>= fun bad =>
    if bad then pure false
    else pktXid >>= fun x => pure (decide (x = xid))

/-- `recv` in `Client::process` after the reader was made, `dhcp/src/lib.rs:397-421`. -/
def recvCheck (b : Bus σ) (u : UdpReader) (xid : UInt32) : M σ (Option UdpReader) :=
  if u.header.len > u.inner.streamLen then pure none
  else onUdpReader b u (checkProg xid) >>= fun r => pure (if r.1 then some r.2 else none)

/-- `recv` in `Client::process`, `dhcp/src/lib.rs:382-422`. -/
def recv (dbg : Bool) (b : Bus σ) (sn : Sn) (xid : UInt32) : M σ (Option UdpReader) := fun s =>
  match udpReader dbg b sn s with
  | (.ok u, s') => recvCheck b u xid s'
  | (.error .wouldBlock, s') => (.ok none, s')
  | (.error e, s') => (.error e, s')

/-- The state `Selecting`, `dhcp/src/lib.rs:427-433`. -/
def onOffer (b : Bus σ) (secs : UInt32) (u : UdpReader) : M (σ × Client) Unit :=
  onBus (onUdpReader b u pktYiaddr) >>= fun r1 =>
  modC (fun c => { c with ip := r1.1 }) >>= fun _ =>
  onBus (onUdpReader b r1.2 (dhcpServer .empty)) >>= fun r2 =>
  modC (fun c => { c with serverId := r2.1.1 }) >>= fun _ =>
  onBus (udpReaderDone b r2.2) >>= fun _ =>
  request b >>= fun _ =>
  modC (Client.setStateWithTimeout .requesting secs)

/-- What is read from an ACK before anything is changed. -/
structure AckOpts where
  mask : Option Ipv4
  gateway : Option Ipv4
  dns : Option Ipv4
  ntp : Option Ipv4
  deriving DecidableEq

/-- Reading the first options of an ACK, `dhcp/src/lib.rs:437-440`. -/
def ackOptsProg (cache : Cache) : RProg (AckOpts × Cache) := do
  let (mask, cache) ← subnetMask cache
  let (gateway, cache) ← dhcpServer cache
  let (dns, cache) ← pktDns cache
  let (ntp, cache) ← pktNtp cache
  pure (⟨mask, gateway, dns, ntp⟩, cache)

/-- Reading the times of an ACK that has a lease time, `dhcp/src/lib.rs:450-459`. -/
def ackTimesProg (lease : UInt32) (cache : Cache) : RProg (UInt32 × UInt32) := do
  let (t1, cache) ← renewalTime cache
  let (t2, _) ← rebindingTime cache
  pure (t1.getD (lease / 2), t2.getD (satMul7 lease / 8))

/-- Everything read from an ACK, `dhcp/src/lib.rs:437-459`; the times are `none` if the lease time is
missing. -/
def ackProg (cache : Cache) : RProg (AckOpts × Option (UInt32 × UInt32 × UInt32)) := do
  let (o, cache) ← ackOptsProg cache
  let (l, cache) ← leaseTime cache
  match l with
  | none => pure (o, none)
  | some lease => do
    let (t1, t2) ← ackTimesProg lease cache
    pure (o, some (lease, t1, t2))

/-- The new timers, `dhcp/src/lib.rs:461-465`. -/
def Client.setTimers (lease t1 t2 secs : UInt32) (c : Client) : Client :=
  { c with t1 := satSub t1 (t1 / 8), t2 := satSub t2 (t2 / 8), lease := satSub lease (lease / 8), leaseSecs := secs }

/-- The end of the ACK branch, `dhcp/src/lib.rs:493-510`. -/
def ackBound (b : Bus σ) (o : AckOpts) : M (σ × Client) Unit :=
  getC >>= fun c =>
  (if c.state = .requesting then onBus (b.setSipr c.ip) else pure ()) >>= fun _ =>
  modC (fun c => { c with dns := o.dns.or c.dns, ntp := o.ntp.or c.ntp }) >>= fun _ =>
  modC (Client.setState .bound)

/-- Configuring the gateway, `dhcp/src/lib.rs:481-491`, and the rest.  `some n` is `return Ok(n)`. -/
def ackGateway (dbg : Bool) (b : Bus σ) (secs : UInt32) (o : AckOpts) : M (σ × Client) (Option UInt32) :=
  getC >>= fun c =>
  match o.gateway with
  | some g => onBus (b.setGar g) >>= fun _ => ackBound b o >>= fun _ => pure none
  | none =>
    if c.state = .renewing then ackBound b o >>= fun _ => pure none
    else M.ofExcept ((c.nextCall dbg secs).map some)

/-- Configuring the subnet mask, `dhcp/src/lib.rs:469-479`, and the rest. -/
def ackMask (dbg : Bool) (b : Bus σ) (secs : UInt32) (o : AckOpts) : M (σ × Client) (Option UInt32) :=
  getC >>= fun c =>
  match o.mask with
  | some m => onBus (b.setSubr m) >>= fun _ => ackGateway dbg b secs o
  | none =>
    if c.state = .renewing then ackGateway dbg b secs o
    else M.ofExcept ((c.nextCall dbg secs).map some)

/-- The ACK branch, `dhcp/src/lib.rs:436-510`.  `some n` is `return Ok(n)`.  (The options are read before
anything else happens, so they are read in one go.) -/
def onAck (dbg : Bool) (b : Bus σ) (secs : UInt32) (u : UdpReader) (cache : Cache) : M (σ × Client) (Option UInt32) :=
  onBus (onUdpReader b u (ackProg cache)) >>= fun r =>
  match r.1.2 with
  | none => getC >>= fun c => M.ofExcept ((c.nextCall dbg secs).map some)
  | some (lease, t1, t2) =>
    modC (Client.setTimers lease t1 t2 secs) >>= fun _ =>
    onBus (udpReaderDone b r.2) >>= fun _ =>
    ackMask dbg b secs r.1.1

/-- The states `Requesting`, `Renewing` and `Rebinding`, `dhcp/src/lib.rs:434-524`. -/
def onReply (dbg : Bool) (fuel : Nat) (b : Bus σ) (secs : UInt32) (u : UdpReader) : M (σ × Client) (Option UInt32) :=
  onBus (onUdpReader b u (msgType .empty)) >>= fun r =>
  match r.1.1 with
  | some .ack => onAck dbg b secs r.2 r.1.2
  | some .nak =>
    onBus (udpReaderDone b r.2) >>= fun _ => discover dbg fuel b secs >>= fun _ => pure none
  | _ => onBus (udpReaderDone b r.2) >>= fun _ => pure none

/-- The body of the loop in `Client::process`, `dhcp/src/lib.rs:425-530`. -/
def handle (dbg : Bool) (fuel : Nat) (b : Bus σ) (secs : UInt32) (u : UdpReader) : M (σ × Client) (Option UInt32) :=
  getC >>= fun c =>
  match c.state with
  | .selecting => onOffer b secs u >>= fun _ => pure none
  | .requesting | .renewing | .rebinding => onReply dbg fuel b secs u
  | _ => onBus (udpReaderDone b u) >>= fun _ => pure none

/-- The loop in `Client::process`, `dhcp/src/lib.rs:424-531`.  `some n` is `return Ok(n)`.  The model
handles at most `n` packets in one call; a peer that sends packets forever would keep it busy. -/
def packets (dbg : Bool) (fuel : Nat) (b : Bus σ) (secs : UInt32) : Nat → M (σ × Client) (Option UInt32)
  | 0 => M.throw .hang
  | n + 1 =>
    getC >>= fun c =>
    onBus (recv dbg b c.sn c.xid) >>= fun r =>
    match r with
    | none => pure none
    | some u =>
      handle dbg fuel b secs u >>= fun x =>
      match x with
      | some v => pure (some v)
      | none => packets dbg fuel b secs n

/-- The timers of a lease, `dhcp/src/lib.rs:546-564`. -/
def leaseTimers (dbg : Bool) (fuel : Nat) (b : Bus σ) (secs : UInt32) : M (σ × Client) Unit :=
  getC >>= fun c =>
  let elapsed := secs - c.leaseSecs
  if elapsed > c.lease then discover dbg fuel b secs
  else if elapsed > c.t2 ∧ (c.state = .bound ∨ c.state = .renewing) then
    request b >>= fun _ => modC (Client.setState .rebinding)
  else if elapsed > c.t1 ∧ c.state = .bound then
    request b >>= fun _ => modC (Client.setState .renewing)
  else pure ()

/-- The timers, `dhcp/src/lib.rs:533-566`. -/
def timers (dbg : Bool) (fuel : Nat) (b : Bus σ) (secs : UInt32) : M (σ × Client) Unit :=
  getC >>= fun c =>
  M.ofExcept (c.timeoutElapsed dbg secs) >>= fun e =>
  match e with
  | some elapsed => if elapsed > c.timeout then discover dbg fuel b secs else pure ()
  | none =>
    match c.state with
    | .init => discover dbg fuel b secs
    | .selecting | .requesting => pure ()
    | _ => leaseTimers dbg fuel b secs

/-- Clearing the interrupts, `dhcp/src/lib.rs:369-372`. -/
def clearIr (b : Bus σ) (sn : Sn) : M σ Unit := do
  let ir ← b.snIr sn
  if ir.anyRaised then b.setSnIr sn ir.raw else pure ()

/-- The check of the link in state `Init`, `dhcp/src/lib.rs:374-380`: true if it is down. -/
def linkDown (b : Bus σ) (c : Client) : M σ Bool :=
  if c.state = .init then do
    let phy ← b.phycfgr
    pure (decide (phy.lnk ≠ .up))
  else pure false

/-- `Client::process`, `dhcp/src/lib.rs:364-569`; `fuel` bounds the polls of the socket status when binding
and `n` the packets handled. -/
def process (dbg : Bool) (fuel n : Nat) (b : Bus σ) (secs : UInt32) : M (σ × Client) UInt32 :=
  getC >>= fun c =>
  onBus (clearIr b c.sn) >>= fun _ =>
  onBus (linkDown b c) >>= fun down =>
  if down then pure 1
  else
    packets dbg fuel b secs n >>= fun r =>
    match r with
    | some v => pure v
    | none =>
      timers dbg fuel b secs >>= fun _ =>
      getC >>= fun c => M.ofExcept (c.nextCall dbg secs)

end Verif.Dhcp

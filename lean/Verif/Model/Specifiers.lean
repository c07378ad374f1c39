import Verif.Model.Basic
/-!
# Register value enumerations (`ll/src/specifiers.rs`)
-/
namespace Verif

/-- `enum SocketStatus`, `ll/src/specifiers.rs:11-144`. -/
inductive SocketStatus where
  | closed
  | init
  | listen
  | synSent
  | synRecv
  | established
  | finWait
  | closing
  | timeWait
  | closeWait
  | lastAck
  | udp
  | macraw
  deriving DecidableEq, Repr, Inhabited

/-- `SocketStatus as u8`, `ll/src/specifiers.rs:11-144`. -/
def SocketStatus.code : SocketStatus → UInt8
  | .closed => 0x00
  | .init => 0x13
  | .listen => 0x14
  | .synSent => 0x15
  | .synRecv => 0x16
  | .established => 0x17
  | .finWait => 0x18
  | .closing => 0x1A
  | .timeWait => 0x1B
  | .closeWait => 0x1C
  | .lastAck => 0x1D
  | .udp => 0x22
  | .macraw => 0x42

/-- `TryFrom<u8> for SocketStatus`, `ll/src/specifiers.rs:145-165`. -/
def SocketStatus.tryFrom (val : UInt8) : Except UInt8 SocketStatus :=
  if val = (SocketStatus.closed).code then .ok .closed else
  if val = (SocketStatus.init).code then .ok .init else
  if val = (SocketStatus.listen).code then .ok .listen else
  if val = (SocketStatus.synSent).code then .ok .synSent else
  if val = (SocketStatus.synRecv).code then .ok .synRecv else
  if val = (SocketStatus.established).code then .ok .established else
  if val = (SocketStatus.finWait).code then .ok .finWait else
  if val = (SocketStatus.closing).code then .ok .closing else
  if val = (SocketStatus.timeWait).code then .ok .timeWait else
  if val = (SocketStatus.closeWait).code then .ok .closeWait else
  if val = (SocketStatus.lastAck).code then .ok .lastAck else
  if val = (SocketStatus.udp).code then .ok .udp else
  if val = (SocketStatus.macraw).code then .ok .macraw else
  .error val

/-- `enum SocketCommand`, `ll/src/specifiers.rs:184-331`. -/
inductive SocketCommand where
  | accepted
  | «open»
  | listen
  | connect
  | disconnect
  | close
  | send
  | sendMac
  | sendKeep
  | recv
  deriving DecidableEq, Repr, Inhabited

/-- `SocketCommand as u8`, `ll/src/specifiers.rs:184-331`. -/
def SocketCommand.code : SocketCommand → UInt8
  | .accepted => 0x00
  | .«open» => 0x01
  | .listen => 0x02
  | .connect => 0x04
  | .disconnect => 0x08
  | .close => 0x10
  | .send => 0x20
  | .sendMac => 0x21
  | .sendKeep => 0x22
  | .recv => 0x40

/-- `TryFrom<u8> for SocketCommand`, `ll/src/specifiers.rs:332-349`. -/
def SocketCommand.tryFrom (val : UInt8) : Except UInt8 SocketCommand :=
  if val = (SocketCommand.accepted).code then .ok .accepted else
  if val = (SocketCommand.«open»).code then .ok .«open» else
  if val = (SocketCommand.listen).code then .ok .listen else
  if val = (SocketCommand.connect).code then .ok .connect else
  if val = (SocketCommand.disconnect).code then .ok .disconnect else
  if val = (SocketCommand.close).code then .ok .close else
  if val = (SocketCommand.send).code then .ok .send else
  if val = (SocketCommand.sendMac).code then .ok .sendMac else
  if val = (SocketCommand.sendKeep).code then .ok .sendKeep else
  if val = (SocketCommand.recv).code then .ok .recv else
  .error val

/-- `enum Protocol`, `ll/src/specifiers.rs:360-406`. -/
inductive Protocol where
  | closed
  | tcp
  | udp
  | macraw
  deriving DecidableEq, Repr, Inhabited

/-- `Protocol as u8`, `ll/src/specifiers.rs:360-406`. -/
def Protocol.code : Protocol → UInt8
  | .closed => 0b0000
  | .tcp => 0b0001
  | .udp => 0b0010
  | .macraw => 0b0100

/-- `TryFrom<u8> for Protocol`, `ll/src/specifiers.rs:392-412`. -/
def Protocol.tryFrom (val : UInt8) : Except UInt8 Protocol :=
  if val = (Protocol.closed).code then .ok .closed else
  if val = (Protocol.tcp).code then .ok .tcp else
  if val = (Protocol.udp).code then .ok .udp else
  if val = (Protocol.macraw).code then .ok .macraw else
  .error val

/-- `enum OperationMode`, `ll/src/specifiers.rs:423-490`. -/
inductive OperationMode where
  | halfDuplex10bt
  | fullDuplex10bt
  | halfDuplex100bt
  | fullDuplex100bt
  | halfDuplex100btAuto
  | powerDown
  | auto
  deriving DecidableEq, Repr, Inhabited

/-- `OperationMode as u8`, `ll/src/specifiers.rs:423-490`. -/
def OperationMode.code : OperationMode → UInt8
  | .halfDuplex10bt => 0b000
  | .fullDuplex10bt => 0b001
  | .halfDuplex100bt => 0b010
  | .fullDuplex100bt => 0b011
  | .halfDuplex100btAuto => 0b100
  | .powerDown => 0b110
  | .auto => 0b111

/-- `OperationMode::from_raw`, `ll/src/specifiers.rs:473-484`. -/
def OperationMode.fromRaw (val : UInt8) : OperationMode :=
  let x := val &&& 0b111
  if x = OperationMode.halfDuplex10bt.code then .halfDuplex10bt else
  if x = OperationMode.fullDuplex10bt.code then .fullDuplex10bt else
  if x = OperationMode.halfDuplex100bt.code then .halfDuplex100bt else
  if x = OperationMode.fullDuplex100bt.code then .fullDuplex100bt else
  if x = OperationMode.halfDuplex100btAuto.code then .halfDuplex100btAuto else
  if x = OperationMode.powerDown.code then .powerDown else
  .auto

/-- `enum LinkStatus`, `ll/src/specifiers.rs:501-521`. -/
inductive LinkStatus where
  | down
  | up
  deriving DecidableEq, Repr, Inhabited

/-- `LinkStatus as u8`, `ll/src/specifiers.rs:501-521`. -/
def LinkStatus.code : LinkStatus → UInt8
  | .down => 0
  | .up => 1

/-- `From<bool> for LinkStatus`, `ll/src/specifiers.rs:508-516`. -/
def LinkStatus.ofBool (v : Bool) : LinkStatus := if v then .up else .down

/-- `enum SpeedStatus`, `ll/src/specifiers.rs:532-552`. -/
inductive SpeedStatus where
  | mbps10
  | mbps100
  deriving DecidableEq, Repr, Inhabited

/-- `SpeedStatus as u8`, `ll/src/specifiers.rs:532-552`. -/
def SpeedStatus.code : SpeedStatus → UInt8
  | .mbps10 => 0
  | .mbps100 => 1

/-- `From<bool> for SpeedStatus`, `ll/src/specifiers.rs:539-547`. -/
def SpeedStatus.ofBool (v : Bool) : SpeedStatus := if v then .mbps100 else .mbps10

/-- `enum DuplexStatus`, `ll/src/specifiers.rs:563-583`. -/
inductive DuplexStatus where
  | half
  | full
  deriving DecidableEq, Repr, Inhabited

/-- `DuplexStatus as u8`, `ll/src/specifiers.rs:563-583`. -/
def DuplexStatus.code : DuplexStatus → UInt8
  | .half => 0
  | .full => 1

/-- `From<bool> for DuplexStatus`, `ll/src/specifiers.rs:570-578`. -/
def DuplexStatus.ofBool (v : Bool) : DuplexStatus := if v then .full else .half

/-- `enum BufferSize`, `ll/src/specifiers.rs:596-628`. -/
inductive BufferSize where
  | kb0
  | kb1
  | kb2
  | kb4
  | kb8
  | kb16
  deriving DecidableEq, Repr, Inhabited

/-- `BufferSize as u8`, `ll/src/specifiers.rs:596-628`. -/
def BufferSize.code : BufferSize → UInt8
  | .kb0 => 0
  | .kb1 => 1
  | .kb2 => 2
  | .kb4 => 4
  | .kb8 => 8
  | .kb16 => 16

/-- `TryFrom<u8> for BufferSize`, `ll/src/specifiers.rs:630-659`. -/
def BufferSize.tryFrom (val : UInt8) : Except UInt8 BufferSize :=
  if val = (BufferSize.kb0).code then .ok .kb0 else
  if val = (BufferSize.kb1).code then .ok .kb1 else
  if val = (BufferSize.kb2).code then .ok .kb2 else
  if val = (BufferSize.kb4).code then .ok .kb4 else
  if val = (BufferSize.kb8).code then .ok .kb8 else
  if val = (BufferSize.kb16).code then .ok .kb16 else
  .error val

/-- `BufferSize::size_in_bytes`, `ll/src/specifiers.rs:691-700`. -/
def BufferSize.sizeInBytes : BufferSize → Nat
  | .kb0 => 0
  | .kb1 => 1024
  | .kb2 => 2048
  | .kb4 => 4096
  | .kb8 => 8192
  | .kb16 => 16384

/-- `BufferSize::default`, `ll/src/specifiers.rs:671-673`. -/
def BufferSize.default : BufferSize := .kb2

end Verif

import Verif.Model.Registers
/-!
# Text of registers (`ll/src/registers.rs`)

`Formatter::debug_struct` of Rust's core library is modelled for the format `{}`; the indented format `{:#}` is not modelled.
-/
namespace Verif

/-- The fields inside the braces of `core::fmt::DebugStruct`: `name: value`, with `, ` between them. -/
def fieldsText : List (List Char × List Char) → List Char
  | [] => []
  | [(f, v)] => f ++ [':', ' '] ++ v
  | (f, v) :: rest => f ++ [':', ' '] ++ v ++ [',', ' '] ++ fieldsText rest

/-- `f.debug_struct(name).field(..)….finish()` with at least one field, in the format `{}`. -/
def debugStruct (name : String) (fields : List (String × List Char)) : List Char :=
  name.toList ++ [' ', '{', ' '] ++ fieldsText (fields.map fun p => (p.1.toList, p.2)) ++ [' ', '}']

/-- `Debug` of `bool`. -/
def debugBool (b : Bool) : List Char := if b then ['t', 'r', 'u', 'e'] else ['f', 'a', 'l', 's', 'e']

/-- `derive(Debug)` of `OperationMode`, `ll/src/specifiers.rs:420-446`. -/
def OperationMode.debug : OperationMode → List Char
  | .halfDuplex10bt => "HalfDuplex10bt".toList
  | .fullDuplex10bt => "FullDuplex10bt".toList
  | .halfDuplex100bt => "HalfDuplex100bt".toList
  | .fullDuplex100bt => "FullDuplex100bt".toList
  | .halfDuplex100btAuto => "HalfDuplex100btAuto".toList
  | .powerDown => "PowerDown".toList
  | .auto => "Auto".toList

/-- `derive(Debug)` of `DuplexStatus`, `ll/src/specifiers.rs:560-568`. -/
def DuplexStatus.debug : DuplexStatus → List Char
  | .half => "Half".toList
  | .full => "Full".toList

/-- `derive(Debug)` of `SpeedStatus`, `ll/src/specifiers.rs:529-537`. -/
def SpeedStatus.debug : SpeedStatus → List Char
  | .mbps10 => "Mbps10".toList
  | .mbps100 => "Mbps100".toList

/-- `derive(Debug)` of `LinkStatus`, `ll/src/specifiers.rs:498-506`. -/
def LinkStatus.debug : LinkStatus → List Char
  | .down => "Down".toList
  | .up => "Up".toList

/-- `derive(Debug)` of `Protocol`, `ll/src/specifiers.rs:357-370`. -/
def Protocol.debug : Protocol → List Char
  | .closed => "Closed".toList
  | .tcp => "Tcp".toList
  | .udp => "Udp".toList
  | .macraw => "Macraw".toList

/-- `Debug` of `Result<Protocol, u8>`. -/
def debugProtocol : Except UInt8 Protocol → List Char
  | .ok p => "Ok(".toList ++ p.debug ++ [')']
  | .error v => "Err(".toList ++ Nat.toDigits 10 v.toNat ++ [')']

/-- `impl Display for Mode`, `ll/src/registers.rs:225-234`. -/
def Mode.display (r : Mode) : List Char :=
  debugStruct "Mode" [
    ("wol_enabled", debugBool r.wolEnabled),
    ("pb_enabled", debugBool r.pbEnabled),
    ("pppoe_enabled", debugBool r.pppoeEnabled),
    ("farp_enabled", debugBool r.farpEnabled)]

/-- `impl Display for Interrupt`, `ll/src/registers.rs:456-465`. -/
def Interrupt.display (r : Interrupt) : List Char :=
  debugStruct "Interrupt" [
    ("conflict", debugBool r.conflict),
    ("unreach", debugBool r.unreach),
    ("pppoe", debugBool r.pppoe),
    ("mp", debugBool r.mp)]

/-- `impl Display for PhyCfg`, `ll/src/registers.rs:701-711`. -/
def PhyCfg.display (r : PhyCfg) : List Char :=
  debugStruct "PhyCfg" [
    ("opmd", debugBool r.opmd),
    ("opmdc", r.opmdc.debug),
    ("dpx", r.dpx.debug),
    ("spd", r.spd.debug),
    ("lnk", r.lnk.debug)]

/-- `impl Display for SocketMode`, `ll/src/registers.rs:1127-1141`. -/
def SocketMode.display (r : SocketMode) : List Char :=
  debugStruct "SocketMode" [
    ("protocol", debugProtocol r.protocol),
    ("multi_enabled", debugBool r.multiEnabled),
    ("mfen_enabled", debugBool r.mfenEnabled),
    ("bcastb_enabled", debugBool r.bcastbEnabled),
    ("nd_enabled", debugBool r.ndEnabled),
    ("mc", debugBool r.mc),
    ("mmb_enabled", debugBool r.mmbEnabled),
    ("ucastb_enabled", debugBool r.ucastbEnabled),
    ("mip6b_enabled", debugBool r.mip6bEnabled)]

/-- `impl Display for SocketInterrupt`, `ll/src/registers.rs:1357-1367`. -/
def SocketInterrupt.display (r : SocketInterrupt) : List Char :=
  debugStruct "SocketInterrupt" [
    ("con_raised", debugBool r.conRaised),
    ("discon_raised", debugBool r.disconRaised),
    ("recv_raised", debugBool r.recvRaised),
    ("timeout_raised", debugBool r.timeoutRaised),
    ("sendok_raised", debugBool r.sendokRaised)]

/-- `impl Display for SocketInterruptMask`, `ll/src/registers.rs:1591-1601`. -/
def SocketInterruptMask.display (r : SocketInterruptMask) : List Char :=
  debugStruct "SocketInterruptMask" [
    ("con_masked", debugBool r.conMasked),
    ("discon_masked", debugBool r.disconMasked),
    ("recv_masked", debugBool r.recvMasked),
    ("timeout_masked", debugBool r.timeoutMasked),
    ("sendok_masked", debugBool r.sendokMasked)]

end Verif

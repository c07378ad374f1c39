import Verif.Model.Specifiers
/-!
# Register bit-fields (`ll/src/registers.rs`)

Every register type is a newtype around `u8` with `From<u8>` (wrap) and `u8::from` (unwrap),
`ll/src/registers.rs:5-25`; here a structure with the single field `raw`.
-/
namespace Verif

/-- `struct Mode(u8)`, `ll/src/registers.rs:36`. -/
structure Mode where
  raw : UInt8
  deriving DecidableEq, Repr, Inhabited

/-- `Mode::DEFAULT`, `ll/src/registers.rs:41,54`. -/
def Mode.default : Mode := ⟨0x00⟩

/-- `Mode::RST_MASK`, `ll/src/registers.rs:57,68`. -/
def Mode.rstMask : UInt8 := (1 : UInt8) <<< 7

/-- `Mode::WOL_MASK`, `ll/src/registers.rs:59,70`. -/
def Mode.wolMask : UInt8 := (1 : UInt8) <<< 5

/-- `Mode::PB_MASK`, `ll/src/registers.rs:61,72`. -/
def Mode.pbMask : UInt8 := (1 : UInt8) <<< 4

/-- `Mode::PPPOE_MASK`, `ll/src/registers.rs:63,74`. -/
def Mode.pppoeMask : UInt8 := (1 : UInt8) <<< 3

/-- `Mode::FARP_MASK`, `ll/src/registers.rs:65,76`. -/
def Mode.farpMask : UInt8 := (1 : UInt8) <<< 1

/-- `Mode::rst`, `ll/src/registers.rs:82-85`. -/
def Mode.rst (r : Mode) : Mode := ⟨r.raw ||| Mode.rstMask⟩

/-- `Mode::wol_enabled`, `ll/src/registers.rs:104-106`. -/
def Mode.wolEnabled (r : Mode) : Bool := r.raw &&& Mode.wolMask != 0

/-- `Mode::enable_wol`, `ll/src/registers.rs:110-113`. -/
def Mode.enableWol (r : Mode) : Mode := ⟨r.raw ||| Mode.wolMask⟩

/-- `Mode::disable_wol`, `ll/src/registers.rs:117-120`. -/
def Mode.disableWol (r : Mode) : Mode := ⟨r.raw &&& ~~~Mode.wolMask⟩

/-- `Mode::pb_enabled`, `ll/src/registers.rs:138-140`. -/
def Mode.pbEnabled (r : Mode) : Bool := r.raw &&& Mode.pbMask != 0

/-- `Mode::enable_pb`, `ll/src/registers.rs:144-147`. -/
def Mode.enablePb (r : Mode) : Mode := ⟨r.raw ||| Mode.pbMask⟩

/-- `Mode::disable_pb`, `ll/src/registers.rs:151-154`. -/
def Mode.disablePb (r : Mode) : Mode := ⟨r.raw &&& ~~~Mode.pbMask⟩

/-- `Mode::pppoe_enabled`, `ll/src/registers.rs:172-174`. -/
def Mode.pppoeEnabled (r : Mode) : Bool := r.raw &&& Mode.pppoeMask != 0

/-- `Mode::enable_pppoe`, `ll/src/registers.rs:178-181`. -/
def Mode.enablePppoe (r : Mode) : Mode := ⟨r.raw ||| Mode.pppoeMask⟩

/-- `Mode::disable_pppoe`, `ll/src/registers.rs:185-188`. -/
def Mode.disablePppoe (r : Mode) : Mode := ⟨r.raw &&& ~~~Mode.pppoeMask⟩

/-- `Mode::farp_enabled`, `ll/src/registers.rs:206-208`. -/
def Mode.farpEnabled (r : Mode) : Bool := r.raw &&& Mode.farpMask != 0

/-- `Mode::enable_farp`, `ll/src/registers.rs:212-215`. -/
def Mode.enableFarp (r : Mode) : Mode := ⟨r.raw ||| Mode.farpMask⟩

/-- `Mode::disable_farp`, `ll/src/registers.rs:219-222`. -/
def Mode.disableFarp (r : Mode) : Mode := ⟨r.raw &&& ~~~Mode.farpMask⟩

/-- `struct Interrupt(u8)`, `ll/src/registers.rs:271`. -/
structure Interrupt where
  raw : UInt8
  deriving DecidableEq, Repr, Inhabited

/-- `Interrupt::DEFAULT`, `ll/src/registers.rs:276,289`. -/
def Interrupt.default : Interrupt := ⟨0x00⟩

/-- `Interrupt::CONFLICT_MASK`, `ll/src/registers.rs:292,301`. -/
def Interrupt.conflictMask : UInt8 := (1 : UInt8) <<< 7

/-- `Interrupt::UNREACH_MASK`, `ll/src/registers.rs:294,303`. -/
def Interrupt.unreachMask : UInt8 := (1 : UInt8) <<< 6

/-- `Interrupt::PPPOE_MASK`, `ll/src/registers.rs:296,305`. -/
def Interrupt.pppoeMask : UInt8 := (1 : UInt8) <<< 5

/-- `Interrupt::MP_MASK`, `ll/src/registers.rs:298,307`. -/
def Interrupt.mpMask : UInt8 := (1 : UInt8) <<< 4

/-- `Interrupt::conflict`, `ll/src/registers.rs:326-328`. -/
def Interrupt.conflict (r : Interrupt) : Bool := r.raw &&& Interrupt.conflictMask != 0

/-- `Interrupt::set_conflict`, `ll/src/registers.rs:332-335`. -/
def Interrupt.setConflict (r : Interrupt) : Interrupt := ⟨r.raw ||| Interrupt.conflictMask⟩

/-- `Interrupt::clear_conflict`, `ll/src/registers.rs:339-342`. -/
def Interrupt.clearConflict (r : Interrupt) : Interrupt := ⟨r.raw &&& ~~~Interrupt.conflictMask⟩

/-- `Interrupt::unreach`, `ll/src/registers.rs:368-370`. -/
def Interrupt.unreach (r : Interrupt) : Bool := r.raw &&& Interrupt.unreachMask != 0

/-- `Interrupt::set_unreach`, `ll/src/registers.rs:374-377`. -/
def Interrupt.setUnreach (r : Interrupt) : Interrupt := ⟨r.raw ||| Interrupt.unreachMask⟩

/-- `Interrupt::clear_unreach`, `ll/src/registers.rs:381-384`. -/
def Interrupt.clearUnreach (r : Interrupt) : Interrupt := ⟨r.raw &&& ~~~Interrupt.unreachMask⟩

/-- `Interrupt::pppoe`, `ll/src/registers.rs:402-404`. -/
def Interrupt.pppoe (r : Interrupt) : Bool := r.raw &&& Interrupt.pppoeMask != 0

/-- `Interrupt::set_pppoe`, `ll/src/registers.rs:408-411`. -/
def Interrupt.setPppoe (r : Interrupt) : Interrupt := ⟨r.raw ||| Interrupt.pppoeMask⟩

/-- `Interrupt::clear_pppoe`, `ll/src/registers.rs:415-418`. -/
def Interrupt.clearPppoe (r : Interrupt) : Interrupt := ⟨r.raw &&& ~~~Interrupt.pppoeMask⟩

/-- `Interrupt::mp`, `ll/src/registers.rs:437-439`. -/
def Interrupt.mp (r : Interrupt) : Bool := r.raw &&& Interrupt.mpMask != 0

/-- `Interrupt::set_mp`, `ll/src/registers.rs:443-446`. -/
def Interrupt.setMp (r : Interrupt) : Interrupt := ⟨r.raw ||| Interrupt.mpMask⟩

/-- `Interrupt::clear_mp`, `ll/src/registers.rs:450-453`. -/
def Interrupt.clearMp (r : Interrupt) : Interrupt := ⟨r.raw &&& ~~~Interrupt.mpMask⟩

/-- `struct PhyCfg(u8)`, `ll/src/registers.rs:494`. -/
structure PhyCfg where
  raw : UInt8
  deriving DecidableEq, Repr, Inhabited

/-- `PhyCfg::DEFAULT`, `ll/src/registers.rs:499,512`. -/
def PhyCfg.default : PhyCfg := ⟨0b10111000⟩

/-- `PhyCfg::RST_MASK`, `ll/src/registers.rs:515,528`. -/
def PhyCfg.rstMask : UInt8 := (1 : UInt8) <<< 7

/-- `PhyCfg::OPMD_MASK`, `ll/src/registers.rs:517,530`. -/
def PhyCfg.opmdMask : UInt8 := (1 : UInt8) <<< 6

/-- `PhyCfg::DPX_MASK`, `ll/src/registers.rs:521,534`. -/
def PhyCfg.dpxMask : UInt8 := (1 : UInt8) <<< 2

/-- `PhyCfg::SPD_MASK`, `ll/src/registers.rs:523,536`. -/
def PhyCfg.spdMask : UInt8 := (1 : UInt8) <<< 1

/-- `PhyCfg::LNK_MASK`, `ll/src/registers.rs:525,538`. -/
def PhyCfg.lnkMask : UInt8 := (1 : UInt8) <<< 0

/-- `PhyCfg::OPMDC_MASK`, `ll/src/registers.rs:519,532`. -/
def PhyCfg.opmdcMask : UInt8 := (0b111 : UInt8) <<< 3

/-- `PhyCfg::rst`, `ll/src/registers.rs:542-545`. -/
def PhyCfg.rst (r : PhyCfg) : PhyCfg := ⟨r.raw &&& ~~~PhyCfg.rstMask⟩

/-- `PhyCfg::opmd`, `ll/src/registers.rs:551-553`. -/
def PhyCfg.opmd (r : PhyCfg) : Bool := r.raw &&& PhyCfg.opmdMask != 0

/-- `PhyCfg::hardware_op`, `ll/src/registers.rs:583-586`. -/
def PhyCfg.hardwareOp (r : PhyCfg) : PhyCfg := ⟨r.raw &&& ~~~PhyCfg.opmdMask⟩

/-- `PhyCfg::software_op`, `ll/src/registers.rs:601-604`. -/
def PhyCfg.softwareOp (r : PhyCfg) : PhyCfg := ⟨r.raw ||| PhyCfg.opmdMask⟩

/-- `PhyCfg::opmdc`, `ll/src/registers.rs:618-621`. -/
def PhyCfg.opmdc (r : PhyCfg) : OperationMode := OperationMode.fromRaw (r.raw >>> 3)

/-- `PhyCfg::set_opmdc`, `ll/src/registers.rs:642-647`. -/
def PhyCfg.setOpmdc (r : PhyCfg) (mode : OperationMode) : PhyCfg :=
  let r := r.softwareOp
  ⟨(r.raw &&& ~~~PhyCfg.opmdcMask) ||| (mode.code <<< 3)⟩

/-- `PhyCfg::dpx`, `ll/src/registers.rs:659-664`. -/
def PhyCfg.dpx (r : PhyCfg) : DuplexStatus := if r.raw &&& PhyCfg.dpxMask = PhyCfg.dpxMask then .full else .half

/-- `PhyCfg::spd`, `ll/src/registers.rs:676-681`. -/
def PhyCfg.spd (r : PhyCfg) : SpeedStatus := if r.raw &&& PhyCfg.spdMask = PhyCfg.spdMask then .mbps100 else .mbps10

/-- `PhyCfg::lnk`, `ll/src/registers.rs:693-698`. -/
def PhyCfg.lnk (r : PhyCfg) : LinkStatus := if r.raw &&& PhyCfg.lnkMask = PhyCfg.lnkMask then .up else .down

/-- `struct SocketMode(u8)`, `ll/src/registers.rs:736`. -/
structure SocketMode where
  raw : UInt8
  deriving DecidableEq, Repr, Inhabited

/-- `SocketMode::DEFAULT`, `ll/src/registers.rs:741,754`. -/
def SocketMode.default : SocketMode := ⟨0x00⟩

/-- `SocketMode::MULTI_MASK`, `ll/src/registers.rs:757,774`. -/
def SocketMode.multiMask : UInt8 := (1 : UInt8) <<< 7

/-- `SocketMode::MFEN_MASK`, `ll/src/registers.rs:759,776`. -/
def SocketMode.mfenMask : UInt8 := (1 : UInt8) <<< 7

/-- `SocketMode::BCASTB_MASK`, `ll/src/registers.rs:761,778`. -/
def SocketMode.bcastbMask : UInt8 := (1 : UInt8) <<< 6

/-- `SocketMode::ND_MASK`, `ll/src/registers.rs:763,780`. -/
def SocketMode.ndMask : UInt8 := (1 : UInt8) <<< 5

/-- `SocketMode::MC_MASK`, `ll/src/registers.rs:765,782`. -/
def SocketMode.mcMask : UInt8 := (1 : UInt8) <<< 5

/-- `SocketMode::MMB_MASK`, `ll/src/registers.rs:767,784`. -/
def SocketMode.mmbMask : UInt8 := (1 : UInt8) <<< 5

/-- `SocketMode::UCASTB_MASK`, `ll/src/registers.rs:769,786`. -/
def SocketMode.ucastbMask : UInt8 := (1 : UInt8) <<< 4

/-- `SocketMode::MIP6B_MASK`, `ll/src/registers.rs:771,788`. -/
def SocketMode.mip6bMask : UInt8 := (1 : UInt8) <<< 4

/-- `SocketMode::protocol`, `ll/src/registers.rs:805-807`. -/
def SocketMode.protocol (r : SocketMode) : Except UInt8 Protocol := Protocol.tryFrom (r.raw &&& 0xF)

/-- `SocketMode::set_protocol`, `ll/src/registers.rs:819-822`. -/
def SocketMode.setProtocol (r : SocketMode) (p : Protocol) : SocketMode := ⟨(r.raw &&& 0xF0) ||| (p.code &&& 0xF)⟩

/-- `SocketMode::multi_enabled`, `ll/src/registers.rs:847-849`. -/
def SocketMode.multiEnabled (r : SocketMode) : Bool := r.raw &&& SocketMode.multiMask != 0

/-- `SocketMode::enable_multi`, `ll/src/registers.rs:853-856`. -/
def SocketMode.enableMulti (r : SocketMode) : SocketMode := ⟨r.raw ||| SocketMode.multiMask⟩

/-- `SocketMode::disable_multi`, `ll/src/registers.rs:860-863`. -/
def SocketMode.disableMulti (r : SocketMode) : SocketMode := ⟨r.raw &&& ~~~SocketMode.multiMask⟩

/-- `SocketMode::mfen_enabled`, `ll/src/registers.rs:888-890`. -/
def SocketMode.mfenEnabled (r : SocketMode) : Bool := r.raw &&& SocketMode.mfenMask != 0

/-- `SocketMode::enable_mfen`, `ll/src/registers.rs:894-897`. -/
def SocketMode.enableMfen (r : SocketMode) : SocketMode := ⟨r.raw ||| SocketMode.mfenMask⟩

/-- `SocketMode::disable_mfen`, `ll/src/registers.rs:901-904`. -/
def SocketMode.disableMfen (r : SocketMode) : SocketMode := ⟨r.raw &&& ~~~SocketMode.mfenMask⟩

/-- `SocketMode::bcastb_enabled`, `ll/src/registers.rs:922-924`. -/
def SocketMode.bcastbEnabled (r : SocketMode) : Bool := r.raw &&& SocketMode.bcastbMask != 0

/-- `SocketMode::enable_bcastb`, `ll/src/registers.rs:928-931`. -/
def SocketMode.enableBcastb (r : SocketMode) : SocketMode := ⟨r.raw ||| SocketMode.bcastbMask⟩

/-- `SocketMode::disable_bcastb`, `ll/src/registers.rs:935-938`. -/
def SocketMode.disableBcastb (r : SocketMode) : SocketMode := ⟨r.raw &&& ~~~SocketMode.bcastbMask⟩

/-- `SocketMode::nd_enabled`, `ll/src/registers.rs:963-965`. -/
def SocketMode.ndEnabled (r : SocketMode) : Bool := r.raw &&& SocketMode.ndMask != 0

/-- `SocketMode::enable_nd`, `ll/src/registers.rs:976-979`. -/
def SocketMode.enableNd (r : SocketMode) : SocketMode := ⟨r.raw ||| SocketMode.ndMask⟩

/-- `SocketMode::disable_nd`, `ll/src/registers.rs:969-972`. -/
def SocketMode.disableNd (r : SocketMode) : SocketMode := ⟨r.raw &&& ~~~SocketMode.ndMask⟩

/-- `SocketMode::mmb_enabled`, `ll/src/registers.rs:1038-1040`. -/
def SocketMode.mmbEnabled (r : SocketMode) : Bool := r.raw &&& SocketMode.mmbMask != 0

/-- `SocketMode::enable_mmb`, `ll/src/registers.rs:1044-1047`. -/
def SocketMode.enableMmb (r : SocketMode) : SocketMode := ⟨r.raw ||| SocketMode.mmbMask⟩

/-- `SocketMode::disable_mmb`, `ll/src/registers.rs:1051-1054`. -/
def SocketMode.disableMmb (r : SocketMode) : SocketMode := ⟨r.raw &&& ~~~SocketMode.mmbMask⟩

/-- `SocketMode::ucastb_enabled`, `ll/src/registers.rs:1072-1074`. -/
def SocketMode.ucastbEnabled (r : SocketMode) : Bool := r.raw &&& SocketMode.ucastbMask != 0

/-- `SocketMode::enable_ucastb`, `ll/src/registers.rs:1078-1081`. -/
def SocketMode.enableUcastb (r : SocketMode) : SocketMode := ⟨r.raw ||| SocketMode.ucastbMask⟩

/-- `SocketMode::disable_ucastb`, `ll/src/registers.rs:1085-1088`. -/
def SocketMode.disableUcastb (r : SocketMode) : SocketMode := ⟨r.raw &&& ~~~SocketMode.ucastbMask⟩

/-- `SocketMode::mip6b_enabled`, `ll/src/registers.rs:1108-1110`. -/
def SocketMode.mip6bEnabled (r : SocketMode) : Bool := r.raw &&& SocketMode.mip6bMask != 0

/-- `SocketMode::enable_mip6b`, `ll/src/registers.rs:1114-1117`. -/
def SocketMode.enableMip6b (r : SocketMode) : SocketMode := ⟨r.raw ||| SocketMode.mip6bMask⟩

/-- `SocketMode::disable_mip6b`, `ll/src/registers.rs:1121-1124`. -/
def SocketMode.disableMip6b (r : SocketMode) : SocketMode := ⟨r.raw &&& ~~~SocketMode.mip6bMask⟩

/-- `SocketMode::mc`, `ll/src/registers.rs:1002-1004`. -/
def SocketMode.mc (r : SocketMode) : Bool := r.raw &&& SocketMode.mcMask != 0

/-- `SocketMode::set_igmp_v1`, `ll/src/registers.rs:1008-1011`. -/
def SocketMode.setIgmpV1 (r : SocketMode) : SocketMode := ⟨r.raw ||| SocketMode.mcMask⟩

/-- `SocketMode::set_igmp_v2`, `ll/src/registers.rs:1015-1018`. -/
def SocketMode.setIgmpV2 (r : SocketMode) : SocketMode := ⟨r.raw &&& ~~~SocketMode.mcMask⟩

/-- `struct SocketInterrupt(u8)`, `ll/src/registers.rs:1173`. -/
structure SocketInterrupt where
  raw : UInt8
  deriving DecidableEq, Repr, Inhabited

/-- `SocketInterrupt::DEFAULT`, `ll/src/registers.rs:1178,1191`. -/
def SocketInterrupt.default : SocketInterrupt := ⟨0x00⟩

/-- `SocketInterrupt::CON_MASK`, `ll/src/registers.rs:1194,1205`. -/
def SocketInterrupt.conMask : UInt8 := (1 : UInt8) <<< 0

/-- `SocketInterrupt::DISCON_MASK`, `ll/src/registers.rs:1196,1207`. -/
def SocketInterrupt.disconMask : UInt8 := (1 : UInt8) <<< 1

/-- `SocketInterrupt::RECV_MASK`, `ll/src/registers.rs:1198,1209`. -/
def SocketInterrupt.recvMask : UInt8 := (1 : UInt8) <<< 2

/-- `SocketInterrupt::TIMEOUT_MASK`, `ll/src/registers.rs:1200,1211`. -/
def SocketInterrupt.timeoutMask : UInt8 := (1 : UInt8) <<< 3

/-- `SocketInterrupt::SENDOK_MASK`, `ll/src/registers.rs:1202,1213`. -/
def SocketInterrupt.sendokMask : UInt8 := (1 : UInt8) <<< 4

/-- `SocketInterrupt::con_raised`, `ll/src/registers.rs:1234-1236`. -/
def SocketInterrupt.conRaised (r : SocketInterrupt) : Bool := r.raw &&& SocketInterrupt.conMask != 0

/-- `SocketInterrupt::clear_con`, `ll/src/registers.rs:1240-1243`. -/
def SocketInterrupt.clearCon (r : SocketInterrupt) : SocketInterrupt := ⟨r.raw ||| SocketInterrupt.conMask⟩

/-- `SocketInterrupt::discon_raised`, `ll/src/registers.rs:1258-1260`. -/
def SocketInterrupt.disconRaised (r : SocketInterrupt) : Bool := r.raw &&& SocketInterrupt.disconMask != 0

/-- `SocketInterrupt::clear_discon`, `ll/src/registers.rs:1264-1267`. -/
def SocketInterrupt.clearDiscon (r : SocketInterrupt) : SocketInterrupt := ⟨r.raw ||| SocketInterrupt.disconMask⟩

/-- `SocketInterrupt::recv_raised`, `ll/src/registers.rs:1282-1284`. -/
def SocketInterrupt.recvRaised (r : SocketInterrupt) : Bool := r.raw &&& SocketInterrupt.recvMask != 0

/-- `SocketInterrupt::clear_recv`, `ll/src/registers.rs:1288-1291`. -/
def SocketInterrupt.clearRecv (r : SocketInterrupt) : SocketInterrupt := ⟨r.raw ||| SocketInterrupt.recvMask⟩

/-- `SocketInterrupt::timeout_raised`, `ll/src/registers.rs:1306-1308`. -/
def SocketInterrupt.timeoutRaised (r : SocketInterrupt) : Bool := r.raw &&& SocketInterrupt.timeoutMask != 0

/-- `SocketInterrupt::clear_timeout`, `ll/src/registers.rs:1312-1315`. -/
def SocketInterrupt.clearTimeout (r : SocketInterrupt) : SocketInterrupt := ⟨r.raw ||| SocketInterrupt.timeoutMask⟩

/-- `SocketInterrupt::sendok_raised`, `ll/src/registers.rs:1332-1334`. -/
def SocketInterrupt.sendokRaised (r : SocketInterrupt) : Bool := r.raw &&& SocketInterrupt.sendokMask != 0

/-- `SocketInterrupt::clear_sendok`, `ll/src/registers.rs:1338-1341`. -/
def SocketInterrupt.clearSendok (r : SocketInterrupt) : SocketInterrupt := ⟨r.raw ||| SocketInterrupt.sendokMask⟩

/-- `SocketInterrupt::ALL_MASK`, `ll/src/registers.rs:1215-1219`. -/
def SocketInterrupt.allMask : UInt8 :=
  SocketInterrupt.conMask ||| SocketInterrupt.disconMask ||| SocketInterrupt.recvMask ||| SocketInterrupt.timeoutMask ||| SocketInterrupt.sendokMask

/-- `SocketInterrupt::any_raised`, `ll/src/registers.rs:1352-1354`. -/
def SocketInterrupt.anyRaised (r : SocketInterrupt) : Bool := r.raw &&& SocketInterrupt.allMask != 0

/-- `struct SocketInterruptMask(u8)`, `ll/src/registers.rs:1395`. -/
structure SocketInterruptMask where
  raw : UInt8
  deriving DecidableEq, Repr, Inhabited

/-- `SocketInterruptMask::DEFAULT`, `ll/src/registers.rs:1400,1413`. -/
def SocketInterruptMask.default : SocketInterruptMask := ⟨0xFF⟩

/-- `SocketInterruptMask::ALL_MASKED`, `ll/src/registers.rs:1428`. -/
def SocketInterruptMask.allMasked : SocketInterruptMask := ⟨0xE0⟩

/-- `SocketInterruptMask::con_masked`, `ll/src/registers.rs:1444-1446`. -/
def SocketInterruptMask.conMasked (r : SocketInterruptMask) : Bool := r.raw &&& SocketInterrupt.conMask == 0

/-- `SocketInterruptMask::unmask_con`, `ll/src/registers.rs:1450-1453`. -/
def SocketInterruptMask.unmaskCon (r : SocketInterruptMask) : SocketInterruptMask := ⟨r.raw ||| SocketInterrupt.conMask⟩

/-- `SocketInterruptMask::mask_con`, `ll/src/registers.rs:1457-1460`. -/
def SocketInterruptMask.maskCon (r : SocketInterruptMask) : SocketInterruptMask := ⟨r.raw &&& ~~~SocketInterrupt.conMask⟩

/-- `SocketInterruptMask::discon_masked`, `ll/src/registers.rs:1476-1478`. -/
def SocketInterruptMask.disconMasked (r : SocketInterruptMask) : Bool := r.raw &&& SocketInterrupt.disconMask == 0

/-- `SocketInterruptMask::unmask_discon`, `ll/src/registers.rs:1482-1485`. -/
def SocketInterruptMask.unmaskDiscon (r : SocketInterruptMask) : SocketInterruptMask := ⟨r.raw ||| SocketInterrupt.disconMask⟩

/-- `SocketInterruptMask::mask_discon`, `ll/src/registers.rs:1489-1492`. -/
def SocketInterruptMask.maskDiscon (r : SocketInterruptMask) : SocketInterruptMask := ⟨r.raw &&& ~~~SocketInterrupt.disconMask⟩

/-- `SocketInterruptMask::recv_masked`, `ll/src/registers.rs:1508-1510`. -/
def SocketInterruptMask.recvMasked (r : SocketInterruptMask) : Bool := r.raw &&& SocketInterrupt.recvMask == 0

/-- `SocketInterruptMask::unmask_recv`, `ll/src/registers.rs:1514-1517`. -/
def SocketInterruptMask.unmaskRecv (r : SocketInterruptMask) : SocketInterruptMask := ⟨r.raw ||| SocketInterrupt.recvMask⟩

/-- `SocketInterruptMask::mask_recv`, `ll/src/registers.rs:1521-1524`. -/
def SocketInterruptMask.maskRecv (r : SocketInterruptMask) : SocketInterruptMask := ⟨r.raw &&& ~~~SocketInterrupt.recvMask⟩

/-- `SocketInterruptMask::timeout_masked`, `ll/src/registers.rs:1540-1542`. -/
def SocketInterruptMask.timeoutMasked (r : SocketInterruptMask) : Bool := r.raw &&& SocketInterrupt.timeoutMask == 0

/-- `SocketInterruptMask::unmask_timeout`, `ll/src/registers.rs:1546-1549`. -/
def SocketInterruptMask.unmaskTimeout (r : SocketInterruptMask) : SocketInterruptMask := ⟨r.raw ||| SocketInterrupt.timeoutMask⟩

/-- `SocketInterruptMask::mask_timeout`, `ll/src/registers.rs:1553-1556`. -/
def SocketInterruptMask.maskTimeout (r : SocketInterruptMask) : SocketInterruptMask := ⟨r.raw &&& ~~~SocketInterrupt.timeoutMask⟩

/-- `SocketInterruptMask::sendok_masked`, `ll/src/registers.rs:1572-1574`. -/
def SocketInterruptMask.sendokMasked (r : SocketInterruptMask) : Bool := r.raw &&& SocketInterrupt.sendokMask == 0

/-- `SocketInterruptMask::unmask_sendok`, `ll/src/registers.rs:1578-1581`. -/
def SocketInterruptMask.unmaskSendok (r : SocketInterruptMask) : SocketInterruptMask := ⟨r.raw ||| SocketInterrupt.sendokMask⟩

/-- `SocketInterruptMask::mask_sendok`, `ll/src/registers.rs:1585-1588`. -/
def SocketInterruptMask.maskSendok (r : SocketInterruptMask) : SocketInterruptMask := ⟨r.raw &&& ~~~SocketInterrupt.sendokMask⟩

end Verif

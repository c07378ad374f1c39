import Verif.Model.Addr
import Verif.Model.Registers
/-!
# Sockets and the `Registers` trait (`ll/src/lib.rs`)
-/
namespace Verif

/-- `COMMON_BLOCK_OFFSET`, `ll/src/lib.rs:81`. -/
def commonBlockOffset : UInt8 := 0x00
/-- `SOCKET_SPACING`, `ll/src/lib.rs:83`. -/
def socketSpacing : UInt8 := 0x04
/-- `SOCKET_BLOCK_OFFSET`, `ll/src/lib.rs:85`. -/
def socketBlockOffset : UInt8 := 0x01
/-- `SOCKET_TX_OFFSET`, `ll/src/lib.rs:87`. -/
def socketTxOffset : UInt8 := 0x02
/-- `SOCKET_RX_OFFSET`, `ll/src/lib.rs:89`. -/
def socketRxOffset : UInt8 := 0x03

/-- `enum Sn`, `ll/src/lib.rs:120-141`. -/
inductive Sn where
  | sn0 | sn1 | sn2 | sn3 | sn4 | sn5 | sn6 | sn7
  deriving DecidableEq, Repr, Inhabited

/-- `Sn as u8` and the `From<Sn>` conversions, `ll/src/lib.rs:120-141,289-296`. -/
def Sn.toU8 : Sn → UInt8
  | .sn0 => 0 | .sn1 => 1 | .sn2 => 2 | .sn3 => 3
  | .sn4 => 4 | .sn5 => 5 | .sn6 => 6 | .sn7 => 7

/-- `Sn::block`, `ll/src/lib.rs:161-163`. -/
def Sn.block (s : Sn) : UInt8 := socketSpacing * s.toU8 + socketBlockOffset

/-- `Sn::tx_block`, `ll/src/lib.rs:182-184`. -/
def Sn.txBlock (s : Sn) : UInt8 := socketSpacing * s.toU8 + socketTxOffset

/-- `Sn::rx_block`, `ll/src/lib.rs:203-205`. -/
def Sn.rxBlock (s : Sn) : UInt8 := socketSpacing * s.toU8 + socketRxOffset

/-- `Sn::bitmask`, `ll/src/lib.rs:252-254`. -/
def Sn.bitmask (s : Sn) : UInt8 := (1 : UInt8) <<< s.toU8

/-- `TryFrom<$ty> for Sn`, `ll/src/lib.rs:298-315`.  The macro is instantiated for all
primitive integer types; `Int` covers all their values (simplification: one type for twelve). -/
def Sn.tryFrom (val : Int) : Except Int Sn :=
  if val = 0 then .ok .sn0 else
  if val = 1 then .ok .sn1 else
  if val = 2 then .ok .sn2 else
  if val = 3 then .ok .sn3 else
  if val = 4 then .ok .sn4 else
  if val = 5 then .ok .sn5 else
  if val = 6 then .ok .sn6 else
  if val = 7 then .ok .sn7 else
  .error val

/-- `SOCKETS`, `ll/src/lib.rs:386-395`. -/
def sockets : List Sn := [.sn0, .sn1, .sn2, .sn3, .sn4, .sn5, .sn6, .sn7]

/-- `struct TxPtrs`, `ll/src/lib.rs:400-406`. -/
structure TxPtrs where
  fsr : UInt16
  wr : UInt16
  deriving DecidableEq, Repr

/-- `struct RxPtrs`, `ll/src/lib.rs:413-419`. -/
structure RxPtrs where
  rsr : UInt16
  rd : UInt16
  deriving DecidableEq, Repr

/-- The two required methods of `trait Registers`, `ll/src/lib.rs:427-449`.
`read addr block n` models `read(addr, block, &mut data)` with `data.len() == n`; the bytes
stored in `data` are returned. -/
structure Bus (σ : Type) where
  read : UInt16 → UInt8 → (n : Nat) → M σ (Vector UInt8 n)
  write : UInt16 → UInt8 → Bytes → M σ Unit

namespace Bus
variable {σ : Type} (w : Bus σ)

/-- `Registers::mr`, `ll/src/lib.rs:470-474`. -/
def mr : M σ Mode := do
  let v ← w.read Reg.MR.addr commonBlockOffset 1
  pure ⟨v[0]⟩

/-- `Registers::set_mr`, `ll/src/lib.rs:495-497`. -/
def setMr (v : Mode) : M σ Unit := do
  w.write Reg.MR.addr commonBlockOffset [v.raw]

/-- `Registers::gar`, `ll/src/lib.rs:518-522`. -/
def gar : M σ Ipv4 := do
  let v ← w.read Reg.GAR0.addr commonBlockOffset 4
  pure ⟨v[0], v[1], v[2], v[3]⟩

/-- `Registers::set_gar`, `ll/src/lib.rs:542-544`. -/
def setGar (v : Ipv4) : M σ Unit := do
  w.write Reg.GAR0.addr commonBlockOffset v.octets

/-- `Registers::subr`, `ll/src/lib.rs:565-569`. -/
def subr : M σ Ipv4 := do
  let v ← w.read Reg.SUBR0.addr commonBlockOffset 4
  pure ⟨v[0], v[1], v[2], v[3]⟩

/-- `Registers::set_subr`, `ll/src/lib.rs:589-591`. -/
def setSubr (v : Ipv4) : M σ Unit := do
  w.write Reg.SUBR0.addr commonBlockOffset v.octets

/-- `Registers::shar`, `ll/src/lib.rs:612-616`. -/
def shar : M σ Eui48 := do
  let v ← w.read Reg.SHAR0.addr commonBlockOffset 6
  pure ⟨v[0], v[1], v[2], v[3], v[4], v[5]⟩

/-- `Registers::set_shar`, `ll/src/lib.rs:636-638`. -/
def setShar (v : Eui48) : M σ Unit := do
  w.write Reg.SHAR0.addr commonBlockOffset v.octets

/-- `Registers::sipr`, `ll/src/lib.rs:659-663`. -/
def sipr : M σ Ipv4 := do
  let v ← w.read Reg.SIPR0.addr commonBlockOffset 4
  pure ⟨v[0], v[1], v[2], v[3]⟩

/-- `Registers::set_sipr`, `ll/src/lib.rs:683-685`. -/
def setSipr (v : Ipv4) : M σ Unit := do
  w.write Reg.SIPR0.addr commonBlockOffset v.octets

/-- `Registers::intlevel`, `ll/src/lib.rs:720-724`. -/
def intlevel : M σ UInt16 := do
  let v ← w.read Reg.INTLEVEL0.addr commonBlockOffset 2
  pure (be16 v[0] v[1])

/-- `Registers::set_intlevel`, `ll/src/lib.rs:746-752`. -/
def setIntlevel (v : UInt16) : M σ Unit := do
  w.write Reg.INTLEVEL0.addr commonBlockOffset (toBe16 v)

/-- `Registers::ir`, `ll/src/lib.rs:775-779`. -/
def ir : M σ Interrupt := do
  let v ← w.read Reg.IR.addr commonBlockOffset 1
  pure ⟨v[0]⟩

/-- `Registers::set_ir`, `ll/src/lib.rs:806-808`. -/
def setIr (v : Interrupt) : M σ Unit := do
  w.write Reg.IR.addr commonBlockOffset [v.raw]

/-- `Registers::imr`, `ll/src/lib.rs:831-835`. -/
def imr : M σ Interrupt := do
  let v ← w.read Reg.IMR.addr commonBlockOffset 1
  pure ⟨v[0]⟩

/-- `Registers::set_imr`, `ll/src/lib.rs:864-866`. -/
def setImr (v : Interrupt) : M σ Unit := do
  w.write Reg.IMR.addr commonBlockOffset [v.raw]

/-- `Registers::sir`, `ll/src/lib.rs:900-904`. -/
def sir : M σ UInt8 := do
  let v ← w.read Reg.SIR.addr commonBlockOffset 1
  pure v[0]

/-- `Registers::simr`, `ll/src/lib.rs:930-934`. -/
def simr : M σ UInt8 := do
  let v ← w.read Reg.SIMR.addr commonBlockOffset 1
  pure v[0]

/-- `Registers::set_simr`, `ll/src/lib.rs:957-959`. -/
def setSimr (v : UInt8) : M σ Unit := do
  w.write Reg.SIMR.addr commonBlockOffset [v]

/-- `Registers::rtr`, `ll/src/lib.rs:990-994`. -/
def rtr : M σ UInt16 := do
  let v ← w.read Reg.RTR0.addr commonBlockOffset 2
  pure (be16 v[0] v[1])

/-- `Registers::set_rtr`, `ll/src/lib.rs:1016-1018`. -/
def setRtr (v : UInt16) : M σ Unit := do
  w.write Reg.RTR0.addr commonBlockOffset (toBe16 v)

/-- `Registers::rcr`, `ll/src/lib.rs:1045-1049`. -/
def rcr : M σ UInt8 := do
  let v ← w.read Reg.RCR.addr commonBlockOffset 1
  pure v[0]

/-- `Registers::set_rcr`, `ll/src/lib.rs:1071-1073`. -/
def setRcr (v : UInt8) : M σ Unit := do
  w.write Reg.RCR.addr commonBlockOffset [v]

/-- `Registers::ptimer`, `ll/src/lib.rs:1098-1102`. -/
def ptimer : M σ UInt8 := do
  let v ← w.read Reg.PTIMER.addr commonBlockOffset 1
  pure v[0]

/-- `Registers::set_ptimer`, `ll/src/lib.rs:1124-1126`. -/
def setPtimer (v : UInt8) : M σ Unit := do
  w.write Reg.PTIMER.addr commonBlockOffset [v]

/-- `Registers::pmagic`, `ll/src/lib.rs:1149-1153`. -/
def pmagic : M σ UInt8 := do
  let v ← w.read Reg.PMAGIC.addr commonBlockOffset 1
  pure v[0]

/-- `Registers::set_pmagic`, `ll/src/lib.rs:1175-1177`. -/
def setPmagic (v : UInt8) : M σ Unit := do
  w.write Reg.PMAGIC.addr commonBlockOffset [v]

/-- `Registers::phar`, `ll/src/lib.rs:1198-1202`. -/
def phar : M σ Eui48 := do
  let v ← w.read Reg.PHAR0.addr commonBlockOffset 6
  pure ⟨v[0], v[1], v[2], v[3], v[4], v[5]⟩

/-- `Registers::set_phar`, `ll/src/lib.rs:1222-1224`. -/
def setPhar (v : Eui48) : M σ Unit := do
  w.write Reg.PHAR0.addr commonBlockOffset v.octets

/-- `Registers::psid`, `ll/src/lib.rs:1248-1252`. -/
def psid : M σ UInt16 := do
  let v ← w.read Reg.PSID0.addr commonBlockOffset 2
  pure (be16 v[0] v[1])

/-- `Registers::set_psid`, `ll/src/lib.rs:1274-1276`. -/
def setPsid (v : UInt16) : M σ Unit := do
  w.write Reg.PSID0.addr commonBlockOffset (toBe16 v)

/-- `Registers::pmru`, `ll/src/lib.rs:1299-1303`. -/
def pmru : M σ UInt16 := do
  let v ← w.read Reg.PMRU0.addr commonBlockOffset 2
  pure (be16 v[0] v[1])

/-- `Registers::set_pmru`, `ll/src/lib.rs:1325-1327`. -/
def setPmru (v : UInt16) : M σ Unit := do
  w.write Reg.PMRU0.addr commonBlockOffset (toBe16 v)

/-- `Registers::uipr`, `ll/src/lib.rs:1355-1359`. -/
def uipr : M σ Ipv4 := do
  let v ← w.read Reg.UIPR0.addr commonBlockOffset 4
  pure ⟨v[0], v[1], v[2], v[3]⟩

/-- `Registers::uportr`, `ll/src/lib.rs:1381-1385`. -/
def uportr : M σ UInt16 := do
  let v ← w.read Reg.UPORTR0.addr commonBlockOffset 2
  pure (be16 v[0] v[1])

/-- `Registers::phycfgr`, `ll/src/lib.rs:1406-1410`. -/
def phycfgr : M σ PhyCfg := do
  let v ← w.read Reg.PHYCFGR.addr commonBlockOffset 1
  pure ⟨v[0]⟩

/-- `Registers::set_phycfgr`, `ll/src/lib.rs:1431-1433`. -/
def setPhycfgr (v : PhyCfg) : M σ Unit := do
  w.write Reg.PHYCFGR.addr commonBlockOffset [v.raw]

/-- `Registers::version`, `ll/src/lib.rs:1459-1463`. -/
def version : M σ UInt8 := do
  let v ← w.read Reg.VERSIONR.addr commonBlockOffset 1
  pure v[0]

/-- `Registers::sn_mr`, `ll/src/lib.rs:1484-1488`. -/
def snMr (sn : Sn) : M σ SocketMode := do
  let v ← w.read SnReg.MR.addr sn.block 1
  pure ⟨v[0]⟩

/-- `Registers::set_sn_mr`, `ll/src/lib.rs:1509-1511`. -/
def setSnMr (sn : Sn) (v : SocketMode) : M σ Unit := do
  w.write SnReg.MR.addr sn.block [v.raw]

/-- `Registers::sn_cr`, `ll/src/lib.rs:1543-1547`. -/
def snCr (sn : Sn) : M σ UInt8 := do
  let v ← w.read SnReg.CR.addr sn.block 1
  pure v[0]

/-- `Registers::set_sn_cr`, `ll/src/lib.rs:1567-1569`. -/
def setSnCr (sn : Sn) (v : SocketCommand) : M σ Unit := do
  w.write SnReg.CR.addr sn.block [v.code]

/-- `Registers::sn_ir`, `ll/src/lib.rs:1589-1593`. -/
def snIr (sn : Sn) : M σ SocketInterrupt := do
  let v ← w.read SnReg.IR.addr sn.block 1
  pure ⟨v[0]⟩

/-- `Registers::set_sn_ir`, `ll/src/lib.rs:1639-1641`. -/
def setSnIr (sn : Sn) (v : UInt8) : M σ Unit := do
  w.write SnReg.IR.addr sn.block [v]

/-- `Registers::sn_sr`, `ll/src/lib.rs:1678-1682`. -/
def snSr (sn : Sn) : M σ (Except UInt8 SocketStatus) := do
  let v ← w.read SnReg.SR.addr sn.block 1
  pure (SocketStatus.tryFrom v[0])

/-- `Registers::sn_port`, `ll/src/lib.rs:1705-1709`. -/
def snPort (sn : Sn) : M σ UInt16 := do
  let v ← w.read SnReg.PORT0.addr sn.block 2
  pure (be16 v[0] v[1])

/-- `Registers::set_sn_port`, `ll/src/lib.rs:1731-1733`. -/
def setSnPort (sn : Sn) (v : UInt16) : M σ Unit := do
  w.write SnReg.PORT0.addr sn.block (toBe16 v)

/-- `Registers::sn_dhar`, `ll/src/lib.rs:1757-1761`. -/
def snDhar (sn : Sn) : M σ Eui48 := do
  let v ← w.read SnReg.DHAR0.addr sn.block 6
  pure ⟨v[0], v[1], v[2], v[3], v[4], v[5]⟩

/-- `Registers::set_sn_dhar`, `ll/src/lib.rs:1784-1786`. -/
def setSnDhar (sn : Sn) (v : Eui48) : M σ Unit := do
  w.write SnReg.DHAR0.addr sn.block v.octets

/-- `Registers::sn_dipr`, `ll/src/lib.rs:1820-1824`. -/
def snDipr (sn : Sn) : M σ Ipv4 := do
  let v ← w.read SnReg.DIPR0.addr sn.block 4
  pure ⟨v[0], v[1], v[2], v[3]⟩

/-- `Registers::set_sn_dipr`, `ll/src/lib.rs:1846-1848`. -/
def setSnDipr (sn : Sn) (v : Ipv4) : M σ Unit := do
  w.write SnReg.DIPR0.addr sn.block v.octets

/-- `Registers::sn_dport`, `ll/src/lib.rs:1882-1886`. -/
def snDport (sn : Sn) : M σ UInt16 := do
  let v ← w.read SnReg.DPORT0.addr sn.block 2
  pure (be16 v[0] v[1])

/-- `Registers::set_sn_dport`, `ll/src/lib.rs:1908-1910`. -/
def setSnDport (sn : Sn) (v : UInt16) : M σ Unit := do
  w.write SnReg.DPORT0.addr sn.block (toBe16 v)

/-- `Registers::sn_dest`, `ll/src/lib.rs:1938-1945`. -/
def snDest (sn : Sn) : M σ SockAddr := do
  let v ← w.read SnReg.DIPR0.addr sn.block 6
  pure ⟨⟨v[0], v[1], v[2], v[3]⟩, be16 v[4] v[5]⟩

/-- `Registers::set_sn_dest`, `ll/src/lib.rs:1973-1983`. -/
def setSnDest (sn : Sn) (v : SockAddr) : M σ Unit := do
  w.write SnReg.DIPR0.addr sn.block
    [v.ip.a, v.ip.b, v.ip.c, v.ip.d, (v.port >>> 8).toUInt8, v.port.toUInt8]

/-- `Registers::sn_mssr`, `ll/src/lib.rs:2035-2039`. -/
def snMssr (sn : Sn) : M σ UInt16 := do
  let v ← w.read SnReg.MSSR0.addr sn.block 2
  pure (be16 v[0] v[1])

/-- `Registers::set_sn_mssr`, `ll/src/lib.rs:2061-2063`. -/
def setSnMssr (sn : Sn) (v : UInt16) : M σ Unit := do
  w.write SnReg.MSSR0.addr sn.block (toBe16 v)

/-- `Registers::sn_tos`, `ll/src/lib.rs:2091-2095`. -/
def snTos (sn : Sn) : M σ UInt8 := do
  let v ← w.read SnReg.TOS.addr sn.block 1
  pure v[0]

/-- `Registers::set_sn_tos`, `ll/src/lib.rs:2117-2119`. -/
def setSnTos (sn : Sn) (v : UInt8) : M σ Unit := do
  w.write SnReg.TOS.addr sn.block [v]

/-- `Registers::sn_ttl`, `ll/src/lib.rs:2144-2148`. -/
def snTtl (sn : Sn) : M σ UInt8 := do
  let v ← w.read SnReg.TTL.addr sn.block 1
  pure v[0]

/-- `Registers::set_sn_ttl`, `ll/src/lib.rs:2170-2172`. -/
def setSnTtl (sn : Sn) (v : UInt8) : M σ Unit := do
  w.write SnReg.TTL.addr sn.block [v]

/-- `Registers::sn_rxbuf_size`, `ll/src/lib.rs:2213-2217`. -/
def snRxbufSize (sn : Sn) : M σ (Except UInt8 BufferSize) := do
  let v ← w.read SnReg.RXBUF_SIZE.addr sn.block 1
  pure (BufferSize.tryFrom v[0])

/-- `Registers::set_sn_rxbuf_size`, `ll/src/lib.rs:2239-2241`. -/
def setSnRxbufSize (sn : Sn) (v : BufferSize) : M σ Unit := do
  w.write SnReg.RXBUF_SIZE.addr sn.block [v.code]

/-- `Registers::sn_txbuf_size`, `ll/src/lib.rs:2282-2286`. -/
def snTxbufSize (sn : Sn) : M σ (Except UInt8 BufferSize) := do
  let v ← w.read SnReg.TXBUF_SIZE.addr sn.block 1
  pure (BufferSize.tryFrom v[0])

/-- `Registers::set_sn_txbuf_size`, `ll/src/lib.rs:2308-2310`. -/
def setSnTxbufSize (sn : Sn) (v : BufferSize) : M σ Unit := do
  w.write SnReg.TXBUF_SIZE.addr sn.block [v.code]

/-- `Registers::sn_tx_fsr`, `ll/src/lib.rs:2352-2356`. -/
def snTxFsr (sn : Sn) : M σ UInt16 := do
  let v ← w.read SnReg.TX_FSR0.addr sn.block 2
  pure (be16 v[0] v[1])

/-- `Registers::sn_tx_rd`, `ll/src/lib.rs:2393-2397`. -/
def snTxRd (sn : Sn) : M σ UInt16 := do
  let v ← w.read SnReg.TX_RD0.addr sn.block 2
  pure (be16 v[0] v[1])

/-- `Registers::sn_tx_wr`, `ll/src/lib.rs:2430-2434`. -/
def snTxWr (sn : Sn) : M σ UInt16 := do
  let v ← w.read SnReg.TX_WR0.addr sn.block 2
  pure (be16 v[0] v[1])

/-- `Registers::set_sn_tx_wr`, `ll/src/lib.rs:2441-2443`. -/
def setSnTxWr (sn : Sn) (v : UInt16) : M σ Unit := do
  w.write SnReg.TX_WR0.addr sn.block (toBe16 v)

/-- `Registers::sn_tx_ptrs`, `ll/src/lib.rs:2449-2456`. -/
def snTxPtrs (sn : Sn) : M σ TxPtrs := do
  let v ← w.read SnReg.TX_FSR0.addr sn.block 6
  pure { fsr := be16 v[0] v[1], wr := be16 v[4] v[5] }

/-- `Registers::sn_rx_rsr`, `ll/src/lib.rs:2482-2486`. -/
def snRxRsr (sn : Sn) : M σ UInt16 := do
  let v ← w.read SnReg.RX_RSR0.addr sn.block 2
  pure (be16 v[0] v[1])

/-- `Registers::sn_rx_rd`, `ll/src/lib.rs:2518-2522`. -/
def snRxRd (sn : Sn) : M σ UInt16 := do
  let v ← w.read SnReg.RX_RD0.addr sn.block 2
  pure (be16 v[0] v[1])

/-- `Registers::set_sn_rx_rd`, `ll/src/lib.rs:2528-2530`. -/
def setSnRxRd (sn : Sn) (v : UInt16) : M σ Unit := do
  w.write SnReg.RX_RD0.addr sn.block (toBe16 v)

/-- `Registers::sn_rx_wr`, `ll/src/lib.rs:2553-2557`. -/
def snRxWr (sn : Sn) : M σ UInt16 := do
  let v ← w.read SnReg.RX_WR0.addr sn.block 2
  pure (be16 v[0] v[1])

/-- `Registers::sn_rx_ptrs`, `ll/src/lib.rs:2563-2570`. -/
def snRxPtrs (sn : Sn) : M σ RxPtrs := do
  let v ← w.read SnReg.RX_RSR0.addr sn.block 4
  pure { rsr := be16 v[0] v[1], rd := be16 v[2] v[3] }

/-- `Registers::sn_imr`, `ll/src/lib.rs:2591-2595`. -/
def snImr (sn : Sn) : M σ SocketInterruptMask := do
  let v ← w.read SnReg.IMR.addr sn.block 1
  pure ⟨v[0]⟩

/-- `Registers::set_sn_imr`, `ll/src/lib.rs:2615-2617`. -/
def setSnImr (sn : Sn) (v : SocketInterruptMask) : M σ Unit := do
  w.write SnReg.IMR.addr sn.block [v.raw]

/-- `Registers::sn_frag`, `ll/src/lib.rs:2640-2644`. -/
def snFrag (sn : Sn) : M σ UInt16 := do
  let v ← w.read SnReg.FRAG0.addr sn.block 2
  pure (be16 v[0] v[1])

/-- `Registers::set_sn_frag`, `ll/src/lib.rs:2666-2668`. -/
def setSnFrag (sn : Sn) (v : UInt16) : M σ Unit := do
  w.write SnReg.FRAG0.addr sn.block (toBe16 v)

/-- `Registers::sn_kpalvtr`, `ll/src/lib.rs:2706-2710`. -/
def snKpalvtr (sn : Sn) : M σ UInt8 := do
  let v ← w.read SnReg.KPALVTR.addr sn.block 1
  pure v[0]

/-- `Registers::set_sn_kpalvtr`, `ll/src/lib.rs:2733-2735`. -/
def setSnKpalvtr (sn : Sn) (v : UInt8) : M σ Unit := do
  w.write SnReg.KPALVTR.addr sn.block [v]

/-- `Registers::set_sn_tx_buf`, `ll/src/lib.rs:2794-2796`. -/
def setSnTxBuf (sn : Sn) (ptr : UInt16) (buf : Bytes) : M σ Unit := do
  w.write ptr sn.txBlock buf

/-- `Registers::sn_tx_buf`, `ll/src/lib.rs:2820-2822`. -/
def snTxBuf (sn : Sn) (ptr : UInt16) (n : Nat) : M σ Bytes := do
  let v ← w.read ptr sn.txBlock n
  pure v.toList

/-- `Registers::sn_rx_buf`, `ll/src/lib.rs:2877-2879`. -/
def snRxBuf (sn : Sn) (ptr : UInt16) (n : Nat) : M σ Bytes := do
  let v ← w.read ptr sn.rxBlock n
  pure v.toList

/-- `Registers::set_sn_rx_buf`, `ll/src/lib.rs:2903-2905`. -/
def setSnRxBuf (sn : Sn) (ptr : UInt16) (buf : Bytes) : M σ Unit := do
  w.write ptr sn.rxBlock buf

end Bus
end Verif

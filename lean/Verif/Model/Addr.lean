import Verif.Model.Basic
/-!
# Register addresses (`ll/src/addr.rs`)
-/
namespace Verif

/-- `enum Reg`, `ll/src/addr.rs:5-102`. -/
inductive Reg where
  | MR
  | GAR0
  | GAR1
  | GAR2
  | GAR3
  | SUBR0
  | SUBR1
  | SUBR2
  | SUBR3
  | SHAR0
  | SHAR1
  | SHAR2
  | SHAR3
  | SHAR4
  | SHAR5
  | SIPR0
  | SIPR1
  | SIPR2
  | SIPR3
  | INTLEVEL0
  | INTLEVEL1
  | IR
  | IMR
  | SIR
  | SIMR
  | RTR0
  | RTR1
  | RCR
  | PTIMER
  | PMAGIC
  | PHAR0
  | PHAR1
  | PHAR2
  | PHAR3
  | PHAR4
  | PHAR5
  | PSID0
  | PSID1
  | PMRU0
  | PMRU1
  | UIPR0
  | UIPR1
  | UIPR2
  | UIPR3
  | UPORTR0
  | UPORTR1
  | PHYCFGR
  | VERSIONR
  deriving DecidableEq, Repr

/-- `Reg::addr` / `Reg as u16`: the discriminants, `ll/src/addr.rs:5-102`. -/
def Reg.addr : Reg → UInt16
  | .MR => 0x0000
  | .GAR0 => 0x0001
  | .GAR1 => 0x0002
  | .GAR2 => 0x0003
  | .GAR3 => 0x0004
  | .SUBR0 => 0x0005
  | .SUBR1 => 0x0006
  | .SUBR2 => 0x0007
  | .SUBR3 => 0x0008
  | .SHAR0 => 0x0009
  | .SHAR1 => 0x000A
  | .SHAR2 => 0x000B
  | .SHAR3 => 0x000C
  | .SHAR4 => 0x000D
  | .SHAR5 => 0x000E
  | .SIPR0 => 0x000F
  | .SIPR1 => 0x0010
  | .SIPR2 => 0x0011
  | .SIPR3 => 0x0012
  | .INTLEVEL0 => 0x0013
  | .INTLEVEL1 => 0x0014
  | .IR => 0x0015
  | .IMR => 0x0016
  | .SIR => 0x0017
  | .SIMR => 0x0018
  | .RTR0 => 0x0019
  | .RTR1 => 0x001A
  | .RCR => 0x001B
  | .PTIMER => 0x001C
  | .PMAGIC => 0x001D
  | .PHAR0 => 0x001E
  | .PHAR1 => 0x001F
  | .PHAR2 => 0x0020
  | .PHAR3 => 0x0021
  | .PHAR4 => 0x0022
  | .PHAR5 => 0x0023
  | .PSID0 => 0x0024
  | .PSID1 => 0x0025
  | .PMRU0 => 0x0026
  | .PMRU1 => 0x0027
  | .UIPR0 => 0x0028
  | .UIPR1 => 0x0029
  | .UIPR2 => 0x002A
  | .UIPR3 => 0x002B
  | .UPORTR0 => 0x002C
  | .UPORTR1 => 0x002D
  | .PHYCFGR => 0x002E
  | .VERSIONR => 0x0039

/-- `TryFrom<u16> for Reg`, `ll/src/addr.rs:114-162`: the match arms in source order. -/
def Reg.tryFrom (val : UInt16) : Except UInt16 Reg :=
  if val = (Reg.MR).addr then .ok .MR else
  if val = (Reg.GAR0).addr then .ok .GAR0 else
  if val = (Reg.GAR1).addr then .ok .GAR1 else
  if val = (Reg.GAR2).addr then .ok .GAR2 else
  if val = (Reg.GAR3).addr then .ok .GAR3 else
  if val = (Reg.SUBR0).addr then .ok .SUBR0 else
  if val = (Reg.SUBR1).addr then .ok .SUBR1 else
  if val = (Reg.SUBR2).addr then .ok .SUBR2 else
  if val = (Reg.SUBR3).addr then .ok .SUBR3 else
  if val = (Reg.SHAR0).addr then .ok .SHAR0 else
  if val = (Reg.SHAR1).addr then .ok .SHAR1 else
  if val = (Reg.SHAR2).addr then .ok .SHAR2 else
  if val = (Reg.SHAR3).addr then .ok .SHAR3 else
  if val = (Reg.SHAR4).addr then .ok .SHAR4 else
  if val = (Reg.SHAR5).addr then .ok .SHAR5 else
  if val = (Reg.SIPR0).addr then .ok .SIPR0 else
  if val = (Reg.SIPR1).addr then .ok .SIPR1 else
  if val = (Reg.SIPR2).addr then .ok .SIPR2 else
  if val = (Reg.SIPR3).addr then .ok .SIPR3 else
  if val = (Reg.INTLEVEL0).addr then .ok .INTLEVEL0 else
  if val = (Reg.INTLEVEL1).addr then .ok .INTLEVEL1 else
  if val = (Reg.IR).addr then .ok .IR else
  if val = (Reg.IMR).addr then .ok .IMR else
  if val = (Reg.SIR).addr then .ok .SIR else
  if val = (Reg.SIMR).addr then .ok .SIMR else
  if val = (Reg.RTR0).addr then .ok .RTR0 else
  if val = (Reg.RTR1).addr then .ok .RTR1 else
  if val = (Reg.RCR).addr then .ok .RCR else
  if val = (Reg.PTIMER).addr then .ok .PTIMER else
  if val = (Reg.PMAGIC).addr then .ok .PMAGIC else
  if val = (Reg.PHAR0).addr then .ok .PHAR0 else
  if val = (Reg.PHAR1).addr then .ok .PHAR1 else
  if val = (Reg.PHAR2).addr then .ok .PHAR2 else
  if val = (Reg.PHAR3).addr then .ok .PHAR3 else
  if val = (Reg.PHAR4).addr then .ok .PHAR4 else
  if val = (Reg.PHAR5).addr then .ok .PHAR5 else
  if val = (Reg.PSID0).addr then .ok .PSID0 else
  if val = (Reg.PSID1).addr then .ok .PSID1 else
  if val = (Reg.PMRU0).addr then .ok .PMRU0 else
  if val = (Reg.PMRU1).addr then .ok .PMRU1 else
  if val = (Reg.UIPR0).addr then .ok .UIPR0 else
  if val = (Reg.UPORTR0).addr then .ok .UPORTR0 else
  if val = (Reg.UPORTR1).addr then .ok .UPORTR1 else
  if val = (Reg.PHYCFGR).addr then .ok .PHYCFGR else
  if val = (Reg.VERSIONR).addr then .ok .VERSIONR else
  .error val

/-- `Reg::is_ro`, `ll/src/addr.rs:189-200`. -/
def Reg.isRo : Reg → Bool
  | .UIPR0 | .UIPR1 | .UIPR2 | .UIPR3 | .UPORTR0 | .UPORTR1 | .VERSIONR => true
  | _ => false

/-- `enum SnReg`, `ll/src/addr.rs:207-288`. -/
inductive SnReg where
  | MR
  | CR
  | IR
  | SR
  | PORT0
  | PORT1
  | DHAR0
  | DHAR1
  | DHAR2
  | DHAR3
  | DHAR4
  | DHAR5
  | DIPR0
  | DIPR1
  | DIPR2
  | DIPR3
  | DPORT0
  | DPORT1
  | MSSR0
  | MSSR1
  | TOS
  | TTL
  | RXBUF_SIZE
  | TXBUF_SIZE
  | TX_FSR0
  | TX_FSR1
  | TX_RD0
  | TX_RD1
  | TX_WR0
  | TX_WR1
  | RX_RSR0
  | RX_RSR1
  | RX_RD0
  | RX_RD1
  | RX_WR0
  | RX_WR1
  | IMR
  | FRAG0
  | FRAG1
  | KPALVTR
  deriving DecidableEq, Repr

/-- `SnReg::addr` / `SnReg as u16`: the discriminants, `ll/src/addr.rs:207-288`. -/
def SnReg.addr : SnReg → UInt16
  | .MR => 0x0000
  | .CR => 0x0001
  | .IR => 0x0002
  | .SR => 0x0003
  | .PORT0 => 0x0004
  | .PORT1 => 0x0005
  | .DHAR0 => 0x0006
  | .DHAR1 => 0x0007
  | .DHAR2 => 0x0008
  | .DHAR3 => 0x0009
  | .DHAR4 => 0x000A
  | .DHAR5 => 0x000B
  | .DIPR0 => 0x000C
  | .DIPR1 => 0x000D
  | .DIPR2 => 0x000E
  | .DIPR3 => 0x000F
  | .DPORT0 => 0x0010
  | .DPORT1 => 0x0011
  | .MSSR0 => 0x0012
  | .MSSR1 => 0x0013
  | .TOS => 0x0015
  | .TTL => 0x0016
  | .RXBUF_SIZE => 0x001E
  | .TXBUF_SIZE => 0x001F
  | .TX_FSR0 => 0x0020
  | .TX_FSR1 => 0x0021
  | .TX_RD0 => 0x0022
  | .TX_RD1 => 0x0023
  | .TX_WR0 => 0x0024
  | .TX_WR1 => 0x0025
  | .RX_RSR0 => 0x0026
  | .RX_RSR1 => 0x0027
  | .RX_RD0 => 0x0028
  | .RX_RD1 => 0x0029
  | .RX_WR0 => 0x002A
  | .RX_WR1 => 0x002B
  | .IMR => 0x002C
  | .FRAG0 => 0x002D
  | .FRAG1 => 0x002E
  | .KPALVTR => 0x002F

/-- `TryFrom<u16> for SnReg`, `ll/src/addr.rs:300-343`: the match arms in source order. -/
def SnReg.tryFrom (val : UInt16) : Except UInt16 SnReg :=
  if val = (SnReg.MR).addr then .ok .MR else
  if val = (SnReg.CR).addr then .ok .CR else
  if val = (SnReg.IR).addr then .ok .IR else
  if val = (SnReg.SR).addr then .ok .SR else
  if val = (SnReg.PORT0).addr then .ok .PORT0 else
  if val = (SnReg.PORT1).addr then .ok .PORT1 else
  if val = (SnReg.DHAR0).addr then .ok .DHAR0 else
  if val = (SnReg.DHAR1).addr then .ok .DHAR1 else
  if val = (SnReg.DHAR2).addr then .ok .DHAR2 else
  if val = (SnReg.DHAR3).addr then .ok .DHAR3 else
  if val = (SnReg.DHAR4).addr then .ok .DHAR4 else
  if val = (SnReg.DHAR5).addr then .ok .DHAR5 else
  if val = (SnReg.DIPR0).addr then .ok .DIPR0 else
  if val = (SnReg.DIPR1).addr then .ok .DIPR1 else
  if val = (SnReg.DIPR2).addr then .ok .DIPR2 else
  if val = (SnReg.DIPR3).addr then .ok .DIPR3 else
  if val = (SnReg.DPORT0).addr then .ok .DPORT0 else
  if val = (SnReg.DPORT1).addr then .ok .DPORT1 else
  if val = (SnReg.MSSR0).addr then .ok .MSSR0 else
  if val = (SnReg.MSSR1).addr then .ok .MSSR1 else
  if val = (SnReg.TOS).addr then .ok .TOS else
  if val = (SnReg.TTL).addr then .ok .TTL else
  if val = (SnReg.RXBUF_SIZE).addr then .ok .RXBUF_SIZE else
  if val = (SnReg.TXBUF_SIZE).addr then .ok .TXBUF_SIZE else
  if val = (SnReg.TX_FSR0).addr then .ok .TX_FSR0 else
  if val = (SnReg.TX_FSR1).addr then .ok .TX_FSR1 else
  if val = (SnReg.TX_RD0).addr then .ok .TX_RD0 else
  if val = (SnReg.TX_RD1).addr then .ok .TX_RD1 else
  if val = (SnReg.TX_WR0).addr then .ok .TX_WR0 else
  if val = (SnReg.TX_WR1).addr then .ok .TX_WR1 else
  if val = (SnReg.RX_RSR0).addr then .ok .RX_RSR0 else
  if val = (SnReg.RX_RSR1).addr then .ok .RX_RSR1 else
  if val = (SnReg.RX_RD0).addr then .ok .RX_RD0 else
  if val = (SnReg.RX_RD1).addr then .ok .RX_RD1 else
  if val = (SnReg.RX_WR0).addr then .ok .RX_WR0 else
  if val = (SnReg.RX_WR1).addr then .ok .RX_WR1 else
  if val = (SnReg.IMR).addr then .ok .IMR else
  if val = (SnReg.FRAG0).addr then .ok .FRAG0 else
  if val = (SnReg.FRAG1).addr then .ok .FRAG1 else
  if val = (SnReg.KPALVTR).addr then .ok .KPALVTR else
  .error val

/-- `SnReg::is_ro`, `ll/src/addr.rs:370-381`. -/
def SnReg.isRo : SnReg → Bool
  | .SR | .TX_FSR0 | .TX_FSR1 | .TX_RD0 | .TX_RD1 | .RX_RSR0 | .RX_RSR1 => true
  | _ => false

end Verif

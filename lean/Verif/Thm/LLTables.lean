import Verif.Proof.Table
import Verif.Spec.Table
/-!
# C01, C06, C07, C08: sockets, code tables, bit-fields
-/
namespace Verif.Thm
open Verif Spec

/-! ## C01 -/

/-- All 25 block-select values are different and fit the 5-bit field. -/
theorem C01_blocks_distinct :
    (commonBlockOffset :: (sockets.map Sn.block ++ sockets.map Sn.txBlock ++ sockets.map Sn.rxBlock)).Nodup
    ∧ ∀ b ∈ commonBlockOffset :: (sockets.map Sn.block ++ sockets.map Sn.txBlock ++ sockets.map Sn.rxBlock),
        b.toNat < 32 := by decide

/-- `sockets` (`Sn::iter`) lists every socket once, in order of its number. -/
theorem C01_sockets : (∀ s : Sn, s ∈ sockets) ∧ sockets.map (fun s => s.toU8.toNat) = List.range 8 := by
  constructor
  · intro s; cases s <;> decide
  · decide

/-- The blocks are the ones of the datasheet: registers `4n+1`, TX buffer `4n+2`, RX buffer `4n+3`. -/
theorem C01_datasheet_blocks (s : Sn) : commonBlockOffset.toNat = 0 ∧
    s.block.toNat = 4 * s.toU8.toNat + 1 ∧ s.txBlock.toNat = 4 * s.toU8.toNat + 2 ∧
    s.rxBlock.toNat = 4 * s.toU8.toNat + 3 :=
  ⟨rfl, s.block_toNat, s.txBlock_toNat, s.rxBlock_toNat⟩

/-- The bit mask has exactly the socket's bit. -/
theorem C01_bitmask (s : Sn) : ∀ k < 8, bit s.bitmask k = (k == s.toU8.toNat) := by
  cases s <;> decide

/-- `try_from` accepts exactly 0..=7, inverts the conversion to integers, and hands back what it
rejects. -/
theorem C01_try_from (v : Int) :
    (∀ s, Sn.tryFrom v = .ok s ↔ v = s.toU8.toNat) ∧
    (∀ e, Sn.tryFrom v = .error e ↔ e = v ∧ (v < 0 ∨ 7 < v)) := by
  unfold Sn.tryFrom
  constructor
  · intro s
    repeat' split
    all_goals (cases s <;> simp_all [Sn.toU8])
  · intro e
    repeat' split
    all_goals (simp; try omega)

example : Sn.tryFrom 5 = .ok .sn5 ∧ Sn.tryFrom 8 = .error 8 := by decide

/-! ## C06 -/


theorem C06_SnReg : IsCodeTable SnReg.addr SnReg.tryFrom :=
  isCodeTable_of_check _ _ (by intro v; cases v <;> decide) SnReg.tryFrom_check

theorem C06_SocketStatus : IsCodeTable SocketStatus.code SocketStatus.tryFrom :=
  isCodeTable_of_check _ _ (by intro v; cases v <;> decide) (forall_u8 (by decide +kernel))

theorem C06_SocketCommand : IsCodeTable SocketCommand.code SocketCommand.tryFrom :=
  isCodeTable_of_check _ _ (by intro v; cases v <;> decide) (forall_u8 (by decide +kernel))

theorem C06_Protocol : IsCodeTable Protocol.code Protocol.tryFrom :=
  isCodeTable_of_check _ _ (by intro v; cases v <;> decide) (forall_u8 (by decide +kernel))

theorem C06_BufferSize : IsCodeTable BufferSize.code BufferSize.tryFrom :=
  isCodeTable_of_check _ _ (by intro v; cases v <;> decide) (forall_u8 (by decide +kernel))

/-- `OperationMode::from_raw` uses the three low bits, is right on all codes of modes, and maps the
reserved code `101` to `Auto`. -/
theorem C06_OperationMode :
    (∀ m : OperationMode, ∀ hi : UInt8, OperationMode.fromRaw (m.code ||| (hi <<< 3)) = m) ∧
    (∀ v : UInt8, (OperationMode.fromRaw v).code = v &&& 7 ∨
      (v &&& 7 = 0b101 ∧ OperationMode.fromRaw v = .auto)) := by
  constructor
  · intro m
    cases m <;> (apply forall_u8; decide +kernel)
  · apply forall_u8; decide +kernel

/-- The numeric codes are the datasheet's. -/
theorem C06_datasheet_codes :
    [SocketStatus.closed, .init, .listen, .synSent, .synRecv, .established, .finWait, .closing, .timeWait,
      .closeWait, .lastAck, .udp, .macraw].map (fun s => s.code.toNat)
      = [0x00, 0x13, 0x14, 0x15, 0x16, 0x17, 0x18, 0x1A, 0x1B, 0x1C, 0x1D, 0x22, 0x42] ∧
    [SocketCommand.accepted, .«open», .listen, .connect, .disconnect, .close, .send, .sendMac, .sendKeep,
      .recv].map (fun s => s.code.toNat) = [0x00, 0x01, 0x02, 0x04, 0x08, 0x10, 0x20, 0x21, 0x22, 0x40] ∧
    [Protocol.closed, .tcp, .udp, .macraw].map (fun s => s.code.toNat) = [0, 1, 2, 4] ∧
    [OperationMode.halfDuplex10bt, .fullDuplex10bt, .halfDuplex100bt, .fullDuplex100bt, .halfDuplex100btAuto,
      .powerDown, .auto].map (fun s => s.code.toNat) = [0, 1, 2, 3, 4, 6, 7] := by decide

/-- The full claim for the common register addresses is FALSE of the code: `Reg::try_from` has no
arms for `UIPR1`, `UIPR2`, `UIPR3`. -/
theorem C06_Reg_false : ¬ IsCodeTable Reg.addr Reg.tryFrom := by
  intro h
  have := h.roundtrip .UIPR1
  revert this
  decide

/-- What does hold for `Reg`: everything except the three missing arms (addresses 0x29..0x2B). -/
theorem C06_Reg_partial :
    (∀ r : Reg, r ≠ .UIPR1 → r ≠ .UIPR2 → r ≠ .UIPR3 → Reg.tryFrom r.addr = .ok r) ∧
    (∀ c r, Reg.tryFrom c = .ok r → r.addr = c) ∧
    (∀ c e, Reg.tryFrom c = .error e →
      e = c ∧ ∀ r : Reg, r.addr = c → r = .UIPR1 ∨ r = .UIPR2 ∨ r = .UIPR3) ∧
    (∀ r s : Reg, r.addr = s.addr → r = s) := by
  have rt : ∀ r : Reg, r ≠ .UIPR1 → r ≠ .UIPR2 → r ≠ .UIPR3 → Reg.tryFrom r.addr = .ok r := by
    intro r; cases r <;> decide
  refine ⟨rt, ?_, ?_, Reg.addr_inj⟩
  · intro c v h
    exact (check_ok _ _ Reg.tryFrom_check c v h)
  · intro c e h
    refine ⟨check_error _ _ Reg.tryFrom_check c e h, ?_⟩
    intro r hr
    subst hr
    by_cases h1 : r = .UIPR1
    · exact .inl h1
    by_cases h2 : r = .UIPR2
    · exact .inr (.inl h2)
    by_cases h3 : r = .UIPR3
    · exact .inr (.inr h3)
    rw [rt r h1 h2 h3] at h
    cases h

/-- The three unreachable addresses, concretely. -/
theorem C06_Reg_witness : Reg.tryFrom 0x29 = .error 0x29 ∧ Reg.tryFrom 0x2A = .error 0x2A ∧
    Reg.tryFrom 0x2B = .error 0x2B ∧ Reg.UIPR1.addr = 0x29 ∧ Reg.UIPR2.addr = 0x2A ∧
    Reg.UIPR3.addr = 0x2B := by decide

/-- Read-only common registers: exactly the unreachable-address/port and version registers. -/
theorem C06_isRo : (∀ r : Reg, r.isRo = true ↔
      (0x28 ≤ r.addr.toNat ∧ r.addr.toNat ≤ 0x2D) ∨ r.addr.toNat = 0x39) ∧
    (∀ r : SnReg, r.isRo = true ↔ r.addr.toNat = 3 ∨ (0x20 ≤ r.addr.toNat ∧ r.addr.toNat ≤ 0x23) ∨
      (0x26 ≤ r.addr.toNat ∧ r.addr.toNat ≤ 0x27)) := by
  constructor <;> (intro r; cases r <;> decide)

/-! ## C08 -/

/-- Buffer sizes are 1024 times the register code; the default is 2 KiB; all fit 16 bits. -/
theorem C08_sizes (b : BufferSize) : b.sizeInBytes = 1024 * b.code.toNat ∧ b.sizeInBytes ≤ 16384 ∧
    (b.sizeInBytes = 0 ∨ 65536 % b.sizeInBytes = 0) ∧ BufferSize.default.sizeInBytes = 2048 := by
  cases b <;> decide

theorem C08_injective (b c : BufferSize) (h : b.sizeInBytes = c.sizeInBytes) : b = c := by
  cases b <;> cases c <;> first | rfl | (exact absurd h (by decide))

/-! ## C07 -/

section
local macro "bit_tac" : tactic => `(tactic|
  (intro ⟨x⟩; revert x; apply forall_u8; decide +kernel))
local macro "flag_tac" : tactic => `(tactic| (constructor <;> bit_tac))

theorem C07_Mode_wolEnabled : IsFlag Mode.raw Mode.wolEnabled Mode.enableWol Mode.disableWol 5 := by flag_tac
theorem C07_Mode_pbEnabled : IsFlag Mode.raw Mode.pbEnabled Mode.enablePb Mode.disablePb 4 := by flag_tac
theorem C07_Mode_pppoeEnabled : IsFlag Mode.raw Mode.pppoeEnabled Mode.enablePppoe Mode.disablePppoe 3 := by flag_tac
theorem C07_Mode_farpEnabled : IsFlag Mode.raw Mode.farpEnabled Mode.enableFarp Mode.disableFarp 1 := by flag_tac
theorem C07_Mode_rst : SetsBit Mode.raw Mode.rst 7 true := by bit_tac
theorem C07_Interrupt_conflict : IsFlag Interrupt.raw Interrupt.conflict Interrupt.setConflict Interrupt.clearConflict 7 := by flag_tac
theorem C07_Interrupt_unreach : IsFlag Interrupt.raw Interrupt.unreach Interrupt.setUnreach Interrupt.clearUnreach 6 := by flag_tac
theorem C07_Interrupt_pppoe : IsFlag Interrupt.raw Interrupt.pppoe Interrupt.setPppoe Interrupt.clearPppoe 5 := by flag_tac
theorem C07_Interrupt_mp : IsFlag Interrupt.raw Interrupt.mp Interrupt.setMp Interrupt.clearMp 4 := by flag_tac
theorem C07_PhyCfg_rst : SetsBit PhyCfg.raw PhyCfg.rst 7 false := by bit_tac
theorem C07_PhyCfg_opmd : IsFlag PhyCfg.raw PhyCfg.opmd PhyCfg.softwareOp PhyCfg.hardwareOp 6 := by flag_tac
theorem C07_SocketMode_multiEnabled : IsFlag SocketMode.raw SocketMode.multiEnabled SocketMode.enableMulti SocketMode.disableMulti 7 := by flag_tac
theorem C07_SocketMode_mfenEnabled : IsFlag SocketMode.raw SocketMode.mfenEnabled SocketMode.enableMfen SocketMode.disableMfen 7 := by flag_tac
theorem C07_SocketMode_bcastbEnabled : IsFlag SocketMode.raw SocketMode.bcastbEnabled SocketMode.enableBcastb SocketMode.disableBcastb 6 := by flag_tac
theorem C07_SocketMode_ndEnabled : IsFlag SocketMode.raw SocketMode.ndEnabled SocketMode.enableNd SocketMode.disableNd 5 := by flag_tac
theorem C07_SocketMode_mmbEnabled : IsFlag SocketMode.raw SocketMode.mmbEnabled SocketMode.enableMmb SocketMode.disableMmb 5 := by flag_tac
theorem C07_SocketMode_ucastbEnabled : IsFlag SocketMode.raw SocketMode.ucastbEnabled SocketMode.enableUcastb SocketMode.disableUcastb 4 := by flag_tac
theorem C07_SocketMode_mip6bEnabled : IsFlag SocketMode.raw SocketMode.mip6bEnabled SocketMode.enableMip6b SocketMode.disableMip6b 4 := by flag_tac
theorem C07_SocketMode_mc : IsFlag SocketMode.raw SocketMode.mc SocketMode.setIgmpV1 SocketMode.setIgmpV2 5 := by flag_tac
theorem C07_SocketInterrupt_con : ReadsBit SocketInterrupt.raw SocketInterrupt.conRaised 0 ∧
    SetsBit SocketInterrupt.raw SocketInterrupt.clearCon 0 true := by constructor <;> bit_tac
theorem C07_SocketInterruptMask_con : ReadsBit SocketInterruptMask.raw (fun r => !r.conMasked) 0 ∧
    SetsBit SocketInterruptMask.raw SocketInterruptMask.unmaskCon 0 true ∧
    SetsBit SocketInterruptMask.raw SocketInterruptMask.maskCon 0 false := by
  refine ⟨?_, ?_, ?_⟩ <;> bit_tac
theorem C07_SocketInterrupt_discon : ReadsBit SocketInterrupt.raw SocketInterrupt.disconRaised 1 ∧
    SetsBit SocketInterrupt.raw SocketInterrupt.clearDiscon 1 true := by constructor <;> bit_tac
theorem C07_SocketInterruptMask_discon : ReadsBit SocketInterruptMask.raw (fun r => !r.disconMasked) 1 ∧
    SetsBit SocketInterruptMask.raw SocketInterruptMask.unmaskDiscon 1 true ∧
    SetsBit SocketInterruptMask.raw SocketInterruptMask.maskDiscon 1 false := by
  refine ⟨?_, ?_, ?_⟩ <;> bit_tac
theorem C07_SocketInterrupt_recv : ReadsBit SocketInterrupt.raw SocketInterrupt.recvRaised 2 ∧
    SetsBit SocketInterrupt.raw SocketInterrupt.clearRecv 2 true := by constructor <;> bit_tac
theorem C07_SocketInterruptMask_recv : ReadsBit SocketInterruptMask.raw (fun r => !r.recvMasked) 2 ∧
    SetsBit SocketInterruptMask.raw SocketInterruptMask.unmaskRecv 2 true ∧
    SetsBit SocketInterruptMask.raw SocketInterruptMask.maskRecv 2 false := by
  refine ⟨?_, ?_, ?_⟩ <;> bit_tac
theorem C07_SocketInterrupt_timeout : ReadsBit SocketInterrupt.raw SocketInterrupt.timeoutRaised 3 ∧
    SetsBit SocketInterrupt.raw SocketInterrupt.clearTimeout 3 true := by constructor <;> bit_tac
theorem C07_SocketInterruptMask_timeout : ReadsBit SocketInterruptMask.raw (fun r => !r.timeoutMasked) 3 ∧
    SetsBit SocketInterruptMask.raw SocketInterruptMask.unmaskTimeout 3 true ∧
    SetsBit SocketInterruptMask.raw SocketInterruptMask.maskTimeout 3 false := by
  refine ⟨?_, ?_, ?_⟩ <;> bit_tac
theorem C07_SocketInterrupt_sendok : ReadsBit SocketInterrupt.raw SocketInterrupt.sendokRaised 4 ∧
    SetsBit SocketInterrupt.raw SocketInterrupt.clearSendok 4 true := by constructor <;> bit_tac
theorem C07_SocketInterruptMask_sendok : ReadsBit SocketInterruptMask.raw (fun r => !r.sendokMasked) 4 ∧
    SetsBit SocketInterruptMask.raw SocketInterruptMask.unmaskSendok 4 true ∧
    SetsBit SocketInterruptMask.raw SocketInterruptMask.maskSendok 4 false := by
  refine ⟨?_, ?_, ?_⟩ <;> bit_tac

/-- Some interrupt of the five is raised. -/
theorem C07_SocketInterrupt_any (r : SocketInterrupt) : r.anyRaised =
    (r.conRaised || r.disconRaised || r.recvRaised || r.timeoutRaised || r.sendokRaised) := by
  revert r; bit_tac

/-- PHY status bits. -/
theorem C07_PhyCfg_status : (∀ r : PhyCfg, (r.dpx = .full ↔ bit r.raw 2 = true) ∧
    (r.spd = .mbps100 ↔ bit r.raw 1 = true) ∧ (r.lnk = .up ↔ bit r.raw 0 = true)) := by
  bit_tac

/-- Setting the PHY operation mode selects software operation, sets the mode, and leaves the reset
bit and the three status bits alone. -/
theorem C07_PhyCfg_opmdc (m : OperationMode) : ∀ r : PhyCfg, (r.setOpmdc m).opmdc = m ∧
    (r.setOpmdc m).opmd = true ∧
    ∀ j ∈ [0, 1, 2, 7], bit (r.setOpmdc m).raw j = bit r.raw j := by
  cases m <;> bit_tac

/-- The other PHY setters do not change the operation mode. -/
theorem C07_PhyCfg_opmdc_frame : ∀ r : PhyCfg, r.rst.opmdc = r.opmdc ∧
    r.hardwareOp.opmdc = r.opmdc ∧ r.softwareOp.opmdc = r.opmdc := by
  bit_tac

/-- Setting the protocol is read back and leaves the four flag bits alone. -/
theorem C07_SocketMode_protocol (p : Protocol) : ∀ r : SocketMode, (r.setProtocol p).protocol = .ok p ∧
    ∀ j ∈ [4, 5, 6, 7], bit (r.setProtocol p).raw j = bit r.raw j := by
  cases p <;> bit_tac

/-- Changing a flag of the socket mode does not change the protocol. -/
theorem C07_SocketMode_protocol_frame : ∀ r : SocketMode, ∀ f ∈ [SocketMode.enableMulti,
      SocketMode.disableMulti, SocketMode.enableMfen, SocketMode.disableMfen, SocketMode.enableBcastb,
      SocketMode.disableBcastb, SocketMode.enableNd, SocketMode.disableNd, SocketMode.enableMmb,
      SocketMode.disableMmb, SocketMode.enableUcastb, SocketMode.disableUcastb, SocketMode.enableMip6b,
      SocketMode.disableMip6b, SocketMode.setIgmpV1, SocketMode.setIgmpV2],
    (f r).protocol = r.protocol := by
  bit_tac

/-- The reset values of the datasheet; `ALL_MASKED` masks the five interrupts. -/
theorem C07_defaults : Mode.default.raw = 0 ∧ Interrupt.default.raw = 0 ∧
    PhyCfg.default.raw = 0b10111000 ∧ SocketMode.default.raw = 0 ∧ SocketInterrupt.default.raw = 0 ∧
    SocketInterruptMask.default.raw = 0xFF ∧
    (let a := SocketInterruptMask.allMasked
     (a.conMasked && a.disconMasked && a.recvMasked && a.timeoutMasked && a.sendokMasked) = true ∧
       a.raw = 0xE0) := by
  decide

end

/-- From the three facts of a flag: the getter sees the setter, and other flags do not. -/
theorem C07_flag_get_set {ρ : Type} {raw : ρ → UInt8} {get : ρ → Bool} {set clear : ρ → ρ} {k : Nat}
    (h : IsFlag raw get set clear k) (hk : k < 8) (r : ρ) :
    get (set r) = true ∧ get (clear r) = false := by
  constructor
  · rw [h.get, h.set _ _ hk, if_pos rfl]
  · rw [h.get, h.clear _ _ hk, if_pos rfl]

theorem C07_flag_frame {ρ : Type} {raw : ρ → UInt8} {get g2 : ρ → Bool} {set clear : ρ → ρ} {k k2 : Nat}
    (h : IsFlag raw get set clear k) (h2 : ReadsBit raw g2 k2) (hk : k2 < 8) (hne : k2 ≠ k) (r : ρ) :
    g2 (set r) = g2 r ∧ g2 (clear r) = g2 r := by
  constructor
  · rw [h2, h2, h.set _ _ hk, if_neg hne]
  · rw [h2, h2, h.clear _ _ hk, if_neg hne]

example (r : Mode) : (r.enableWol).pbEnabled = r.pbEnabled :=
  (C07_flag_frame C07_Mode_wolEnabled C07_Mode_pbEnabled.get (by decide) (by decide) r).1

end Verif.Thm

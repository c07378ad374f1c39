import Verif.Proof.Regsim
/-!
# The register simulator
-/
namespace Verif.Thm
open Verif.Sim

/-- A simulator that was used: an address is set, socket 2 is a UDP socket and has pointers near the end of their range. -/
def Regsim.used (rd wr : UInt16) : Sim where
  regs := { CommonRegs.reset with sipr := ⟨10, 0, 0, 7⟩ }
  sn j := if j = .sn2 then { Socket.default with
      inner := some .udp
      txBuf := (List.replicate 2048 0).set 2047 0xAA |>.set 0 0xBB |>.set 2046 0xCC
      regs := { SocketRegs.reset with sr := .udp, txRd := rd, txWr := wr, dipr := ⟨10, 0, 0, 1⟩, dport := 53 } }
    else Socket.default
  answers := []
  out := []

theorem Regsim.common_reg (a : UInt16) (h : commonStorage a) : ∃ reg, Reg.tryFrom a = .ok reg ∧ reg.isRo = false ∧ reg ≠ .MR := by
  have ha : a.toNat < 48 := by rcases h with h | h <;> omega
  have key : ∀ n : Fin 48, (1 ≤ n.val ∧ n.val ≤ 0x27 ∨ n.val = 0x2E) →
      ∃ reg, Reg.tryFrom (UInt16.ofNat n.val) = .ok reg ∧ reg.isRo = false ∧ reg ≠ .MR := by
    intro n hn
    have := (by decide +kernel : ∀ n : Fin 48, (1 ≤ n.val ∧ n.val ≤ 0x27 ∨ n.val = 0x2E) →
      (match Reg.tryFrom (UInt16.ofNat n.val) with | .ok reg => decide (reg.isRo = false ∧ reg ≠ .MR) | .error _ => false) = true) n hn
    split at this
    · rename_i reg e; exact ⟨reg, e, of_decide_eq_true this⟩
    · cases this
  have := key ⟨a.toNat, ha⟩ h
  rwa [UInt16.ofNat_toNat] at this

/-- A common register holds what was written to it, and no other register or buffer changes. -/
theorem C63_common (dbg : Bool) (s : Sim) (addr : UInt16) (v : UInt8) (h : commonStorage addr) :
    ∃ s', (simBus dbg).write addr commonBlockOffset [v] s = (.ok (), s') ∧ s'.out = s.out ∧
      ∀ block' addr', peek s' block' addr' = if block' = commonBlockOffset ∧ addr' = addr then some v else peek s block' addr' := by
  obtain ⟨reg, ht, hro, hmr⟩ := Regsim.common_reg addr h
  refine ⟨{ s with regs := s.regs.put v reg }, ?_, rfl, ?_⟩
  · rw [show commonBlockOffset = 0 from rfl, write_common]
    unfold commonRegWr
    rw [ht]
    cases reg <;> first | exact absurd rfl hmr | rfl
  · intro b a
    rw [peek_eq, peek_eq, show commonBlockOffset = 0 from rfl]
    by_cases hb : b = 0
    · subst hb
      have ha := regAddr ht
      simp only [cell, common_block]
      rw [commonRegRd_put s.regs v reg hro (ha ▸ ht) a, ← ha]
      by_cases e : a = addr
      · rw [if_pos e, if_pos (by simp [e])]
      · rw [if_neg e, if_neg (fun x => e x.2)]
    · rw [cell_common s { s with regs := s.regs.put v reg } rfl b a hb, if_neg (fun e => hb e.1)]

example : commonStorage Reg.SIPR2.addr ∧ commonStorage Reg.PHYCFGR.addr ∧ ¬ commonStorage Reg.VERSIONR.addr := by
  unfold commonStorage; decide
example : ∃ s', (simBus true).write 0x11 commonBlockOffset [9] (Regsim.used 0 0) = (.ok (), s') ∧ peek s' 0 0x11 = some 9 ∧ peek s' 0 0x12 = some 7 := by
  obtain ⟨s', h, -, hp⟩ := C63_common true (Regsim.used 0 0) 0x11 9 (by unfold commonStorage; decide)
  refine ⟨s', h, by rw [hp]; rfl, ?_⟩
  rw [hp, if_neg (by decide), peek_eq]; rfl

/-- Writing the mode register stores it, unless the reset bit is set; then every register and every buffer has its value after reset. -/
theorem C63_mode (dbg : Bool) (s : Sim) (v : UInt8) :
    ∃ s', (simBus dbg).write Reg.MR.addr commonBlockOffset [v] s = (.ok (), s') ∧ s'.out = s.out ∧
      (v.toNat < 0x80 → ∀ block' addr', peek s' block' addr'
        = if block' = commonBlockOffset ∧ addr' = Reg.MR.addr then some v else peek s block' addr') ∧
      (0x80 ≤ v.toNat → ∀ block' addr', peek s' block' addr' = peek ⟨.reset, fun _ => .default, [], []⟩ block' addr') := by
  have hv : v &&& Mode.rstMask ≠ 0 ↔ 0x80 ≤ v.toNat :=
    forall_u8 (p := fun v => v &&& Mode.rstMask ≠ 0 ↔ 0x80 ≤ v.toNat) (by decide +kernel) v
  have hrun : (simBus dbg).write Reg.MR.addr commonBlockOffset [v] s
      = (.ok (), if v &&& Mode.rstMask ≠ 0 then Sim.reset { s with regs := s.regs.put v .MR } else { s with regs := s.regs.put v .MR }) := by
    rw [show commonBlockOffset = 0 from rfl, write_common]; rfl
  refine ⟨_, hrun, ?_, ?_, ?_⟩
  · split <;> rfl
  · intro h b a
    rw [if_neg (fun e => by have := hv.mp e; omega), peek_eq, peek_eq, show commonBlockOffset = 0 from rfl]
    by_cases hb : b = 0
    · subst hb
      simp only [cell, common_block]
      rw [commonRegRd_put s.regs v .MR rfl (by decide) a]
      by_cases e : a = Reg.MR.addr
      · rw [if_pos e, if_pos (by simp [e])]
      · rw [if_neg e, if_neg (fun x => e x.2)]
    · rw [cell_common s { s with regs := s.regs.put v .MR } rfl b a hb, if_neg (fun e => hb e.1)]
  · intro h b a
    rw [if_pos (hv.mpr h), peek_eq, peek_eq]
    rfl

example : peek ⟨.reset, fun _ => .default, [], []⟩ 0 0x39 = some 4 ∧ peek ⟨.reset, fun _ => .default, [], []⟩ Sn.sn3.block 0x20 = some 8 := by
  rw [peek_eq, peek_eq]; decide

theorem Regsim.socket_reg (a : UInt16) (h : socketStorage a) : ∃ reg, SnReg.tryFrom a = .ok reg ∧
    reg ∉ [SnReg.CR, .IR, .SR, .RXBUF_SIZE, .TXBUF_SIZE, .TX_FSR0, .TX_FSR1, .TX_RD0, .TX_RD1, .RX_RSR0, .RX_RSR1] ∧
    ∀ r v, ∃ r', SocketRegs.put r v reg = some r' := by
  have ha : a.toNat < 48 := by unfold socketStorage at h; omega
  have key := (by decide +kernel : ∀ n : Fin 48, (n.val = 0x00 ∨ 0x04 ≤ n.val ∧ n.val ≤ 0x11 ∨ n.val = 0x16 ∨ n.val = 0x24 ∨ n.val = 0x25 ∨
      n.val = 0x28 ∨ n.val = 0x29 ∨ n.val = 0x2C) →
      (match SnReg.tryFrom (UInt16.ofNat n.val) with
       | .ok reg => decide (reg ∉ [SnReg.CR, .IR, .SR, .RXBUF_SIZE, .TXBUF_SIZE, .TX_FSR0, .TX_FSR1, .TX_RD0, .TX_RD1, .RX_RSR0, .RX_RSR1,
            .MSSR0, .MSSR1, .TOS, .RX_WR0, .RX_WR1, .FRAG0, .FRAG1, .KPALVTR])
       | .error _ => false) = true) ⟨a.toNat, ha⟩ h
  rw [UInt16.ofNat_toNat] at key
  split at key
  · rename_i reg e
    replace key := of_decide_eq_true key
    refine ⟨reg, e, fun hm => key ?_, fun r v => ?_⟩
    · exact List.mem_append_left _ hm
    · cases reg <;> first | exact ⟨_, rfl⟩ | exact absurd (by decide) key
  · cases key

/-- The same for the storage registers of a socket: the other sockets, the buffers and the common registers are not affected. -/
theorem C63_socket (dbg : Bool) (s : Sim) (sn : Sn) (addr : UInt16) (v : UInt8) (h : socketStorage addr) :
    ∃ s', (simBus dbg).write addr sn.block [v] s = (.ok (), s') ∧ s'.out = s.out ∧
      ∀ block' addr', peek s' block' addr' = if block' = sn.block ∧ addr' = addr then some v else peek s block' addr' := by
  obtain ⟨reg, ht, hn, hput⟩ := Regsim.socket_reg addr h
  obtain ⟨r', hr'⟩ := hput (s.sn sn).regs v
  refine ⟨s.setSocket sn { s.sn sn with regs := r' }, ?_, rfl, ?_⟩
  · rw [write_socket]
    unfold socketRegWr
    rw [ht]
    have hmain : (getSocket sn >>= fun k => match k.regs.put v reg with | none => M.throw .panic | some regs => modRegs sn fun _ => regs) s
        = (.ok (), s.setSocket sn { s.sn sn with regs := r' }) := by
      rw [M.bind_ok (getSocket_run sn s)]
      simp only [hr', modRegs_run]
    cases reg <;> first | exact absurd (by decide) hn | exact hmain
  · intro b a
    have ha := snRegAddr ht
    rw [peek_eq, peek_eq, cell_setRegs]
    by_cases hb : b = sn.block
    · subst hb
      rw [if_pos rfl, regValue_put _ _ v reg hn (ha ▸ ht) hr' a, ← ha]
      by_cases e : a = addr
      · simp [e]
      · simp only [e, if_false, and_false]
        simp only [cell, socket_block]
    · rw [if_neg hb, if_neg (fun e => hb e.1)]

example : socketStorage SnReg.DPORT1.addr ∧ socketStorage SnReg.TX_WR0.addr ∧ ¬ socketStorage SnReg.SR.addr := by
  unfold socketStorage; decide

/-- The read-only registers ignore writes: nothing changes. -/
theorem C63_readonly (dbg : Bool) (s : Sim) (sn : Sn) (addr : UInt16) (v : UInt8) (h : socketReadOnly addr) :
    (∃ s', (simBus dbg).write addr sn.block [v] s = (.ok (), s') ∧ s'.out = s.out ∧ ∀ block' addr', peek s' block' addr' = peek s block' addr') := by
  have ha : addr.toNat < 48 := by unfold socketReadOnly at h; omega
  have key := (by decide +kernel : ∀ n : Fin 48, (n.val = 0x03 ∨ 0x20 ≤ n.val ∧ n.val ≤ 0x23 ∨ n.val = 0x26 ∨ n.val = 0x27) →
      (match SnReg.tryFrom (UInt16.ofNat n.val) with
       | .ok reg => decide (reg ∈ [SnReg.SR, .TX_FSR0, .TX_FSR1, .TX_RD0, .TX_RD1, .RX_RSR0, .RX_RSR1])
       | .error _ => false) = true) ⟨addr.toNat, ha⟩ h
  rw [UInt16.ofNat_toNat] at key
  split at key
  · rename_i reg e
    replace key := of_decide_eq_true key
    refine ⟨s.setSocket sn { s.sn sn with regs := (s.sn sn).regs }, ?_, rfl, ?_⟩
    · rw [write_socket]
      unfold socketRegWr
      rw [e]
      simp only [List.mem_cons, List.not_mem_nil, or_false] at key
      rcases key with k | k | k | k | k | k | k <;> subst k <;> rfl
    · intro b a
      rw [peek_eq, peek_eq, cell_setRegs]
      by_cases hb : b = sn.block
      · subst hb; rw [if_pos rfl]; simp only [cell, socket_block]
      · rw [if_neg hb]
  · cases key

example : socketReadOnly SnReg.TX_FSR0.addr ∧ socketReadOnly SnReg.SR.addr := by unfold socketReadOnly; decide

/-- Not every writable register can be written: these end the program. -/
theorem C63_missing_registers_panic (dbg : Bool) (s : Sim) (sn : Sn) (addr : UInt16) (v : UInt8) (h : socketMissing addr) :
    (simBus dbg).write addr sn.block [v] s = (.error .panic, s) := by
  have ha : addr.toNat < 48 := by unfold socketMissing at h; omega
  have key := (by decide +kernel : ∀ n : Fin 48,
      (n.val = 0x12 ∨ n.val = 0x13 ∨ n.val = 0x15 ∨ n.val = 0x2A ∨ n.val = 0x2B ∨ 0x2D ≤ n.val ∧ n.val ≤ 0x2F) →
      (match SnReg.tryFrom (UInt16.ofNat n.val) with
       | .ok reg => decide (reg ∈ [SnReg.MSSR0, .MSSR1, .TOS, .RX_WR0, .RX_WR1, .FRAG0, .FRAG1, .KPALVTR])
       | .error _ => false) = true) ⟨addr.toNat, ha⟩ h
  rw [UInt16.ofNat_toNat] at key
  split at key
  · rename_i reg e
    replace key := of_decide_eq_true key
    rw [write_socket]
    unfold socketRegWr
    rw [e]
    simp only [List.mem_cons, List.not_mem_nil, or_false] at key
    rcases key with k | k | k | k | k | k | k | k <;> subst k <;> rfl
  · cases key

example : socketMissing SnReg.MSSR0.addr ∧ socketMissing SnReg.KPALVTR.addr := by unfold socketMissing; decide

/-- Writing the interrupt register of a socket clears the bits that are written as one, and the socket's bit in the common register when no
enabled interrupt remains.  Nothing else changes. -/
theorem C63_interrupts (dbg : Bool) (s : Sim) (sn : Sn) (v : UInt8) (hir : (s.sn sn).regs.ir.raw.toNat < 32) :
    ∃ s', (simBus dbg).write SnReg.IR.addr sn.block [v] s = (.ok (), s') ∧ s'.out = s.out ∧
      ∀ block' addr', peek s' block' addr' =
        if block' = sn.block ∧ addr' = SnReg.IR.addr then some ((s.sn sn).regs.ir.raw &&& ~~~v)
        else if block' = commonBlockOffset ∧ addr' = Reg.SIR.addr then
          some (if ((s.sn sn).regs.ir.raw &&& ~~~v) &&& (s.sn sn).regs.imr = 0 then s.regs.sir &&& ~~~sn.bitmask else s.regs.sir)
        else peek s block' addr' := by
  have hclear : ∀ n : Fin 32, ∀ m : Fin 256,
      clearBit SocketInterrupt.sendokMask (UInt8.ofNat m) (clearBit SocketInterrupt.timeoutMask (UInt8.ofNat m)
        (clearBit SocketInterrupt.recvMask (UInt8.ofNat m) (clearBit SocketInterrupt.disconMask (UInt8.ofNat m)
          (clearBit SocketInterrupt.conMask (UInt8.ofNat m) (UInt8.ofNat n))))) = UInt8.ofNat n &&& ~~~(UInt8.ofNat m) := by decide +kernel
  have hc := hclear ⟨_, hir⟩ ⟨v.toNat, v.toNat_lt⟩
  simp only [UInt8.ofNat_toNat] at hc
  have hmask : (((s.sn sn).regs.ir.raw &&& ~~~v) &&& (s.sn sn).regs.imr) &&& 0x1F = ((s.sn sn).regs.ir.raw &&& ~~~v) &&& (s.sn sn).regs.imr := by
    have h1 : (s.sn sn).regs.ir.raw &&& 0x1F = (s.sn sn).regs.ir.raw := by
      have := (by decide +kernel : ∀ n : Fin 32, UInt8.ofNat n &&& 0x1F = UInt8.ofNat n) ⟨_, hir⟩
      simpa only [UInt8.ofNat_toNat] using this
    conv => rhs; rw [← h1]
    apply UInt8.eq_of_toBitVec_eq
    simp only [UInt8.toBitVec_and, UInt8.toBitVec_not]
    ac_rfl
  have hrun : (simBus dbg).write SnReg.IR.addr sn.block [v] s = (.ok (), writeIr sn v s) := by
    rw [write_socket]; rfl
  refine ⟨_, hrun, ?_, ?_⟩
  · unfold writeIr; simp only [hc]; split <;> rfl
  · intro b a
    rw [peek_eq, peek_eq]
    unfold writeIr
    simp only [hc]
    have hcell : ∀ x, cell { s.setSocket sn { s.sn sn with regs := { (s.sn sn).regs with ir := ⟨(s.sn sn).regs.ir.raw &&& ~~~v⟩ } } with
          regs := s.regs.put x .SIR } b a =
        if b = sn.block ∧ a = SnReg.IR.addr then some ((s.sn sn).regs.ir.raw &&& ~~~v)
        else if b = commonBlockOffset ∧ a = Reg.SIR.addr then some x else cell s b a := by
      intro x
      have h0 : sn.block ≠ 0 := by cases sn <;> decide
      by_cases hb : b = 0
      · subst hb
        rw [if_neg (fun e => h0 e.1.symm)]
        simp only [cell, common_block]
        rw [commonRegRd_put s.regs x .SIR rfl (by decide) a, show commonBlockOffset = 0 from rfl]
        by_cases e : a = Reg.SIR.addr
        · rw [if_pos e, if_pos (by simp [e])]
        · rw [if_neg e, if_neg (fun x => e x.2)]
      · rw [cell_common (s.setSocket sn { s.sn sn with regs := { (s.sn sn).regs with ir := ⟨(s.sn sn).regs.ir.raw &&& ~~~v⟩ } }) _ (by rfl) b a hb,
          cell_setRegs]
        by_cases hs : b = sn.block
        · subst hs
          rw [if_pos rfl]
          unfold regValue
          by_cases e : a = SnReg.IR.addr
          · rw [if_pos ⟨rfl, e⟩, e]; rfl
          · rw [if_neg (fun x => e x.2), if_neg (fun x => hb x.1)]
            simp only [cell, socket_block, regValue]
            rcases ht : SnReg.tryFrom a with _ | reg
            · rfl
            · cases reg <;> first | rfl | exact absurd (snRegAddr ht) e
        · rw [if_neg hs, if_neg (fun x => hs x.1), if_neg (fun x => hb x.1)]
    by_cases hz : ((s.sn sn).regs.ir.raw &&& ~~~v) &&& (s.sn sn).regs.imr = 0
    · rw [if_pos (by rw [hmask]; exact hz), if_pos hz]
      exact hcell _
    · rw [if_neg (by rw [hmask]; exact hz), if_neg hz]
      exact hcell s.regs.sir

/-- Two interrupts are pending, one is cleared; the socket's bit stays until both are. -/
example : let s := { Regsim.used 0 0 with regs.sir := 4 }.setSocket .sn2 { (Regsim.used 0 0).sn .sn2 with regs.ir := ⟨6⟩, regs.imr := 0xFF }
    (((simBus true).write 2 Sn.sn2.block [2] s).2.sn .sn2).regs.ir = ⟨4⟩ ∧ ((simBus true).write 2 Sn.sn2.block [2] s).2.regs.sir = 4 ∧
    ((simBus true).write 2 Sn.sn2.block [6] s).2.regs.sir = 0 := by decide

/-- The bytes of a transmit buffer are a memory that repeats after its size. -/
theorem C63_tx_buffer (dbg : Bool) (s : Sim) (sn : Sn) (addr : UInt16) (v : UInt8) (hlen : (s.sn sn).txBuf.length ≠ 0) :
    ∃ s', (simBus dbg).write addr sn.txBlock [v] s = (.ok (), s') ∧ s'.out = s.out ∧
      ∀ block' addr', peek s' block' addr' =
        if block' = sn.txBlock ∧ addr'.toNat % (s.sn sn).txBuf.length = addr.toNat % (s.sn sn).txBuf.length then some v
        else peek s block' addr' := by
  refine ⟨s.setSocket sn { s.sn sn with txBuf := (s.sn sn).txBuf.set (addr.toNat % (s.sn sn).txBuf.length) v }, ?_, rfl, ?_⟩
  · show write dbg addr sn.txBlock [v] s = _
    unfold write
    rw [tx_block]
    refine (bind_unit _ s).trans ((M.bind_ok (getSocket_run sn s)).trans ?_)
    unfold bufWr
    rw [if_neg hlen]
    rfl
  · intro b a
    rw [peek_eq, peek_eq, cell_setTx]
    by_cases hb : b = sn.txBlock
    · subst hb
      rw [if_pos rfl, bufValue_set _ _ _ hlen]
      by_cases e : a.toNat % (s.sn sn).txBuf.length = addr.toNat % (s.sn sn).txBuf.length
      · rw [if_pos e, if_pos ⟨rfl, e⟩]
      · rw [if_neg e, if_neg (fun x => e x.2)]
        simp only [cell, tx_block]
    · rw [if_neg hb, if_neg (fun x => hb x.1)]

/-- The same for a receive buffer. -/
theorem C63_rx_buffer (dbg : Bool) (s : Sim) (sn : Sn) (addr : UInt16) (v : UInt8) (hlen : (s.sn sn).rxBuf.length ≠ 0) :
    ∃ s', (simBus dbg).write addr sn.rxBlock [v] s = (.ok (), s') ∧ s'.out = s.out ∧
      ∀ block' addr', peek s' block' addr' =
        if block' = sn.rxBlock ∧ addr'.toNat % (s.sn sn).rxBuf.length = addr.toNat % (s.sn sn).rxBuf.length then some v
        else peek s block' addr' := by
  refine ⟨s.setSocket sn { s.sn sn with rxBuf := (s.sn sn).rxBuf.set (addr.toNat % (s.sn sn).rxBuf.length) v }, ?_, rfl, ?_⟩
  · show write dbg addr sn.rxBlock [v] s = _
    unfold write
    rw [rx_block]
    refine (bind_unit _ s).trans ((M.bind_ok (getSocket_run sn s)).trans ?_)
    unfold bufWr
    rw [if_neg hlen]
    rfl
  · intro b a
    rw [peek_eq, peek_eq, cell_setRx]
    by_cases hb : b = sn.rxBlock
    · subst hb
      rw [if_pos rfl, bufValue_set _ _ _ hlen]
      by_cases e : a.toNat % (s.sn sn).rxBuf.length = addr.toNat % (s.sn sn).rxBuf.length
      · rw [if_pos e, if_pos ⟨rfl, e⟩]
      · rw [if_neg e, if_neg (fun x => e x.2)]
        simp only [cell, rx_block]
    · rw [if_neg hb, if_neg (fun x => hb x.1)]

example : ((Regsim.used 0 0).sn .sn2).txBuf.length ≠ 0 ∧ ((Regsim.used 0 0).sn .sn5).rxBuf.length ≠ 0 := by decide +kernel

/-- A write of several bytes is a write of each at its own address. -/
theorem C63_burst_write (dbg : Bool) (addr : UInt16) (block : UInt8) (x : UInt8) (xs : Bytes) (s : Sim) (hb : ∃ sn : Sn, block ∈ [0, sn.block, sn.txBlock, sn.rxBlock]) :
    (simBus dbg).write addr block (x :: xs) s
      = ((simBus dbg).write addr block [x] >>= fun _ => (simBus dbg).write (addr + 1) block xs) s := by
  have key : ∀ f : UInt16 → UInt8 → M Sim Unit, writeEach f addr (x :: xs) = (writeEach f addr [x] >>= fun _ => writeEach f (addr + 1) xs) := by
    intro f
    simp only [writeEach, bind_assoc, pure_bind]
  show write dbg addr block (x :: xs) s = (write dbg addr block [x] >>= fun _ => write dbg (addr + 1) block xs) s
  obtain ⟨sn, hb⟩ := hb
  simp only [List.mem_cons, List.not_mem_nil, or_false] at hb
  unfold write
  rcases hb with rfl | rfl | rfl | rfl
  · simp only [common_block, key]
  · simp only [socket_block, key]
  · simp only [tx_block, key]
  · simp only [rx_block, key]

theorem Regsim.cells_some (s : Sim) (block : UInt8) (n : Nat) (addr : UInt16) (hv : ∀ i < n, (cell s block (addr + UInt16.ofNat i)).isSome) :
    ∃ l, cells s block n addr = some l ∧ l.length = n ∧ ∀ i < n, l[i]? = cell s block (addr + UInt16.ofNat i) := by
  induction n generalizing addr with
  | zero => exact ⟨[], rfl, rfl, fun i h => absurd h (Nat.not_lt_zero i)⟩
  | succ n ih =>
    have hadd : ∀ i : Nat, addr + 1 + UInt16.ofNat i = addr + UInt16.ofNat (i + 1) := by
      intro i
      apply UInt16.toNat_inj.mp
      simp only [UInt16.toNat_add, UInt16.toNat_ofNat', UInt16.toNat_ofNat]
      omega
    have h0 : addr + UInt16.ofNat 0 = addr := by simp
    obtain ⟨l, hl, hlen, hi⟩ := ih (addr + 1) (fun i h => by rw [hadd]; exact hv (i + 1) (by omega))
    have hc := hv 0 (by omega)
    rw [h0] at hc
    obtain ⟨b, hb⟩ := Option.isSome_iff_exists.mp hc
    refine ⟨b :: l, by simp [cells, hb, hl], by simp [hlen], fun i h => ?_⟩
    cases i with
    | zero => rw [h0, hb]; rfl
    | succ i => rw [List.getElem?_cons_succ, hi i (by omega), hadd]

/-- A read of several bytes returns what reads of each would, and changes nothing, while the operating system has nothing new. -/
theorem C63_burst_read (dbg : Bool) (addr : UInt16) (block : UInt8) (n : Nat) (hn : 0 < n) (s : Sim) (hs : s.answers = [])
    (hv : ∀ i < n, (peek s block (addr + UInt16.ofNat i)).isSome) :
    ∃ v, (simBus dbg).read addr block n s = (.ok v, s) ∧ ∀ i (h : i < n), peek s block (addr + UInt16.ofNat i) = some v[i] := by
  simp only [peek_eq] at hv ⊢
  have hb : blockType block ≠ none := by
    intro e
    have := hv 0 hn
    unfold cell at this
    rw [e] at this
    cases this
  obtain ⟨l, hl, hlen, hi⟩ := Regsim.cells_some s block n addr hv
  have hr := read_run s hs block hb n addr
  rw [hl] at hr
  refine ⟨_, by rw [simBus_read, M.bind_ok hr]; rfl, fun i h => ?_⟩
  rw [Vector.getElem_ofFn, ← hi i h, List.getElem?_eq_getElem (by omega), List.getD_eq_getElem?_getD, List.getElem?_eq_getElem (by omega)]
  rfl

example : ∀ i < 4, (peek (Regsim.used 0 0) commonBlockOffset (Reg.SIPR0.addr + UInt16.ofNat i)).isSome := by
  intro i _; rw [peek_eq]; rfl

end Verif.Thm

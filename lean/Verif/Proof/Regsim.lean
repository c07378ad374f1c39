import Verif.Spec.Regsim
import Verif.Thm.LLTables
/-!
# The register simulator: lemmas
-/
namespace Verif.Sim

theorem setHi_toNat (x : UInt16) (b : UInt8) : (setHi x b).toNat = b.toNat * 256 + x.toNat % 256 := by
  have h : (x &&& (0x00FF : UInt16)).toNat = x.toNat % 256 := by
    rw [UInt16.toNat_and]
    exact Nat.and_two_pow_sub_one_eq_mod x.toNat 8
  have : setHi x b = be16 b (x &&& (0x00FF : UInt16)).toUInt8 := by
    unfold setHi be16
    have : (x &&& (0x00FF : UInt16)).toUInt8.toUInt16 = x &&& (0x00FF : UInt16) := by
      apply UInt16.toNat_inj.mp
      simp only [UInt8.toNat_toUInt16, UInt16.toNat_toUInt8, h]
      omega
    rw [this, UInt16.or_comm]
  rw [this, be16_toNat, UInt16.toNat_toUInt8, h]
  omega

theorem setLo_toNat (x : UInt16) (b : UInt8) : (setLo x b).toNat = x.toNat / 256 * 256 + b.toNat := by
  have h : (x &&& (0xFF00 : UInt16)) = (x >>> 8).toUInt8.toUInt16 <<< 8 := by
    apply UInt16.toNat_inj.mp
    rw [UInt16.toNat_and, UInt16.toNat_shiftLeft, UInt8.toNat_toUInt16, hi_toNat]
    have hx := x.toNat_lt
    rw [show (8 : UInt16).toNat % 16 = 8 from rfl, Nat.shiftLeft_eq, show (0xFF00 : UInt16).toNat = 65280 from rfl]
    have : x.toNat / 256 < 256 := by omega
    have e : x.toNat &&& 65280 = (x.toNat / 256 &&& 255) * 256 + (x.toNat % 256 &&& 0) := by
      apply Nat.eq_of_testBit_eq
      intro i
      rw [Nat.and_zero, Nat.add_zero, show (256 : Nat) = 2 ^ 8 from rfl, Nat.testBit_mul_two_pow, Nat.testBit_and, Nat.testBit_and,
        Nat.testBit_div_two_pow]
      by_cases hi : 8 ≤ i
      · rw [show (65280 : Nat) = 255 * 2 ^ 8 from rfl, Nat.testBit_mul_two_pow]
        simp [hi]
      · rw [show (65280 : Nat) = 255 * 2 ^ 8 from rfl, Nat.testBit_mul_two_pow]
        simp [hi]
    rw [e, Nat.and_zero, Nat.add_zero, show (255 : Nat) = 2 ^ 8 - 1 from rfl, Nat.and_two_pow_sub_one_eq_mod]
    omega
  have : setLo x b = be16 (x >>> 8).toUInt8 b := by unfold setLo be16; rw [h]
  rw [this, be16_toNat, hi_toNat]

theorem hi_setHi (x : UInt16) (b : UInt8) : ((setHi x b) >>> 8).toUInt8 = b := by
  apply UInt8.toNat_inj.mp
  rw [hi_toNat, setHi_toNat]
  omega

theorem lo_setHi (x : UInt16) (b : UInt8) : (setHi x b).toUInt8 = x.toUInt8 := by
  apply UInt8.toNat_inj.mp
  rw [lo_toNat, setHi_toNat, lo_toNat]
  omega

theorem hi_setLo (x : UInt16) (b : UInt8) : ((setLo x b) >>> 8).toUInt8 = (x >>> 8).toUInt8 := by
  apply UInt8.toNat_inj.mp
  have := b.toNat_lt
  rw [hi_toNat, setLo_toNat, hi_toNat]
  omega

theorem lo_setLo (x : UInt16) (b : UInt8) : (setLo x b).toUInt8 = b := by
  apply UInt8.toNat_inj.mp
  have := b.toNat_lt
  rw [lo_toNat, setLo_toNat]
  omega

/-- Writing a common register that is not read-only. -/
theorem common_put_same (r : CommonRegs) (v : UInt8) (reg : Reg) (h : reg.isRo = false) : (r.put v reg).get reg = v := by
  cases reg <;> first | (cases h; done) | exact hi_setHi _ _ | exact lo_setLo _ _ | rfl

attribute [local irreducible] setHi setLo in
set_option maxHeartbeats 2000000 in
theorem common_put_other (r : CommonRegs) (v : UInt8) (reg reg' : Reg) (h : reg' ≠ reg) : (r.put v reg).get reg' = r.get reg' := by
  cases reg <;> cases reg' <;> first | rfl | exact absurd rfl h | exact lo_setHi _ _ | exact hi_setLo _ _

theorem ask_nil (s : Sim) (h : s.answers = []) : ask s = (.ok .wouldBlock, s) := by unfold ask; rw [h]

@[simp] theorem getSocket_run (sn : Sn) (s : Sim) : getSocket sn s = (.ok (s.sn sn), s) := rfl
@[simp] theorem modSocket_run (sn : Sn) (f : Socket → Socket) (s : Sim) : modSocket sn f s = (.ok (), s.setSocket sn (f (s.sn sn))) := rfl
@[simp] theorem modRegs_run (sn : Sn) (f : SocketRegs → SocketRegs) (s : Sim) :
    modRegs sn f s = (.ok (), s.setSocket sn { s.sn sn with regs := f (s.sn sn).regs }) := rfl

/-- Nothing happens in a socket while the operating system has nothing new. -/
theorem checkSocket_nil (sn : Sn) (s : Sim) (h : s.answers = []) : checkSocket sn s = (.ok (), s) := by
  unfold checkSocket readStream
  rw [M.bind_ok (getSocket_run sn s)]
  rcases hi : (s.sn sn).inner with _ | t
  · rfl
  · cases t
    · simp only [M.bind_ok (ask_nil s h)]; rfl
    · by_cases hc : (s.sn sn).client = true
      · simp only [if_pos hc, M.bind_ok (ask_nil s h)]; rfl
      · simp only [if_neg hc, M.bind_ok (ask_nil s h)]; rfl
    · simp only [M.bind_ok (ask_nil s h)]; rfl

/-- The value of a register of a socket. -/
def regValue (r : SocketRegs) (addr : UInt16) : UInt8 :=
  match SnReg.tryFrom addr with
  | .ok reg => r.get reg
  | .error _ => 0x00

theorem socketRegRd_nil (addr : UInt16) (sn : Sn) (s : Sim) (h : s.answers = []) :
    socketRegRd addr sn s = (.ok (regValue (s.sn sn).regs addr), s) := by
  unfold socketRegRd
  rw [M.bind_ok (getSocket_run sn s)]
  have hif : (if SnReg.tryFrom addr ≠ .ok .RX_RSR0 then checkSocket sn else pure ()) s = (.ok (), s) := by
    split
    · exact checkSocket_nil sn s h
    · rfl
  simp only [M.bind_ok hif]
  rfl

/-- A byte of a buffer. -/
def bufValue (b : Bytes) (addr : UInt16) : Option UInt8 := if b.length = 0 then none else some (b.getD (addr.toNat % b.length) 0)

theorem bufRd_run (b : Bytes) (addr : UInt16) (s : Sim) :
    bufRd b addr s = (match bufValue b addr with | none => .error .panic | some v => .ok v, s) := by
  unfold bufRd bufValue; split <;> rfl

/-- What is at an address. -/
def cell (s : Sim) (block : UInt8) (addr : UInt16) : Option UInt8 :=
  match blockType block with
  | none => none
  | some .common => some (commonRegRd s.regs addr)
  | some (.socket sn) => some (regValue (s.sn sn).regs addr)
  | some (.rx sn) => bufValue (s.sn sn).rxBuf addr
  | some (.tx sn) => bufValue (s.sn sn).txBuf addr

/-- The bytes at an address and those after it. -/
def cells (s : Sim) (block : UInt8) : Nat → UInt16 → Option Bytes
  | 0, _ => some []
  | n + 1, addr => do
    let b ← cell s block addr
    let rest ← cells s block n (addr + 1)
    pure (b :: rest)

theorem cell_answers (s : Sim) (a : List Answer) (block : UInt8) (addr : UInt16) : cell { s with answers := a } block addr = cell s block addr := rfl

theorem readEach_run (s : Sim) (block : UInt8) (f : UInt16 → M Sim UInt8)
    (hf : ∀ addr, f addr s = (match cell s block addr with | none => .error .panic | some v => .ok v, s)) (n : Nat) (addr : UInt16) :
    readEach f n addr s = (match cells s block n addr with | none => .error .panic | some v => .ok v, s) := by
  induction n generalizing addr with
  | zero => rfl
  | succ n ih =>
    unfold readEach cells
    rcases hc : cell s block addr with _ | v
    · have := hf addr
      rw [hc] at this
      rw [M.bind_error this]; rfl
    · have := hf addr
      rw [hc] at this
      rw [M.bind_ok this]
      have := ih (addr + 1)
      rcases hcs : cells s block n (addr + 1) with _ | vs
      · rw [hcs] at this
        rw [M.bind_error this]; simp
      · rw [hcs] at this
        rw [M.bind_ok this]; simp

theorem read_run (s : Sim) (h : s.answers = []) (block : UInt8) (hb : blockType block ≠ none) (n : Nat) (addr : UInt16) :
    read addr block n s = (match cells s block n addr with | none => .error .panic | some v => .ok v, s) := by
  unfold read
  rcases hbt : blockType block with _ | t
  · exact absurd hbt hb
  · cases t with
    | common =>
      refine readEach_run s block _ (fun a => ?_) n addr
      simp only [cell, hbt]; rfl
    | socket sn =>
      refine readEach_run s block _ (fun a => ?_) n addr
      simp only [cell, hbt]
      exact socketRegRd_nil a sn s h
    | rx sn =>
      refine readEach_run s block _ (fun a => ?_) n addr
      simp only [cell, hbt]
      rw [M.bind_ok (getSocket_run sn s)]
      exact bufRd_run _ a s
    | tx sn =>
      refine readEach_run s block _ (fun a => ?_) n addr
      simp only [cell, hbt]
      rw [M.bind_ok (getSocket_run sn s)]
      exact bufRd_run _ a s

theorem simBus_read (dbg : Bool) (addr : UInt16) (block : UInt8) (n : Nat) (s : Sim) :
    (simBus dbg).read addr block n s = (read addr block n >>= fun bytes => pure (Vector.ofFn fun i : Fin n => bytes.getD i.val 0)) s := rfl

theorem peek_eq (s : Sim) (block : UInt8) (addr : UInt16) : peek s block addr = cell s block addr := by
  unfold peek
  rw [simBus_read]
  by_cases hb : blockType block = none
  · have : read addr block 1 { s with answers := [] } = (.error .panic, { s with answers := [] }) := by
      unfold read; rw [hb]; rfl
    rw [M.bind_error this]
    unfold cell
    rw [hb]
  · have := read_run { s with answers := [] } rfl block hb 1 addr
    rcases hc : cell s block addr with _ | v
    · rw [show cells { s with answers := [] } block 1 addr = none by simp [cells, cell_answers, hc]] at this
      rw [M.bind_error this]
    · rw [show cells { s with answers := [] } block 1 addr = some [v] by simp [cells, cell_answers, hc]] at this
      rw [M.bind_ok this]
      rfl

theorem bind_unit (m : M Sim Unit) (s : Sim) : (m >>= fun _ => pure ()) s = m s := by
  rw [M.bind_run]
  rcases m s with ⟨_ | _, _⟩ <;> rfl

theorem common_block : blockType 0 = some .common := rfl
theorem socket_block (sn : Sn) : blockType sn.block = some (.socket sn) := by cases sn <;> decide
theorem tx_block (sn : Sn) : blockType sn.txBlock = some (.tx sn) := by cases sn <;> decide
theorem rx_block (sn : Sn) : blockType sn.rxBlock = some (.rx sn) := by cases sn <;> decide

/-- The block of a kind. -/
def BlockType.block : BlockType → UInt8
  | .common => 0
  | .socket sn => sn.block
  | .tx sn => sn.txBlock
  | .rx sn => sn.rxBlock

theorem blockType_inj (b : UInt8) (t : BlockType) (h : blockType b = some t) : b = t.block := by
  have : ∀ b, (match blockType b with | none => true | some t => decide (b = t.block)) = true :=
    forall_u8 (p := fun b => (match blockType b with | none => true | some t => decide (b = t.block)) = true) (by decide +kernel)
  have := this b
  rw [h] at this
  simpa using this

theorem write_common (dbg : Bool) (addr : UInt16) (v : UInt8) (s : Sim) : (simBus dbg).write addr 0 [v] s = commonRegWr addr v s :=
  bind_unit _ s

theorem write_socket (dbg : Bool) (sn : Sn) (addr : UInt16) (v : UInt8) (s : Sim) :
    (simBus dbg).write addr sn.block [v] s = socketRegWr dbg addr v sn s := by
  show write dbg addr sn.block [v] s = _
  unfold write
  rw [socket_block]
  exact bind_unit _ s

theorem cell_common (s s' : Sim) (hs : s'.sn = s.sn) (b : UInt8) (a : UInt16) (h : b ≠ 0) : cell s' b a = cell s b a := by
  unfold cell
  rcases hb : blockType b with _ | t
  · rfl
  · cases t with
    | common => exact absurd (blockType_inj _ _ hb) h
    | _ => simp only [hs]

theorem regAddr {a : UInt16} {r : Reg} (h : Reg.tryFrom a = .ok r) : a = r.addr := (check_ok _ _ Reg.tryFrom_check a r h).symm
theorem snRegAddr {a : UInt16} {r : SnReg} (h : SnReg.tryFrom a = .ok r) : a = r.addr := (check_ok _ _ SnReg.tryFrom_check a r h).symm

theorem commonRegRd_put (r : CommonRegs) (v : UInt8) (reg : Reg) (hro : reg.isRo = false) (ht : Reg.tryFrom reg.addr = .ok reg) (a : UInt16) :
    commonRegRd (r.put v reg) a = if a = reg.addr then v else commonRegRd r a := by
  unfold commonRegRd
  by_cases ha : a = reg.addr
  · rw [if_pos ha, ha, ht]
    exact common_put_same r v reg hro
  · rw [if_neg ha]
    rcases h : Reg.tryFrom a with _ | reg'
    · rfl
    · exact common_put_other r v reg reg' (fun e => ha (e ▸ regAddr h))

/-- Writing a register of a socket that is not read-only. -/
theorem socket_put_same (r r' : SocketRegs) (v : UInt8) (reg : SnReg)
    (h : reg ∉ [SnReg.CR, .IR, .SR, .RXBUF_SIZE, .TXBUF_SIZE, .TX_FSR0, .TX_FSR1, .TX_RD0, .TX_RD1, .RX_RSR0, .RX_RSR1])
    (hp : r.put v reg = some r') : r'.get reg = v := by
  cases reg <;> first
    | (exact absurd (by decide) h)
    | (cases hp; done)
    | (injection hp with e; subst e; first | exact hi_setHi _ _ | exact lo_setLo _ _ | rfl)

attribute [local irreducible] setHi setLo in
set_option maxHeartbeats 2000000 in
theorem socket_put_other (r r' : SocketRegs) (v : UInt8) (reg reg' : SnReg) (h : reg' ≠ reg) (hp : r.put v reg = some r') :
    r'.get reg' = r.get reg' := by
  cases reg <;> first
    | (cases hp; done)
    | (injection hp with e; subst e; cases reg' <;> first | rfl | exact absurd rfl h | exact lo_setHi _ _ | exact hi_setLo _ _)

theorem regValue_put (r r' : SocketRegs) (v : UInt8) (reg : SnReg)
    (h : reg ∉ [SnReg.CR, .IR, .SR, .RXBUF_SIZE, .TXBUF_SIZE, .TX_FSR0, .TX_FSR1, .TX_RD0, .TX_RD1, .RX_RSR0, .RX_RSR1])
    (ht : SnReg.tryFrom reg.addr = .ok reg) (hp : r.put v reg = some r') (a : UInt16) :
    regValue r' a = if a = reg.addr then v else regValue r a := by
  unfold regValue
  by_cases ha : a = reg.addr
  · rw [if_pos ha, ha, ht]
    exact socket_put_same r r' v reg h hp
  · rw [if_neg ha]
    rcases h : SnReg.tryFrom a with _ | reg'
    · rfl
    · exact socket_put_other r r' v reg reg' (fun e => ha (e ▸ snRegAddr h)) hp

@[simp] theorem setSocket_same (s : Sim) (sn : Sn) (k : Socket) : (s.setSocket sn k).sn sn = k := by simp [Sim.setSocket]
theorem setSocket_other (s : Sim) (sn j : Sn) (k : Socket) (h : j ≠ sn) : (s.setSocket sn k).sn j = s.sn j := by simp [Sim.setSocket, h]
@[simp] theorem setSocket_regs (s : Sim) (sn : Sn) (k : Socket) : (s.setSocket sn k).regs = s.regs := rfl
@[simp] theorem setSocket_out (s : Sim) (sn : Sn) (k : Socket) : (s.setSocket sn k).out = s.out := rfl
@[simp] theorem setSocket_answers (s : Sim) (sn : Sn) (k : Socket) : (s.setSocket sn k).answers = s.answers := rfl

/-- Changing a register of a socket changes that register. -/
theorem cell_setRegs (s : Sim) (sn : Sn) (r : SocketRegs) (b : UInt8) (a : UInt16) :
    cell (s.setSocket sn { s.sn sn with regs := r }) b a = if b = sn.block then some (regValue r a) else cell s b a := by
  by_cases hb : b = sn.block
  · rw [if_pos hb, hb]
    simp only [cell, socket_block, setSocket_same]
  · rw [if_neg hb]
    unfold cell
    rcases hbt : blockType b with _ | t
    · rfl
    · cases t with
      | common => rfl
      | socket j =>
        have hj : j ≠ sn := fun e => hb (e ▸ blockType_inj _ _ hbt)
        simp only [setSocket_other _ _ _ _ hj]
      | tx j => by_cases hj : j = sn
                · subst hj; simp only [setSocket_same]
                · simp only [setSocket_other _ _ _ _ hj]
      | rx j => by_cases hj : j = sn
                · subst hj; simp only [setSocket_same]
                · simp only [setSocket_other _ _ _ _ hj]

/-- Changing the transmit buffer of a socket changes that buffer. -/
theorem cell_setTx (s : Sim) (sn : Sn) (t : Bytes) (b : UInt8) (a : UInt16) :
    cell (s.setSocket sn { s.sn sn with txBuf := t }) b a = if b = sn.txBlock then bufValue t a else cell s b a := by
  by_cases hb : b = sn.txBlock
  · rw [if_pos hb, hb]
    simp only [cell, tx_block, setSocket_same]
  · rw [if_neg hb]
    unfold cell
    rcases hbt : blockType b with _ | t
    · rfl
    · cases t with
      | common => rfl
      | tx j =>
        have hj : j ≠ sn := fun e => hb (e ▸ blockType_inj _ _ hbt)
        simp only [setSocket_other _ _ _ _ hj]
      | socket j => by_cases hj : j = sn
                    · subst hj; simp only [setSocket_same]
                    · simp only [setSocket_other _ _ _ _ hj]
      | rx j => by_cases hj : j = sn
                · subst hj; simp only [setSocket_same]
                · simp only [setSocket_other _ _ _ _ hj]

theorem cell_setRx (s : Sim) (sn : Sn) (t : Bytes) (b : UInt8) (a : UInt16) :
    cell (s.setSocket sn { s.sn sn with rxBuf := t }) b a = if b = sn.rxBlock then bufValue t a else cell s b a := by
  by_cases hb : b = sn.rxBlock
  · rw [if_pos hb, hb]
    simp only [cell, rx_block, setSocket_same]
  · rw [if_neg hb]
    unfold cell
    rcases hbt : blockType b with _ | t
    · rfl
    · cases t with
      | common => rfl
      | rx j =>
        have hj : j ≠ sn := fun e => hb (e ▸ blockType_inj _ _ hbt)
        simp only [setSocket_other _ _ _ _ hj]
      | socket j => by_cases hj : j = sn
                    · subst hj; simp only [setSocket_same]
                    · simp only [setSocket_other _ _ _ _ hj]
      | tx j => by_cases hj : j = sn
                · subst hj; simp only [setSocket_same]
                · simp only [setSocket_other _ _ _ _ hj]

theorem bufValue_set (t : Bytes) (i : UInt16) (v : UInt8) (ht : t.length ≠ 0) (a : UInt16) :
    bufValue (t.set (i.toNat % t.length) v) a = if a.toNat % t.length = i.toNat % t.length then some v else bufValue t a := by
  unfold bufValue
  rw [List.length_set, if_neg ht, if_neg ht]
  have hl : i.toNat % t.length < t.length := Nat.mod_lt _ (by omega)
  have hl' : a.toNat % t.length < t.length := Nat.mod_lt _ (by omega)
  by_cases h : a.toNat % t.length = i.toNat % t.length
  · rw [if_pos h, h, List.getD_eq_getElem?_getD, List.getElem?_set_self hl]; rfl
  · rw [if_neg h, List.getD_eq_getElem?_getD, List.getElem?_set_ne (fun e => h e.symm), ← List.getD_eq_getElem?_getD]

end Verif.Sim

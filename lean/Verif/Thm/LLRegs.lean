import Verif.Proof.LL
/-!
# C04, C05: register accessors

`Spec.IsReg get set block addr len enc` (in `Verif.Spec.RegFile`) says that `set v` stores the
bytes `enc v` at the documented place and changes nothing else, and that `get` returns the
value encoded there.  The addresses and lengths below are those of the W5500 datasheet.
-/
namespace Verif.Thm
open Verif Spec

section
local macro "getter_tac" : tactic => `(tactic|
  (constructor
   · intro m
     refine ⟨_, rfl, ?_⟩
     simp [Mem.read, encU16_eq, toBe16_be16, Ipv4.octets, Eui48.octets, List.range_succ,
       Sn.block_toNat, commonBlockOffset, Reg.addr, SnReg.addr]
   · intro v w h
     first
     | (rw [encU16_eq, encU16_eq] at h; exact toBe16_inj h)
     | (obtain ⟨⟨va, vb, vc, vd⟩, vp⟩ := v
        obtain ⟨⟨wa, wb, wc, wd⟩, wp⟩ := w
        simp only [encU16_eq, Ipv4.octets, List.cons_append, List.nil_append, List.cons.injEq] at h
        obtain ⟨h1, h2, h3, h4, h5⟩ := h
        rw [h1, h2, h3, h4, toBe16_inj h5])
     | (obtain ⟨_⟩ := v; obtain ⟨_⟩ := w; simpa [Ipv4.octets, Eui48.octets] using h)
     | simpa using h))

local macro "setter_tac" : tactic => `(tactic|
  (constructor
   · intro v m
     first
     | rfl
     | (show (Except.ok (), _) = _; simp only [encU16_eq, Sn.block_toNat]; rfl)
   · intro v; rfl
   · decide))

theorem C04_gar : IsReg memBus.gar memBus.setGar 0 0x01 4 Ipv4.octets := by
  constructor
  · getter_tac
  · setter_tac

theorem C04_subr : IsReg memBus.subr memBus.setSubr 0 0x05 4 Ipv4.octets := by
  constructor
  · getter_tac
  · setter_tac

theorem C04_shar : IsReg memBus.shar memBus.setShar 0 0x09 6 Eui48.octets := by
  constructor
  · getter_tac
  · setter_tac

theorem C04_sipr : IsReg memBus.sipr memBus.setSipr 0 0x0F 4 Ipv4.octets := by
  constructor
  · getter_tac
  · setter_tac

theorem C04_mr : IsReg memBus.mr memBus.setMr 0 0x00 1 (fun v => [v.raw]) := by
  constructor
  · getter_tac
  · setter_tac

theorem C04_intlevel : IsReg memBus.intlevel memBus.setIntlevel 0 0x13 2 encU16 := by
  constructor
  · getter_tac
  · setter_tac

theorem C04_ir : IsReg memBus.ir memBus.setIr 0 0x15 1 (fun v => [v.raw]) := by
  constructor
  · getter_tac
  · setter_tac

theorem C04_imr : IsReg memBus.imr memBus.setImr 0 0x16 1 (fun v => [v.raw]) := by
  constructor
  · getter_tac
  · setter_tac

theorem C04_sir : IsGetter memBus.sir 0 0x17 1 (fun v => [v]) := by
  getter_tac

theorem C04_simr : IsReg memBus.simr memBus.setSimr 0 0x18 1 (fun v => [v]) := by
  constructor
  · getter_tac
  · setter_tac

theorem C04_rtr : IsReg memBus.rtr memBus.setRtr 0 0x19 2 encU16 := by
  constructor
  · getter_tac
  · setter_tac

theorem C04_rcr : IsReg memBus.rcr memBus.setRcr 0 0x1B 1 (fun v => [v]) := by
  constructor
  · getter_tac
  · setter_tac

theorem C04_ptimer : IsReg memBus.ptimer memBus.setPtimer 0 0x1C 1 (fun v => [v]) := by
  constructor
  · getter_tac
  · setter_tac

theorem C04_pmagic : IsReg memBus.pmagic memBus.setPmagic 0 0x1D 1 (fun v => [v]) := by
  constructor
  · getter_tac
  · setter_tac

theorem C04_phar : IsReg memBus.phar memBus.setPhar 0 0x1E 6 Eui48.octets := by
  constructor
  · getter_tac
  · setter_tac

theorem C04_psid : IsReg memBus.psid memBus.setPsid 0 0x24 2 encU16 := by
  constructor
  · getter_tac
  · setter_tac

theorem C04_pmru : IsReg memBus.pmru memBus.setPmru 0 0x26 2 encU16 := by
  constructor
  · getter_tac
  · setter_tac

theorem C04_uipr : IsGetter memBus.uipr 0 0x28 4 Ipv4.octets := by
  getter_tac

theorem C04_uportr : IsGetter memBus.uportr 0 0x2C 2 encU16 := by
  getter_tac

theorem C04_phycfgr : IsReg memBus.phycfgr memBus.setPhycfgr 0 0x2E 1 (fun v => [v.raw]) := by
  constructor
  · getter_tac
  · setter_tac

theorem C04_version : IsGetter memBus.version 0 0x39 1 (fun v => [v]) := by
  getter_tac

theorem C04_snMr (n : Sn) :
    IsReg (memBus.snMr n) (memBus.setSnMr n) (4 * n.toU8.toNat + 1) 0x00 1 (fun v => [v.raw]) := by
  constructor
  · getter_tac
  · setter_tac

theorem C04_snIr (n : Sn) :
    IsGetter (memBus.snIr n) (4 * n.toU8.toNat + 1) 0x02 1 (fun v => [v.raw]) := by
  getter_tac

theorem C04_snCr (n : Sn) :
    IsGetter (memBus.snCr n) (4 * n.toU8.toNat + 1) 0x01 1 (fun v => [v]) := by
  getter_tac

theorem C04_snPort (n : Sn) :
    IsReg (memBus.snPort n) (memBus.setSnPort n) (4 * n.toU8.toNat + 1) 0x04 2 encU16 := by
  constructor
  · getter_tac
  · setter_tac

theorem C04_snDhar (n : Sn) :
    IsReg (memBus.snDhar n) (memBus.setSnDhar n) (4 * n.toU8.toNat + 1) 0x06 6 Eui48.octets := by
  constructor
  · getter_tac
  · setter_tac

theorem C04_snDipr (n : Sn) :
    IsReg (memBus.snDipr n) (memBus.setSnDipr n) (4 * n.toU8.toNat + 1) 0x0C 4 Ipv4.octets := by
  constructor
  · getter_tac
  · setter_tac

theorem C04_snDport (n : Sn) :
    IsReg (memBus.snDport n) (memBus.setSnDport n) (4 * n.toU8.toNat + 1) 0x10 2 encU16 := by
  constructor
  · getter_tac
  · setter_tac

theorem C04_snMssr (n : Sn) :
    IsReg (memBus.snMssr n) (memBus.setSnMssr n) (4 * n.toU8.toNat + 1) 0x12 2 encU16 := by
  constructor
  · getter_tac
  · setter_tac

theorem C04_snTos (n : Sn) :
    IsReg (memBus.snTos n) (memBus.setSnTos n) (4 * n.toU8.toNat + 1) 0x15 1 (fun v => [v]) := by
  constructor
  · getter_tac
  · setter_tac

theorem C04_snTtl (n : Sn) :
    IsReg (memBus.snTtl n) (memBus.setSnTtl n) (4 * n.toU8.toNat + 1) 0x16 1 (fun v => [v]) := by
  constructor
  · getter_tac
  · setter_tac

theorem C04_snTxFsr (n : Sn) :
    IsGetter (memBus.snTxFsr n) (4 * n.toU8.toNat + 1) 0x20 2 encU16 := by
  getter_tac

theorem C04_snTxRd (n : Sn) :
    IsGetter (memBus.snTxRd n) (4 * n.toU8.toNat + 1) 0x22 2 encU16 := by
  getter_tac

theorem C04_snTxWr (n : Sn) :
    IsReg (memBus.snTxWr n) (memBus.setSnTxWr n) (4 * n.toU8.toNat + 1) 0x24 2 encU16 := by
  constructor
  · getter_tac
  · setter_tac

theorem C04_snRxRsr (n : Sn) :
    IsGetter (memBus.snRxRsr n) (4 * n.toU8.toNat + 1) 0x26 2 encU16 := by
  getter_tac

theorem C04_snRxRd (n : Sn) :
    IsReg (memBus.snRxRd n) (memBus.setSnRxRd n) (4 * n.toU8.toNat + 1) 0x28 2 encU16 := by
  constructor
  · getter_tac
  · setter_tac

theorem C04_snRxWr (n : Sn) :
    IsGetter (memBus.snRxWr n) (4 * n.toU8.toNat + 1) 0x2A 2 encU16 := by
  getter_tac

theorem C04_snImr (n : Sn) :
    IsReg (memBus.snImr n) (memBus.setSnImr n) (4 * n.toU8.toNat + 1) 0x2C 1 (fun v => [v.raw]) := by
  constructor
  · getter_tac
  · setter_tac

theorem C04_snFrag (n : Sn) :
    IsReg (memBus.snFrag n) (memBus.setSnFrag n) (4 * n.toU8.toNat + 1) 0x2D 2 encU16 := by
  constructor
  · getter_tac
  · setter_tac

theorem C04_snKpalvtr (n : Sn) :
    IsReg (memBus.snKpalvtr n) (memBus.setSnKpalvtr n) (4 * n.toU8.toNat + 1) 0x2F 1 (fun v => [v]) := by
  constructor
  · getter_tac
  · setter_tac

theorem C04_snDest (n : Sn) :
    IsReg (memBus.snDest n) (memBus.setSnDest n) (4 * n.toU8.toNat + 1) 0x0C 6 (fun v => v.ip.octets ++ encU16 v.port) := by
  constructor
  · getter_tac
  · setter_tac

/-- The command register takes the command's code (reading it back is `C04_snCr`). -/
theorem C04_setSnCr (n : Sn) :
    IsSetter (memBus.setSnCr n) (4 * n.toU8.toNat + 1) 0x01 1 (fun c => [c.code]) := by
  setter_tac

/-- Clearing interrupts writes the given byte to the interrupt register. -/
theorem C04_setSnIr (n : Sn) :
    IsSetter (memBus.setSnIr n) (4 * n.toU8.toNat + 1) 0x02 1 (fun v => [v]) := by
  setter_tac

theorem C04_setSnRxbufSize (n : Sn) :
    IsSetter (memBus.setSnRxbufSize n) (4 * n.toU8.toNat + 1) 0x1E 1 (fun v => [v.code]) := by
  setter_tac

theorem C04_setSnTxbufSize (n : Sn) :
    IsSetter (memBus.setSnTxbufSize n) (4 * n.toU8.toNat + 1) 0x1F 1 (fun v => [v.code]) := by
  setter_tac

end

/-- Status, receive and transmit buffer size registers are read at the documented place and
converted with the (exact, see C06) code tables. -/
theorem C04_snSr (n : Sn) (m : Mem) :
    memBus.snSr n m = (.ok (SocketStatus.tryFrom (m (4 * n.toU8.toNat + 1) 0x03)), m) := by
  have := n.block_toNat
  show (Except.ok (SocketStatus.tryFrom (m n.block.toNat 3)), m) = _
  rw [this]

theorem C04_snRxbufSize (n : Sn) (m : Mem) :
    memBus.snRxbufSize n m = (.ok (BufferSize.tryFrom (m (4 * n.toU8.toNat + 1) 0x1E)), m) := by
  have := n.block_toNat
  show (Except.ok (BufferSize.tryFrom (m n.block.toNat 0x1E)), m) = _
  rw [this]

theorem C04_snTxbufSize (n : Sn) (m : Mem) :
    memBus.snTxbufSize n m = (.ok (BufferSize.tryFrom (m (4 * n.toU8.toNat + 1) 0x1F)), m) := by
  have := n.block_toNat
  show (Except.ok (BufferSize.tryFrom (m n.block.toNat 0x1F)), m) = _
  rw [this]

/-- The socket buffers are accessed at the given pointer of the socket's own TX or RX block. -/
theorem C04_buffers (n : Sn) (ptr : UInt16) (k : Nat) (bs : Bytes) (m : Mem) :
    memBus.snTxBuf n ptr k m = (.ok (m.read (4 * n.toU8.toNat + 2) ptr.toNat k), m) ∧
    memBus.snRxBuf n ptr k m = (.ok (m.read (4 * n.toU8.toNat + 3) ptr.toNat k), m) ∧
    memBus.setSnTxBuf n ptr bs m = (.ok (), m.write (4 * n.toU8.toNat + 2) ptr.toNat bs) ∧
    memBus.setSnRxBuf n ptr bs m = (.ok (), m.write (4 * n.toU8.toNat + 3) ptr.toNat bs) := by
  have h1 := n.txBlock_toNat
  have h2 := n.rxBlock_toNat
  refine ⟨?_, ?_, ?_, ?_⟩
  · show (Except.ok (Vector.ofFn _).toList, m) = _
    simp only [Prod.mk.injEq, Except.ok.injEq, and_true]
    apply List.ext_getElem <;> simp [Mem.read, h1]
  · show (Except.ok (Vector.ofFn _).toList, m) = _
    simp only [Prod.mk.injEq, Except.ok.injEq, and_true]
    apply List.ext_getElem <;> simp [Mem.read, h2]
  · show (Except.ok (), m.write n.txBlock.toNat ptr.toNat bs) = _
    rw [h1]
  · show (Except.ok (), m.write n.rxBlock.toNat ptr.toNat bs) = _
    rw [h2]

/-- Reading a register after writing it gives the value written, for every register. -/
theorem C04_get_set {α : Type} {get : M Mem α} {set : α → M Mem Unit} {block addr len : Nat}
    {enc : α → Bytes} (h : IsReg get set block addr len enc) (v : α) (m : Mem) :
    ∃ m', set v m = (.ok (), m') ∧ get m' = (.ok v, m') := by
  refine ⟨m.write block addr (enc v), h.setter.run v m, ?_⟩
  obtain ⟨w, hw, he⟩ := h.getter.run (m.write block addr (enc v))
  have hl := h.setter.length v
  have hf := h.setter.fits
  rw [← hl, Mem.read_write_same _ _ _ _ (by omega)] at he
  rw [hw, h.getter.inj _ _ he]

/-- Writing a register leaves every byte outside it unchanged. -/
theorem C04_set_frame {α : Type} {set : α → M Mem Unit} {block addr len : Nat}
    {enc : α → Bytes} (h : IsSetter set block addr len enc) (v : α) (m : Mem) (b a : Nat)
    (hout : b ≠ block ∨ a < addr ∨ addr + len ≤ a) : (set v m).2 b a = m b a := by
  have hl := h.length v
  have hf := h.fits
  rw [h.run]
  show m.write block addr (enc v) b a = m b a
  rw [Mem.write_get _ _ _ _ (by omega), dif_neg (by omega)]

/-- Writing one register does not change what another, disjoint one reads. -/
theorem C04_noninterference {α β : Type} {set : α → M Mem Unit} {get : M Mem β}
    {b1 a1 l1 b2 a2 l2 : Nat} {e1 : α → Bytes} {e2 : β → Bytes}
    (hs : IsSetter set b1 a1 l1 e1) (hg : IsGetter get b2 a2 l2 e2)
    (hfit : a2 + l2 ≤ 65536)
    (hdis : b1 ≠ b2 ∨ a1 + l1 ≤ a2 ∨ a2 + l2 ≤ a1) (v : α) (m : Mem) :
    (get (set v m).2).1 = (get m).1 := by
  obtain ⟨x, hx, ex⟩ := hg.run (set v m).2
  obtain ⟨y, hy, ey⟩ := hg.run m
  rw [hx, hy]
  simp only
  congr 1
  apply hg.inj
  rw [ex, ey]
  simp only [Mem.read]
  apply List.map_congr_left
  intro i hi
  rw [List.mem_range] at hi
  apply C04_set_frame hs
  omega

/-- The hypotheses are met: the gateway and subnet registers are such a pair. -/
example (m : Mem) (v : Ipv4) : (memBus.subr (memBus.setGar v m).2).1 = (memBus.subr m).1 :=
  C04_noninterference C04_gar.setter C04_subr.getter (by decide) (by decide) v m

example : ∃ m', memBus.setSnPort .sn3 0x1234 (fun _ _ => 0) = (.ok (), m') ∧
    memBus.snPort .sn3 m' = (.ok 0x1234, m') := C04_get_set (C04_snPort .sn3) _ _

/-! ## C05 -/

/-- The combined pointer and destination reads return what the separate reads return, and
change nothing. -/
theorem C05_reads (n : Sn) (m : Mem) :
    ∃ fsr wr rsr rd ip port,
      memBus.snTxFsr n m = (.ok fsr, m) ∧ memBus.snTxWr n m = (.ok wr, m) ∧
      memBus.snRxRsr n m = (.ok rsr, m) ∧ memBus.snRxRd n m = (.ok rd, m) ∧
      memBus.snDipr n m = (.ok ip, m) ∧ memBus.snDport n m = (.ok port, m) ∧
      memBus.snTxPtrs n m = (.ok ⟨fsr, wr⟩, m) ∧
      memBus.snRxPtrs n m = (.ok ⟨rsr, rd⟩, m) ∧
      memBus.snDest n m = (.ok ⟨ip, port⟩, m) :=
  ⟨_, _, _, _, _, _, rfl, rfl, rfl, rfl, rfl, rfl, rfl, rfl, rfl⟩

/-- Setting the destination at once is setting address and port one after the other. -/
theorem C05_set_dest (n : Sn) (d : SockAddr) (m : Mem) :
    memBus.setSnDest n d m = (do memBus.setSnDipr n d.ip; memBus.setSnDport n d.port) m := rfl

end Verif.Thm

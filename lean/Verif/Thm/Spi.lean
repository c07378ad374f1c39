import Verif.Proof.Spi
/-!
# C02, C03, C65: SPI framing
-/
namespace Verif.Thm
open Verif Verif.Spi Verif.Spec

/-- The header functions of `ll/src/spi.rs` with the operation mode each one stands for
(0 = variable length, 1, 2, 3 = one, two, four bytes). -/
def headerFor : Fin 4 → UInt16 → UInt8 → AccessMode → Bytes
  | 0 => vdmHeader
  | 1 => fdmHeader1b
  | 2 => fdmHeader2b
  | 3 => fdmHeader4b

/-- C02: each header is three bytes that decode, by the datasheet layout, to exactly the requested
address, block, direction and length mode. -/
theorem C02_header_decodes (k : Fin 4) (addr : UInt16) (block : UInt8) (hb : block < 32)
    (m : AccessMode) :
    ∃ h0 h1 h2, headerFor k addr block m = [h0, h1, h2] ∧
      decodeHeader h0 h1 h2 =
        { addr := addr.toNat, block := block.toNat, write := m == .write, mode := k.val } := by
  match k with
  | 0 =>
    refine ⟨_, _, _, rfl, ?_⟩
    rw [vdm_ctrl]; exact decode_hdr addr block hb 0 (by decide) m
  | 1 => exact ⟨_, _, _, rfl, decode_hdr addr block hb 1 (by decide) m⟩
  | 2 => exact ⟨_, _, _, rfl, decode_hdr addr block hb 2 (by decide) m⟩
  | 3 => exact ⟨_, _, _, rfl, decode_hdr addr block hb 3 (by decide) m⟩

/-- C02: different accesses have different headers. -/
theorem C02_header_injective (k k' : Fin 4) (addr addr' : UInt16) (block block' : UInt8)
    (hb : block < 32) (hb' : block' < 32) (m m' : AccessMode)
    (h : headerFor k addr block m = headerFor k' addr' block' m') :
    k = k' ∧ addr = addr' ∧ block = block' ∧ m = m' := by
  obtain ⟨a0, a1, a2, e, d⟩ := C02_header_decodes k addr block hb m
  obtain ⟨b0, b1, b2, e', d'⟩ := C02_header_decodes k' addr' block' hb' m'
  rw [e, e'] at h
  simp only [List.cons.injEq, and_true] at h
  obtain ⟨rfl, rfl, rfl⟩ := h
  rw [d] at d'
  simp only [Header.mk.injEq] at d'
  obtain ⟨h1, h2, h3, h4⟩ := d'
  refine ⟨Fin.ext h4, UInt16.toNat_inj.mp h1, UInt8.toNat_inj.mp h2, ?_⟩
  cases m <;> cases m' <;> simp_all

example : headerFor 2 0x0024 0x05 .write = [0x00, 0x24, 0x2E] := by decide

/-- C03: reading through the fixed-length driver returns the `n` bytes at `addr, addr+1, …`
(modulo 2^16) of the block, as does the variable-length driver, and neither changes the memory.
Both leave the slave between frames: no frame was shorter or longer than its header announced. -/
theorem C03_read (mem : Mem) (addr : UInt16) (block : UInt8) (hb : block < 32) (n : Nat) :
    let s : Slave := { mem := mem, phase := .idle }
    fdmRead slaveBus addr block n s = (.ok (mem.read block.toNat addr.toNat n), s) ∧
    vdmRead slaveDev addr block n s = fdmRead slaveBus addr block n s := by
  refine ⟨fdmRead_slave block hb mem addr n, ?_⟩
  rw [fdmRead_slave block hb, vdmRead_slave _ block hb]

/-- C03: writing through either driver stores the data at `addr, addr+1, …` (modulo 2^16) and
nothing else. -/
theorem C03_write (mem : Mem) (addr : UInt16) (block : UInt8) (hb : block < 32) (data : Bytes) :
    let s : Slave := { mem := mem, phase := .idle }
    fdmWrite slaveBus addr block data s
      = (.ok (), { mem := mem.write block.toNat addr.toNat data, phase := .idle }) ∧
    vdmWrite slaveDev addr block data s = fdmWrite slaveBus addr block data s := by
  refine ⟨fdmWrite_slave block hb mem addr data, ?_⟩
  rw [fdmWrite_slave block hb, vdmWrite_slave _ block hb]

/-- Non-vacuity: a 7-byte read that wraps around the 16-bit address. -/
example : (fdmRead slaveBus 0xFFFD 3 7 { mem := fun _ a => UInt8.ofNat a, phase := .idle }).1
    = .ok [0xFD, 0xFE, 0xFF, 0, 1, 2, 3] := by
  rw [fdmRead_slave 3 (by decide)]
  decide

/-- C65: whatever the SPI transfers inside do — including failing — if the chip-select pin can be
driven then the chip is deselected afterwards, and the caller gets the transfers' own result.
`csHigh` observes the pin. -/
theorem C65_chip_deselected {σ α : Type} (d : SpiDev σ) (csHigh : σ → Bool)
    (hlow : ∀ s, (d.setLow s).1 = .ok ())
    (hhigh : ∀ s, (d.setHigh s).1 = .ok () ∧ csHigh (d.setHigh s).2 = true)
    (f : M σ α) (s : σ) :
    csHigh (withChipEnable d f s).2 = true ∧
    (withChipEnable d f s).1 = (f (d.setLow s).2).1 := by
  have el : d.setLow s = (.ok (), (d.setLow s).2) := Prod.ext (hlow s) rfl
  have eh : ∀ s, d.setHigh s = (.ok (), (d.setHigh s).2) := fun s => Prod.ext (hhigh s).1 rfl
  unfold withChipEnable
  rw [M.bind_ok el, M.bind_ok (M.attempt_run _ _), M.bind_ok (eh _), M.bind_ok (eh _), M.ofExcept_run]
  exact ⟨(hhigh _).2, rfl⟩

/-- C65: a pin that cannot be driven is reported, and nothing is transferred. -/
theorem C65_select_failure {σ α : Type} (d : SpiDev σ) (f : M σ α) (s s' : σ) (e : Err)
    (hlow : d.setLow s = (.error e, s')) : withChipEnable d f s = (.error e, s') := by
  unfold withChipEnable
  exact M.bind_error hlow

/-- Non-vacuity: a device (pin state) whose transfers always fail. -/
def failingDev : SpiDev Bool where
  write _ := fun s => (.error (.bus 7), s)
  read _ := fun s => (.error (.bus 7), s)
  setLow := fun _ => (.ok (), false)
  setHigh := fun _ => (.ok (), true)

example : (∀ s, (failingDev.setLow s).1 = .ok ()) ∧
    (∀ s, (failingDev.setHigh s).1 = .ok () ∧ id (failingDev.setHigh s).2 = true) ∧
    vdmRead failingDev 0 0 1 true = (.error (.bus 7), true) :=
  ⟨fun _ => rfl, fun _ => ⟨rfl, rfl⟩, rfl⟩

end Verif.Thm

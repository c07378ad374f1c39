import Verif.Model.LL
/-!
# SPI framing (`ll/src/spi.rs`, `ll/src/eh1/*.rs`, `ll/src/eh0/*.rs`)
-/
namespace Verif.Spi

/-- `enum AccessMode`, `ll/src/spi.rs:7-12` (`Read = 0`, `Write = 1`). -/
inductive AccessMode where
  | read
  | write
  deriving DecidableEq, Repr

/-- `AccessMode as u8`, `ll/src/spi.rs:7-18` (discriminants). -/
def AccessMode.code : AccessMode → UInt8
  | .read => 0
  | .write => 1

/-- `vdm_header`, `ll/src/spi.rs:40-46`. -/
def vdmHeader (addr : UInt16) (block : UInt8) (mode : AccessMode) : Bytes :=
  [(addr >>> 8).toUInt8, addr.toUInt8, (block <<< 3) ||| (mode.code <<< 2)]

/-- `fdm_header_1b`, `ll/src/spi.rs:64-70`. -/
def fdmHeader1b (addr : UInt16) (block : UInt8) (mode : AccessMode) : Bytes :=
  [(addr >>> 8).toUInt8, addr.toUInt8, (block <<< 3) ||| (mode.code <<< 2) ||| 0b01]

/-- `fdm_header_2b`, `ll/src/spi.rs:88-94`. -/
def fdmHeader2b (addr : UInt16) (block : UInt8) (mode : AccessMode) : Bytes :=
  [(addr >>> 8).toUInt8, addr.toUInt8, (block <<< 3) ||| (mode.code <<< 2) ||| 0b10]

/-- `fdm_header_4b`, `ll/src/spi.rs:112-118`. -/
def fdmHeader4b (addr : UInt16) (block : UInt8) (mode : AccessMode) : Bytes :=
  [(addr >>> 8).toUInt8, addr.toUInt8, (block <<< 3) ||| (mode.code <<< 2) ||| 0b11]

/-- The part of `embedded_hal::spi::SpiBus` the driver uses: `write(&[u8])` and
`read(&mut [u8])` (`transfer` in embedded-hal 0.2).  `read n` returns the bytes stored in the
caller's slice. -/
structure SpiBus (σ : Type) where
  write : Bytes → M σ Unit
  read : Nat → M σ Bytes

/-- One of the three identical `while let Some(chunk) = chunks.next()` loops of the
fixed-length `read`, `ll/src/eh1/fdm.rs:74-95` (`ll/src/eh0/fdm.rs:79-99`): `k` chunks of `c`
bytes with header function `hdr`.  Returns the bytes read and the advanced address. -/
def readChunks {σ} (spi : SpiBus σ) (hdr : UInt16 → UInt8 → AccessMode → Bytes) (c : Nat)
    (block : UInt8) : Nat → UInt16 → M σ (Bytes × UInt16)
  | 0, addr => pure ([], addr)
  | k + 1, addr => do
    spi.write (hdr addr block .read)
    let x ← spi.read c
    let (rest, addr') ← readChunks spi hdr c block k (addr + UInt16.ofNat c)
    pure (x ++ rest, addr')

/-- `Registers::read` of the fixed-length driver, `ll/src/eh1/fdm.rs:73-98`
(`ll/src/eh0/fdm.rs:78-102` is the same with `transfer` for `read`).
`n` is `data.len()`.  Simplification: bytes already stored in `data` when a later access fails
are not represented. -/
def fdmRead {σ} (spi : SpiBus σ) (addr : UInt16) (block : UInt8) (n : Nat) : M σ Bytes := do
  let (x4, addr) ← readChunks spi fdmHeader4b 4 block (n / 4) addr
  let (x2, addr) ← readChunks spi fdmHeader2b 2 block (n % 4 / 2) addr
  let (x1, _) ← readChunks spi fdmHeader1b 1 block (n % 4 % 2) addr
  pure (x4 ++ x2 ++ x1)

/-- One of the three loops of the fixed-length `write`, `ll/src/eh1/fdm.rs:102-122`
(`ll/src/eh0/fdm.rs:106-127`).  Returns the advanced address and the remainder of the data. -/
def writeChunks {σ} (spi : SpiBus σ) (hdr : UInt16 → UInt8 → AccessMode → Bytes) (c : Nat)
    (block : UInt8) : Nat → UInt16 → Bytes → M σ (UInt16 × Bytes)
  | 0, addr, data => pure (addr, data)
  | k + 1, addr, data => do
    spi.write (hdr addr block .write)
    spi.write (data.take c)
    writeChunks spi hdr c block k (addr + UInt16.ofNat c) (data.drop c)

/-- `Registers::write` of the fixed-length driver, `ll/src/eh1/fdm.rs:101-125`. -/
def fdmWrite {σ} (spi : SpiBus σ) (addr : UInt16) (block : UInt8) (data : Bytes) : M σ Unit := do
  let (addr, data) ← writeChunks spi fdmHeader4b 4 block (data.length / 4) addr data
  let (addr, data) ← writeChunks spi fdmHeader2b 2 block (data.length / 2) addr data
  let (_, _) ← writeChunks spi fdmHeader1b 1 block (data.length / 1) addr data
  pure ()

/-- Chip select of `embedded_hal` 0.2 (`OutputPin`) together with the bus; `setLow`/`setHigh`
may fail.  For `eh1::spi::SpiDevice::transaction` the same structure is used: a transaction
selects the chip, runs its operations and deselects it. -/
structure SpiDev (σ : Type) extends SpiBus σ where
  setLow : M σ Unit
  setHigh : M σ Unit

/-- `with_chip_enable`, `ll/src/eh0/vdm.rs:91-101`: the chip is deselected (twice) whether or
not the closure failed, and a pin error takes precedence over the closure's result. -/
def withChipEnable {σ α} (d : SpiDev σ) (f : M σ α) : M σ α := do
  d.setLow
  let result ← M.attempt f
  d.setHigh
  d.setHigh
  M.ofExcept result

/-- `Registers::read` of the variable-length driver, `ll/src/eh0/vdm.rs:115-122`;
`ll/src/eh1/vdm.rs:72-84` issues the same operations inside `SpiDevice::transaction`. -/
def vdmRead {σ} (d : SpiDev σ) (addr : UInt16) (block : UInt8) (n : Nat) : M σ Bytes :=
  withChipEnable d do
    d.write (vdmHeader addr block .read)
    d.read n

/-- `Registers::write` of the variable-length driver, `ll/src/eh0/vdm.rs:126-133`,
`ll/src/eh1/vdm.rs:88-100`. -/
def vdmWrite {σ} (d : SpiDev σ) (addr : UInt16) (block : UInt8) (data : Bytes) : M σ Unit :=
  withChipEnable d do
    d.write (vdmHeader addr block .write)
    d.write data

end Verif.Spi

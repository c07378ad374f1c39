import Verif.Model.Spi
/-!
# The other SPI drivers and the reset sequence (`ll/src/eh0.rs`, `ll/src/eh1.rs`,
`ll/src/eh0/vdm_infallible.rs`, `ll/src/eh0/vdm_infallible_gpio.rs`, `ll/src/eh1/vdm.rs`)
-/
namespace Verif.Spi

/-- `Result::unwrap`, as `ll/src/eh0/vdm_infallible.rs:121-124` uses it: an error is a panic. -/
def unwrap {σ α} (f : M σ α) : M σ α := do
  match ← M.attempt f with
  | .ok a => pure a
  | .error _ => M.throw .panic

/-- `Registers::read` of the driver for an infallible bus and pin,
`ll/src/eh0/vdm_infallible.rs:118-126`. -/
def infRead {σ} (d : SpiDev σ) (addr : UInt16) (block : UInt8) (n : Nat) : M σ Bytes := do
  unwrap d.setLow
  unwrap (d.write (vdmHeader addr block .read))
  let data ← unwrap (d.read n)
  unwrap d.setHigh
  d.setHigh
  pure data

/-- `Registers::write` of the driver for an infallible bus and pin,
`ll/src/eh0/vdm_infallible.rs:129-137`. -/
def infWrite {σ} (d : SpiDev σ) (addr : UInt16) (block : UInt8) (data : Bytes) : M σ Unit := do
  unwrap d.setLow
  unwrap (d.write (vdmHeader addr block .write))
  unwrap (d.write data)
  unwrap d.setHigh
  d.setHigh

/-- `with_chip_enable` of the driver for an infallible pin,
`ll/src/eh0/vdm_infallible_gpio.rs:92-102`. -/
def withPin {σ α} (d : SpiDev σ) (f : M σ α) : M σ α := do
  unwrap d.setLow
  let result ← M.attempt f
  unwrap d.setHigh
  unwrap d.setHigh
  M.ofExcept result

/-- `Registers::read` of the driver for an infallible pin,
`ll/src/eh0/vdm_infallible_gpio.rs:116-123`. -/
def pinRead {σ} (d : SpiDev σ) (addr : UInt16) (block : UInt8) (n : Nat) : M σ Bytes :=
  withPin d do
    d.write (vdmHeader addr block .read)
    d.read n

/-- `Registers::write` of the driver for an infallible pin,
`ll/src/eh0/vdm_infallible_gpio.rs:127-134`. -/
def pinWrite {σ} (d : SpiDev σ) (addr : UInt16) (block : UInt8) (data : Bytes) : M σ Unit :=
  withPin d do
    d.write (vdmHeader addr block .write)
    d.write data

/-- The two kinds of `eh1::spi::Operation` the driver puts in a transaction,
`ll/src/eh1/vdm.rs:80-83,97-100`. -/
inductive Operation where
  | write (bs : Bytes)
  | read (n : Nat)

/-- `eh1::spi::SpiDevice`, as used by `ll/src/eh1/vdm.rs:84,101`: a transaction runs the operations in order; the bytes
the reads stored are returned in order. -/
structure SpiDevice (σ : Type) where
  transaction : List Operation → M σ (List Bytes)

/-- `Registers::read`, `ll/src/eh1/vdm.rs:72-84`, and the asynchronous `read`,
`ll/src/eh1/vdm.rs:112-124`, whose body is the same. -/
def eh1Read {σ} (d : SpiDevice σ) (addr : UInt16) (block : UInt8) (n : Nat) : M σ Bytes := do
  let data ← d.transaction [.write (vdmHeader addr block .read), .read n]
  pure data.flatten

/-- `Registers::write`, `ll/src/eh1/vdm.rs:88-100`, and the asynchronous `write`,
`ll/src/eh1/vdm.rs:127-139`, whose body is the same. -/
def eh1Write {σ} (d : SpiDevice σ) (addr : UInt16) (block : UInt8) (data : Bytes) : M σ Unit := do
  let _ ← d.transaction [.write (vdmHeader addr block .write), .write data]
  pure ()

/-- What `reset` uses of the reset pin and of the delay provider (`ll/src/eh0.rs:37-39`,
`ll/src/eh1.rs:38-40`).  Delays cannot fail; `delayUs` waits at least that many microseconds. -/
structure ResetPin (σ : Type) where
  setLow : M σ Unit
  setHigh : M σ Unit
  delayUs : Nat → M σ Unit

/-- `reset`, `ll/src/eh0.rs:36-46`.  `delay_ms(x)` is `delayUs (1000 * x)`. -/
def reset0 {σ} (p : ResetPin σ) : M σ Unit := do
  p.setLow
  p.delayUs (1000 * 1)
  p.setHigh
  p.delayUs (1000 * 2)

/-- `reset`, `ll/src/eh1.rs:37-47`. -/
def reset1 {σ} (p : ResetPin σ) : M σ Unit := do
  p.setLow
  p.delayUs 1000
  p.setHigh
  p.delayUs 2000

end Verif.Spi

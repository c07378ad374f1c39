import Verif.Model.Basic
/-!
# What the W5500 is, according to its datasheet

Independent of the driver: the SPI frame format and the SPI slave.
-/
namespace Verif.Spec

/-- Bit `k` of a byte. -/
def bit (x : UInt8) (k : Nat) : Bool := x.toNat.testBit k

/-- A decoded SPI frame header (datasheet section 2.2: 16-bit address phase, then a control
phase with 5 block-select bits, the read/write bit and 2 operation-mode bits). -/
structure Header where
  addr : Nat
  block : Nat
  write : Bool
  mode : Nat
  deriving DecidableEq, Repr

/-- Decode the three header bytes. -/
def decodeHeader (h0 h1 h2 : UInt8) : Header :=
  { addr := h0.toNat * 256 + h1.toNat
    block := h2.toNat / 8
    write := h2.toNat / 4 % 2 == 1
    mode := h2.toNat % 4 }

/-- Number of data bytes of a frame: operation modes 1, 2, 3 are fixed lengths 1, 2, 4;
mode 0 lasts until the chip is deselected. -/
def frameLen : Nat → Option Nat
  | 1 => some 1
  | 2 => some 2
  | 3 => some 4
  | _ => none

/-- Memory of the chip: block select value, 16-bit offset. -/
abbrev Mem := Nat → Nat → UInt8

/-- Store one byte. -/
def Mem.store (m : Mem) (block addr : Nat) (x : UInt8) : Mem :=
  fun b a => if b = block ∧ a = addr then x else m b a

/-- Bytes `addr, addr+1, …` (modulo 2^16) of a block. -/
def Mem.read (m : Mem) (block addr n : Nat) : Bytes :=
  (List.range n).map fun i => m block ((addr + i) % 65536)

/-- Store bytes at `addr, addr+1, …` (modulo 2^16), in order. -/
def Mem.write (m : Mem) (block addr : Nat) : Bytes → Mem
  | [] => m
  | x :: xs => (m.store block (addr % 65536) x).write block (addr + 1) xs

/-- Progress of the SPI slave within a frame. -/
inductive Phase where
  /-- waiting for the first header byte -/
  | idle
  /-- one header byte received -/
  | h1 (h0 : UInt8)
  /-- two header bytes received -/
  | h2 (h0 h1 : UInt8)
  /-- data phase: current address; `left = some k` means `k` more bytes -/
  | data (write : Bool) (block addr : Nat) (left : Option Nat)
  deriving DecidableEq, Repr

structure Slave where
  mem : Mem
  phase : Phase

/-- The data phase ends when the announced number of bytes has been transferred. -/
def nextPhase (write : Bool) (block addr : Nat) : Option Nat → Phase
  | none => .data write block ((addr + 1) % 65536) none
  | some k => if k ≤ 1 then .idle else .data write block ((addr + 1) % 65536) (some (k - 1))

/-- One byte exchanged on the bus: `(MISO byte, new state)`. -/
def Slave.xfer (s : Slave) (mosi : UInt8) : UInt8 × Slave :=
  match s.phase with
  | .idle => (0, { s with phase := .h1 mosi })
  | .h1 h0 => (0, { s with phase := .h2 h0 mosi })
  | .h2 h0 h1 =>
    let h := decodeHeader h0 h1 mosi
    (0, { s with phase := .data h.write h.block h.addr (frameLen h.mode) })
  | .data true block addr left =>
    (0, { mem := s.mem.store block addr mosi, phase := nextPhase true block addr left })
  | .data false block addr left =>
    (s.mem block addr, { s with phase := nextPhase false block addr left })

/-- The master sends bytes and ignores what comes back. -/
def Slave.send (s : Slave) : Bytes → Slave
  | [] => s
  | x :: xs => (s.xfer x).2.send xs

/-- The master clocks out `n` don't-care bytes (zero here) and keeps what comes back. -/
def Slave.recv (s : Slave) : Nat → Bytes × Slave
  | 0 => ([], s)
  | n + 1 =>
    let (x, s') := s.xfer 0
    let (xs, s'') := s'.recv n
    (x :: xs, s'')

end Verif.Spec

import Verif.Model.Regsim
/-!
# What the register simulator should do, in terms of reads and writes
-/
namespace Verif.Sim

/-- The byte a read of one byte returns while the operating system has nothing new; `none` when the read fails. -/
def peek (s : Sim) (block : UInt8) (addr : UInt16) : Option UInt8 :=
  match (simBus false).read addr block 1 { s with answers := [] } with
  | (.ok v, _) => some v[0]
  | _ => none

/-- The common registers between the mode register and the last writable one (W5500 datasheet, section 3.1): the gateway to the PPPoE
registers, and the PHY configuration. -/
def commonStorage (addr : UInt16) : Prop := 0x01 ≤ addr.toNat ∧ addr.toNat ≤ 0x27 ∨ addr.toNat = 0x2E

/-- The registers of a socket the driver can set freely (W5500 datasheet, section 3.2) and the simulator implements: mode, source port,
destination, time to live, the two pointers of the driver, interrupt mask. -/
def socketStorage (addr : UInt16) : Prop :=
  addr.toNat = 0x00 ∨ 0x04 ≤ addr.toNat ∧ addr.toNat ≤ 0x11 ∨ addr.toNat = 0x16 ∨ addr.toNat = 0x24 ∨ addr.toNat = 0x25 ∨
  addr.toNat = 0x28 ∨ addr.toNat = 0x29 ∨ addr.toNat = 0x2C

/-- The registers of a socket that cannot be changed by a write: status, free size, transmit read pointer, received size. -/
def socketReadOnly (addr : UInt16) : Prop :=
  addr.toNat = 0x03 ∨ 0x20 ≤ addr.toNat ∧ addr.toNat ≤ 0x23 ∨ addr.toNat = 0x26 ∨ addr.toNat = 0x27

/-- The registers of a socket the simulator does not implement: maximum segment size, type of service, receive write pointer, fragment
offset, keep alive timer. -/
def socketMissing (addr : UInt16) : Prop :=
  addr.toNat = 0x12 ∨ addr.toNat = 0x13 ∨ addr.toNat = 0x15 ∨ addr.toNat = 0x2A ∨ addr.toNat = 0x2B ∨ 0x2D ≤ addr.toNat ∧ addr.toNat ≤ 0x2F

/-- The number of bytes from one pointer to another, both modulo 2¹⁶. -/
def distance (rd wr : UInt16) : Nat := (wr.toNat + 65536 - rd.toNat) % 65536

/-- The bytes of a socket buffer from one pointer to another. -/
def ringBytes (buf : Bytes) (rd wr : UInt16) : Bytes :=
  (List.range (distance rd wr)).map fun i => buf.getD ((rd.toNat + i) % 65536 % buf.length) 0

/-- The bytes of a socket that were received and not yet read. -/
def unread (k : Socket) : Bytes := ringBytes k.rxBuf k.regs.rxRd k.regs.rxWr

/-- The receive side of a socket is consistent: the received size is that between the pointers and fits into the buffer. -/
structure RxFine (k : Socket) : Prop where
  size : k.rxBuf.length ∈ [1024, 2048, 4096, 8192, 16384]
  rsr : k.regs.rxRsr.toNat = distance k.regs.rxRd k.regs.rxWr
  fits : distance k.regs.rxRd k.regs.rxWr ≤ k.rxBuf.length

/-- A UDP datagram as the W5500 puts it into a receive buffer: the origin, the length, the data. -/
def udpFrame (origin : SockAddr) (bytes : Bytes) : Bytes := origin.ip.octets ++ toBe16 origin.port ++ toBe16 (UInt16.ofNat bytes.length) ++ bytes

end Verif.Sim

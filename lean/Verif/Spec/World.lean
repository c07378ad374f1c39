import Verif.Model.LL
import Verif.Spec.Chip
/-!
# The W5500 sockets and the network, according to the datasheet

The chip is a memory (registers and socket buffers, by block and offset) plus the log of what was
handed to the network and, per socket, of the bytes accepted from the network.  The driver's bus
accesses are interleaved with steps of the environment (arrivals, status changes, acknowledgements)
in any order: a *schedule* gives the steps that happen before each access.

Simplifications: a burst access is atomic; `SEND` hands the bytes over at once (`TX_RD` jumps to
`TX_WR`); `SEND_MAC`, `SEND_KEEP`, MACRAW and PPPoE modes are not modelled; the environment may
change socket status and free space arbitrarily (within the buffer size).
-/
namespace Verif.Spec

/-- A 16-bit register, big-endian. -/
def Mem.word (m : Mem) (block a : Nat) : Nat := (m block a).toNat * 256 + (m block (a + 1)).toNat

/-- Store a 16-bit register. -/
def Mem.setWord (m : Mem) (block a v : Nat) : Mem :=
  (m.store block a (UInt8.ofNat (v / 256))).store block (a + 1) (UInt8.ofNat v)

/-- Store bytes into a ring of `size` bytes starting at position `pos`. -/
def Mem.ringWrite (m : Mem) (block size : Nat) : Nat → Bytes → Mem
  | _, [] => m
  | pos, x :: xs => Mem.ringWrite (m.store block (pos % size) x) block size (pos + 1) xs

/-- `n` bytes of a ring of `size` bytes starting at position `pos`. -/
def Mem.ringRead (m : Mem) (block size pos n : Nat) : Bytes :=
  (List.range n).map fun i => m block ((pos + i) % size)

/-- A transmission: what the chip was told to send. -/
structure Sent where
  sock : Nat
  ip : Bytes
  port : Nat
  payload : Bytes
  deriving DecidableEq, Repr

structure Chip where
  mem : Mem
  sent : List Sent
  /-- bytes accepted from the network since the socket was opened -/
  received : Nat → Bytes

namespace Chip

/-! Socket registers of socket `k` (block `4k+1`). -/
def mode (c : Chip) (k : Nat) : Nat := (c.mem (4 * k + 1) 0x00).toNat % 16
def status (c : Chip) (k : Nat) : UInt8 := c.mem (4 * k + 1) 0x03
def rxSize (c : Chip) (k : Nat) : Nat := 1024 * (c.mem (4 * k + 1) 0x1E).toNat
def txSize (c : Chip) (k : Nat) : Nat := 1024 * (c.mem (4 * k + 1) 0x1F).toNat
def txFsr (c : Chip) (k : Nat) : Nat := c.mem.word (4 * k + 1) 0x20
def txRd (c : Chip) (k : Nat) : Nat := c.mem.word (4 * k + 1) 0x22
def txWr (c : Chip) (k : Nat) : Nat := c.mem.word (4 * k + 1) 0x24
def rxRsr (c : Chip) (k : Nat) : Nat := c.mem.word (4 * k + 1) 0x26
def rxRd (c : Chip) (k : Nat) : Nat := c.mem.word (4 * k + 1) 0x28
def rxWr (c : Chip) (k : Nat) : Nat := c.mem.word (4 * k + 1) 0x2A
def destIp (c : Chip) (k : Nat) : Bytes := (List.range 4).map fun i => c.mem (4 * k + 1) (0x0C + i)
def destPort (c : Chip) (k : Nat) : Nat := c.mem.word (4 * k + 1) 0x10
def srcPort (c : Chip) (k : Nat) : Nat := c.mem.word (4 * k + 1) 0x04

/-- Write a 16-bit register of socket `k`. -/
def setReg (c : Chip) (k a v : Nat) : Chip := { c with mem := c.mem.setWord (4 * k + 1) a v }

/-- Change the status register. -/
def setStatus (c : Chip) (k : Nat) (s : UInt8) : Chip := { c with mem := c.mem.store (4 * k + 1) 0x03 s }

/-- Forget the bytes received (a freshly opened socket). -/
def resetReceived (c : Chip) (k : Nat) : Chip :=
  { c with received := fun j => if j = k then [] else c.received j }

/-- `OPEN`: the status follows the protocol in the mode register; all pointers start at 0 and the
transmit buffer is free. -/
def cmdOpen (c : Chip) (k : Nat) : Chip :=
  let s : UInt8 := if c.mode k = 1 then 0x13 else if c.mode k = 2 then 0x22 else 0x00
  (((((((c.setReg k 0x20 (c.txSize k)).setReg k 0x22 0).setReg k 0x24 0).setReg k 0x26 0).setReg k 0x28 0).setReg
    k 0x2A 0).resetReceived k).setStatus k s

/-- `SEND`: the bytes between the transmit read and write pointers go to the network. -/
def cmdSend (c : Chip) (k : Nat) : Chip :=
  let n := (c.txWr k + 65536 - c.txRd k) % 65536
  let out : Sent :=
    { sock := k, ip := c.destIp k, port := c.destPort k,
      payload := c.mem.ringRead (4 * k + 2) (c.txSize k) (c.txRd k) n }
  { ((c.setReg k 0x22 (c.txWr k)).setReg k 0x20 (c.txFsr k - n)) with sent := c.sent ++ [out] }

/-- `RECV`: the received size becomes the distance of the receive pointers. -/
def cmdRecv (c : Chip) (k : Nat) : Chip :=
  c.setReg k 0x26 ((c.rxWr k + 65536 - c.rxRd k) % 65536)

/-- Writing the command register. -/
def command (c : Chip) (k : Nat) (x : UInt8) : Chip :=
  if x = 0x01 then c.cmdOpen k
  else if x = 0x02 then (if c.status k = 0x13 then c.setStatus k 0x14 else c)
  else if x = 0x04 then (if c.status k = 0x13 then c.setStatus k 0x15 else c)
  else if x = 0x08 then
    (if c.status k = 0x17 then c.setStatus k 0x18 else if c.status k = 0x1C then c.setStatus k 0x1D else c)
  else if x = 0x10 then c.setStatus k 0x00
  else if x = 0x20 then c.cmdSend k
  else if x = 0x40 then c.cmdRecv k
  else c

/-- Where an offset of a block is stored: socket buffers wrap at their size. -/
def phys (c : Chip) (block a : Nat) : Nat :=
  if block % 4 = 2 then a % c.txSize (block / 4)
  else if block % 4 = 3 then a % c.rxSize (block / 4)
  else a

/-- Read-only socket registers: status, free size, transmit read pointer, received size, receive
write pointer. -/
def readOnly (a : Nat) : Bool :=
  a = 0x03 || (0x20 ≤ a && a ≤ 0x23) || (0x26 ≤ a && a ≤ 0x27) || (0x2A ≤ a && a ≤ 0x2B)

/-- Write one byte. -/
def writeByte (c : Chip) (block a : Nat) (x : UInt8) : Chip :=
  if block % 4 = 1 then
    if a = 0x01 then c.command (block / 4) x
    else if a = 0x02 then { c with mem := c.mem.store block a (c.mem block a &&& ~~~x) }
    else if readOnly a then c
    else { c with mem := c.mem.store block a x }
  else { c with mem := c.mem.store block (c.phys block a) x }

/-- Write bytes at consecutive offsets (modulo 2^16). -/
def writeBytes (c : Chip) (block : Nat) : Nat → Bytes → Chip
  | _, [] => c
  | a, x :: xs => writeBytes (c.writeByte block (a % 65536) x) block (a + 1) xs

/-- Read one byte. -/
def readByte (c : Chip) (block a : Nat) : UInt8 := c.mem block (c.phys block (a % 65536))

/-- The bytes in the receive buffer not yet consumed, oldest first. -/
def unread (c : Chip) (k : Nat) : Bytes :=
  c.mem.ringRead (4 * k + 3) (c.rxSize k) (c.rxRd k) (c.rxRsr k)

end Chip

/-- What the environment can do between two accesses. -/
inductive EnvStep where
  /-- bytes arrive for socket `k`; dropped as a whole if they do not fit -/
  | arrive (k : Nat) (bs : Bytes)
  /-- the status of socket `k` changes -/
  | status (k : Nat) (s : UInt8)
  /-- `n` bytes of socket `k`'s transmit buffer are acknowledged -/
  | free (k : Nat) (n : Nat)
  /-- interrupt bits of socket `k` are raised -/
  | raise (k : Nat) (bits : UInt8)
  deriving DecidableEq

def Chip.envStep (c : Chip) : EnvStep → Chip
  | .arrive k bs =>
    if c.rxRsr k + bs.length ≤ c.rxSize k then
      let c' := (c.setReg k 0x26 (c.rxRsr k + bs.length)).setReg k 0x2A ((c.rxWr k + bs.length) % 65536)
      { c' with
        mem := c'.mem.ringWrite (4 * k + 3) (c.rxSize k) (c.rxWr k) bs
        received := fun j => if j = k then c.received k ++ bs else c.received j }
    else c
  | .status k s => c.setStatus k s
  | .free k n => c.setReg k 0x20 (min (c.txSize k) (c.txFsr k + n))
  | .raise k bits => { c with mem := c.mem.store (4 * k + 1) 0x02 (c.mem (4 * k + 1) 0x02 ||| bits) }

/-- The chip and the steps of the environment that will happen before each coming access. -/
structure World where
  chip : Chip
  sched : List (List EnvStep)

/-- Let the environment act. -/
def World.tick (w : World) : World :=
  match w.sched with
  | [] => w
  | es :: rest => { chip := es.foldl Chip.envStep w.chip, sched := rest }

/-- The chip as the peer of the driver, environment steps first. -/
def worldBus : Bus World where
  read addr block n := fun w =>
    (.ok (Vector.ofFn fun i : Fin n => w.tick.chip.readByte block.toNat (addr.toNat + i.val)), w.tick)
  write addr block bs := fun w =>
    (.ok (), { w.tick with chip := w.tick.chip.writeBytes block.toNat addr.toNat bs })

/-- How the W5500 queues a UDP datagram: source address, source port, length, payload. -/
def udpFrame (src : SockAddr) (payload : Bytes) : Bytes :=
  src.ip.octets ++ [UInt8.ofNat (src.port.toNat / 256), UInt8.ofNat src.port.toNat] ++
    [UInt8.ofNat (payload.length / 256), UInt8.ofNat payload.length] ++ payload

end Verif.Spec

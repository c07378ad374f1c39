import Verif.Spec.World
import Verif.Model.Dns
/-!
# What the registers of a multicast socket must hold, and when
-/
namespace Verif.Spec.Mdns
open Verif Spec

/-- The chip of `worldBus`, with a record of the chip at each `OPEN` command (1 in the command register) of socket `k`. -/
def watchBus (k : Nat) : Bus (World × List Chip) where
  read addr block n := fun s => ((worldBus.read addr block n s.1).1, (worldBus.read addr block n s.1).2, s.2)
  write addr block bs := fun s => ((worldBus.write addr block bs s.1).1, (worldBus.write addr block bs s.1).2,
    if block.toNat = 4 * k + 1 ∧ addr = 0x01 ∧ bs = [0x01] then s.2 ++ [(worldBus.write addr block bs s.1).2.chip] else s.2)

/-- The destination registers of socket `k` hold the address and the port of multicast DNS (RFC 6762 section 3). -/
def HasGroup (c : Chip) (k : Nat) : Prop := c.destIp k = [224, 0, 0, 251] ∧ c.destPort k = 5353

/-- Socket `k` is set up for multicast DNS with the source port `port`: mode multicast and UDP, the port, the hardware address of the group
(RFC 1112 section 6.4), the time to live 255 (RFC 6762 section 11), and the group. -/
def MulticastDns (c : Chip) (k : Nat) (port : UInt16) : Prop :=
  c.mem (4 * k + 1) 0x00 = 0x82 ∧ c.srcPort k = port.toNat ∧
  (List.range 6).map (fun i => c.mem (4 * k + 1) (0x06 + i)) = [0x01, 0x00, 0x5E, 0x00, 0x00, 0xFB] ∧
  c.mem (4 * k + 1) 0x16 = 255 ∧ HasGroup c k

end Verif.Spec.Mdns

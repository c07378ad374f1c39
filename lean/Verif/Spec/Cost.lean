import Verif.Spec.Trace
/-!
# How many accesses a call makes
-/
namespace Verif.Spec

/-- The accesses that a call makes on a device in state `s`. -/
def accesses {σ α : Type} (call : M (σ × List Access) α) (s : σ) : List Access := (call (s, [])).2.2

/-- Is this anything but a read of the status register of the socket?  (Block 4n+1, address 3 in the data sheet.) -/
def notStatus (sn : Sn) (a : Access) : Bool := !(!a.write && a.block.toNat = 4 * sn.toU8.toNat + 1 && a.addr = 3 && a.len = 1)

/-- The accesses of a debug assertion: none in a release build. -/
def inDebug (dbg : Bool) (n : Nat) : Nat := if dbg then n else 0

/-- The writes of the questions: two for every label, of which a name has one more than dots (46), and one for the end, the type and the class. -/
def questionWrites {τ : Type} (qs : List (τ × Bytes)) : Nat := (qs.map fun q => 2 * (q.2.count 46 + 1) + 1).sum

/-- The device says that nothing has been received on the socket: its received size register (block 4n+1, address 0x26, two bytes) reads as zero, unless
the access fails. -/
def NothingReceived {σ : Type} (b : Bus σ) (sn : Sn) : Prop := ∀ s v, (b.read 0x26 sn.block 2 s).1 = .ok v → v = #v[0, 0]

end Verif.Spec

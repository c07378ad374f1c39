import Verif.Spec.Panic
/-!
# The accesses of a call

What a call reads and writes on the bus, in order, and which of the accesses failed.
-/
namespace Verif.Spec

/-- An access to the chip: `len` bytes from `addr` of `block` on are read or written. -/
structure Access where
  write : Bool
  block : UInt8
  addr : UInt16
  len : Nat
  failed : Option Err

/-- The error of a result. -/
def errorOf {α : Type} : Except Err α → Option Err
  | .error e => some e
  | .ok _ => none

/-- The bus `b`, with a list of the accesses. -/
def traceBus {σ : Type} (b : Bus σ) : Bus (σ × List Access) where
  read a blk n := fun s => ((b.read a blk n s.1).1, ((b.read a blk n s.1).2, s.2 ++ [⟨false, blk, a, n, errorOf (b.read a blk n s.1).1⟩]))
  write a blk bs := fun s =>
    ((b.write a blk bs s.1).1, ((b.write a blk bs s.1).2, s.2 ++ [⟨true, blk, a, bs.length, errorOf (b.write a blk bs s.1).1⟩]))

/-- The registers, the transmit buffer or the receive buffer of a socket are accessed. -/
def OfSocket (sn : Sn) (a : Access) : Prop :=
  a.block.toNat = 4 * sn.toU8.toNat + 1 ∨ a.block.toNat = 4 * sn.toU8.toNat + 2 ∨ a.block.toNat = 4 * sn.toU8.toNat + 3

/-- The common register at `addr`, of `len` bytes, is accessed, as a whole. -/
def OfCommon (addr : UInt16) (len : Nat) (a : Access) : Prop := a.block = 0 ∧ a.addr = addr ∧ a.len = len

/-- Everything that is written satisfies `P`. -/
def OnlyWrites (P : Access → Prop) (es : List Access) : Prop := ∀ a ∈ es, a.write = true → P a

/-- No access failed. -/
def NoneFailed (es : List Access) : Prop := ∀ a ∈ es, a.failed = none

/-- The socket's interrupt register is read. -/
def ReadsInterrupts (sn : Sn) (a : Access) : Prop := a.write = false ∧ a.block.toNat = 4 * sn.toU8.toNat + 1 ∧ a.addr = 2 ∧ a.len = 1

/-- Either no access failed, and the result is not an error of the bus; or the last access, and no other, failed, and its error is
the result. -/
def Reported {α : Type} (es : List Access) (r : Except Err α) : Prop :=
  (∀ a ∈ es, a.failed = none) ∧ (∀ x, r ≠ .error (.bus x)) ∨
  ∃ before last x, es = before ++ [last] ∧ (∀ a ∈ before, a.failed = none) ∧ last.failed = some (.bus x) ∧ r = .error (.bus x)

end Verif.Spec

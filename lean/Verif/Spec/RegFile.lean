import Verif.Model.LL
import Verif.Spec.Chip
/-!
# A register file, and what it means to be the accessors of a register
-/
namespace Verif.Spec

/-- The register file as the peer of the driver: reads return the stored bytes, writes store. -/
def memBus : Bus Mem where
  read addr block n := fun m =>
    (.ok (Vector.ofFn fun i : Fin n => m block.toNat ((addr.toNat + i.val) % 65536)), m)
  write addr block bs := fun m => (.ok (), m.write block.toNat addr.toNat bs)

/-- Big-endian encoding of a 16-bit value. -/
def encU16 (v : UInt16) : Bytes := [UInt8.ofNat (v.toNat / 256), UInt8.ofNat (v.toNat % 256)]

/-- `get` returns the value encoded by the `len` bytes at `addr` of `block` and changes nothing. -/
structure IsGetter {α : Type} (get : M Mem α) (block addr len : Nat) (enc : α → Bytes) : Prop where
  run : ∀ m : Mem, ∃ v, get m = (.ok v, m) ∧ enc v = m.read block addr len
  inj : ∀ v w, enc v = enc w → v = w

/-- `set v` stores the `len` bytes encoding `v` at `addr` of `block` and nothing else. -/
structure IsSetter {α : Type} (set : α → M Mem Unit) (block addr len : Nat) (enc : α → Bytes) : Prop where
  run : ∀ v (m : Mem), set v m = (.ok (), m.write block addr (enc v))
  length : ∀ v, (enc v).length = len
  fits : addr + len ≤ 65536

/-- A readable and writable register. -/
structure IsReg {α : Type} (get : M Mem α) (set : α → M Mem Unit) (block addr len : Nat)
    (enc : α → Bytes) : Prop where
  getter : IsGetter get block addr len enc
  setter : IsSetter set block addr len enc

end Verif.Spec

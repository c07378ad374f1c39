import Verif.Model.Basic
/-!
# `dns/src/rand.rs` and `dhcp/src/rand.rs`
-/
namespace Verif

/-- `struct Rand`, `dns/src/rand.rs:6-8`, `dhcp/src/rand.rs:6-8`. -/
structure Rand where
  state : UInt64
  deriving DecidableEq

/-- `Rand::next_u32`, `dns/src/rand.rs:15-26`, `dhcp/src/rand.rs:15-26`. -/
def Rand.nextU32 (r : Rand) : UInt32 × Rand :=
  let s := r.state * 0xbb2efcec3c39611d + 0x7590ef39
  let shift := (29 : UInt64) - (s >>> 61)
  ((s >>> shift).toUInt32, ⟨s⟩)

/-- `Rand::next_u16`, `dns/src/rand.rs:28-30`. -/
def Rand.nextU16 (r : Rand) : UInt16 × Rand := (r.nextU32.1.toUInt16, r.nextU32.2)

end Verif

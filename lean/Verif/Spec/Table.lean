import Verif.Spec.Chip
/-!
# Codes and bit-fields
-/
namespace Verif.Spec

/-- `code` and `tryFrom` convert between a type and its codes: converting there and back is the
identity, only codes of values are accepted, and a rejected code is handed back. -/
structure IsCodeTable {α β : Type} (code : α → β) (tryFrom : β → Except β α) : Prop where
  roundtrip : ∀ v, tryFrom (code v) = .ok v
  exact : ∀ c v, tryFrom c = .ok v → code v = c
  reject : ∀ c e, tryFrom c = .error e → e = c ∧ ∀ v, code v ≠ c

/-- `get` reports bit `k` of the register. -/
def ReadsBit {ρ : Type} (raw : ρ → UInt8) (get : ρ → Bool) (k : Nat) : Prop :=
  ∀ r, get r = bit (raw r) k

/-- `f` makes bit `k` equal to `v` and leaves the other seven bits alone. -/
def SetsBit {ρ : Type} (raw : ρ → UInt8) (f : ρ → ρ) (k : Nat) (v : Bool) : Prop :=
  ∀ r, ∀ j < 8, bit (raw (f r)) j = if j = k then v else bit (raw r) j

/-- A one-bit field: getter, setter, clearer. -/
structure IsFlag {ρ : Type} (raw : ρ → UInt8) (get : ρ → Bool) (set clear : ρ → ρ) (k : Nat) : Prop where
  get : ReadsBit raw get k
  set : SetsBit raw set k true
  clear : SetsBit raw clear k false

end Verif.Spec

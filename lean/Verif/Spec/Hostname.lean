import Verif.Model.Basic
/-!
# Host names, RFC 952 / RFC 1123
-/
namespace Verif.Spec

/-- Letter or digit. -/
def isAlnum (b : UInt8) : Prop :=
  (48 ≤ b.toNat ∧ b.toNat ≤ 57) ∨ (65 ≤ b.toNat ∧ b.toNat ≤ 90) ∨ (97 ≤ b.toNat ∧ b.toNat ≤ 122)

/-- A label: 1 to 63 letters, digits and hyphens (45), neither starting nor ending with a hyphen. -/
def ValidLabel (l : Bytes) : Prop :=
  1 ≤ l.length ∧ l.length ≤ 63 ∧ (∀ b ∈ l, isAlnum b ∨ b = 45) ∧ l.head? ≠ some 45 ∧ l.getLast? ≠ some 45

/-- A host name: 1 to 253 bytes, one or more labels separated by dots (46). -/
def ValidHostname (s : Bytes) : Prop :=
  1 ≤ s.length ∧ s.length ≤ 253 ∧
    ∃ labels : List Bytes, labels ≠ [] ∧ s = [46].intercalate labels ∧ ∀ l ∈ labels, ValidLabel l

end Verif.Spec

import Verif.Model.Display
import Verif.Spec.Display
/-!
# C127: the text of a hardware address
-/
namespace Verif.Thm
open Verif.Spec

theorem hexValue_upperHex {n : Nat} (h : n < 16) : hexValue (upperHex n) = some n := by
  have : ∀ i : Fin 16, hexValue (upperHex i.val) = some i.val := by decide
  exact this ⟨n, h⟩

theorem hexValue_high (v : UInt8) : hexValue (upperHex (v.toNat / 16)) = some (v.toNat / 16) :=
  hexValue_upperHex (by have := v.toNat_lt; omega)

theorem hexValue_low (v : UInt8) : hexValue (upperHex (v.toNat % 16)) = some (v.toNat % 16) := hexValue_upperHex (by omega)

theorem joined (v : UInt8) : UInt8.ofNat (16 * (v.toNat / 16) + v.toNat % 16) = v := by
  rw [Nat.div_add_mod]
  exact UInt8.ofNat_toNat

theorem readOctets_last (v : UInt8) : readOctets (fmt02X v) = some [v] := by
  simp only [fmt02X, readOctets, hexValue_high, hexValue_low]
  exact congrArg (fun v => some [v]) (joined v)

theorem readOctets_cons (v : UInt8) (rest : List Char) (vs : List UInt8) (h : readOctets rest = some vs) :
    readOctets (fmt02X v ++ ':' :: rest) = some (v :: vs) := by
  simp only [fmt02X, List.cons_append, List.nil_append, readOctets, hexValue_high, hexValue_low, h]
  exact congrArg (fun v => some (v :: vs)) (joined v)

/-- **C127** The text of a hardware address has 17 characters and reads as its six octets. -/
theorem C127_display (x : Eui48) : x.display.length = 17 ∧ readOctets x.display = some x.octets :=
  ⟨rfl, readOctets_cons _ _ _ (readOctets_cons _ _ _ (readOctets_cons _ _ _ (readOctets_cons _ _ _ (readOctets_cons _ _ _ (readOctets_last _)))))⟩

/-- C127: different addresses have different texts. -/
theorem C127_injective (x y : Eui48) (h : x.display = y.display) : x = y := by
  have hx := (C127_display x).2
  rw [h, (C127_display y).2] at hx
  simp only [Eui48.octets, Option.some.injEq, List.cons.injEq, and_true] at hx
  obtain ⟨h1, h2, h3, h4, h5, h6⟩ := hx
  cases x; cases y
  simp_all

example : (⟨0x00, 0x08, 0xDC, 0x01, 0xAB, 0xFF⟩ : Eui48).display = "00:08:DC:01:AB:FF".toList := by decide

/-- Two addresses whose octets differ only in the order of the digits. -/
example : (⟨0x12, 0, 0, 0, 0, 0⟩ : Eui48).display ≠ (⟨0x21, 0, 0, 0, 0, 0⟩ : Eui48).display :=
  fun h => absurd (C127_injective _ _ h) (by decide)

end Verif.Thm

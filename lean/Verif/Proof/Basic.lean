import Verif.Model.Basic
/-!
# Helper lemmas on bytes and words
-/
namespace Verif

theorem forall_u8 {p : UInt8 → Prop} (h : ∀ n : Fin 256, p (UInt8.ofFin n)) (x : UInt8) : p x := by
  have := h x.toFin
  simpa using this

theorem forall_u16 {p : UInt16 → Prop} (h : ∀ n : Fin 65536, p (UInt16.ofFin n)) (x : UInt16) :
    p x := by
  have := h x.toFin
  simpa using this

theorem be16_toNat (a b : UInt8) : (be16 a b).toNat = a.toNat * 256 + b.toNat := by
  unfold be16
  have ha := a.toNat_lt
  have hb := b.toNat_lt
  rw [UInt16.toNat_or, UInt16.toNat_shiftLeft]
  simp only [UInt8.toNat_toUInt16]
  have : a.toNat <<< (UInt16.toNat 8 % 16) % 2 ^ 16 = a.toNat <<< 8 := by
    rw [show (UInt16.toNat 8 % 16) = 8 from rfl, Nat.shiftLeft_eq]; omega
  rw [this, ← Nat.shiftLeft_add_eq_or_of_lt hb, Nat.shiftLeft_eq]

theorem hi_toNat (x : UInt16) : ((x >>> 8).toUInt8).toNat = x.toNat / 256 := by
  have := x.toNat_lt
  simp [UInt16.toNat_shiftRight, Nat.shiftRight_eq_div_pow]; omega

theorem lo_toNat (x : UInt16) : (x.toUInt8).toNat = x.toNat % 256 := by
  simp

theorem be16_toBe16 (x : UInt16) : be16 (x >>> 8).toUInt8 x.toUInt8 = x := by
  apply UInt16.toNat_inj.mp
  rw [be16_toNat, hi_toNat, lo_toNat]; omega

theorem hi_be16 (a b : UInt8) : ((be16 a b) >>> 8).toUInt8 = a := by
  apply UInt8.toNat_inj.mp
  rw [hi_toNat, be16_toNat]
  have ha := a.toNat_lt
  have hb := b.toNat_lt
  omega

theorem lo_be16 (a b : UInt8) : (be16 a b).toUInt8 = b := by
  apply UInt8.toNat_inj.mp
  rw [lo_toNat, be16_toNat]
  have ha := a.toNat_lt
  have hb := b.toNat_lt
  omega

theorem toBe16_be16 (a b : UInt8) : toBe16 (be16 a b) = [a, b] := by
  simp [toBe16, hi_be16, lo_be16]

theorem toBe16_inj {x y : UInt16} (h : toBe16 x = toBe16 y) : x = y := by
  simp [toBe16] at h
  rw [← be16_toBe16 x, ← be16_toBe16 y, h.1, h.2]

@[simp] theorem toBe16_length (x : UInt16) : (toBe16 x).length = 2 := rfl
@[simp] theorem toBe32_length (x : UInt32) : (toBe32 x).length = 4 := rfl
@[simp] theorem octets_length (i : Ipv4) : i.octets.length = 4 := rfl
@[simp] theorem eui_octets_length (i : Eui48) : i.octets.length = 6 := rfl

theorem be32_toNat (a b c d : UInt8) :
    (be32 a b c d).toNat = a.toNat * 2 ^ 24 + b.toNat * 2 ^ 16 + c.toNat * 2 ^ 8 + d.toNat := by
  have ha := a.toNat_lt
  have hb := b.toNat_lt
  have hc := c.toNat_lt
  have hd := d.toNat_lt
  unfold be32
  simp only [UInt32.toNat_or, UInt32.toNat_shiftLeft, UInt8.toNat_toUInt32]
  have e1 : a.toNat <<< (UInt32.toNat 24 % 32) % 2 ^ 32 = a.toNat * 2 ^ 24 := by
    rw [show (UInt32.toNat 24 % 32) = 24 from rfl, Nat.shiftLeft_eq]; omega
  have e2 : b.toNat <<< (UInt32.toNat 16 % 32) % 2 ^ 32 = b.toNat * 2 ^ 16 := by
    rw [show (UInt32.toNat 16 % 32) = 16 from rfl, Nat.shiftLeft_eq]; omega
  have e3 : c.toNat <<< (UInt32.toNat 8 % 32) % 2 ^ 32 = c.toNat * 2 ^ 8 := by
    rw [show (UInt32.toNat 8 % 32) = 8 from rfl, Nat.shiftLeft_eq]; omega
  rw [e1, e2, e3]
  have f1 : a.toNat * 2 ^ 24 ||| b.toNat * 2 ^ 16 = a.toNat * 2 ^ 24 + b.toNat * 2 ^ 16 := by
    rw [← Nat.shiftLeft_eq a.toNat 24, ← Nat.shiftLeft_add_eq_or_of_lt (by omega)]
  rw [f1]
  have f2 : (a.toNat * 2 ^ 24 + b.toNat * 2 ^ 16) ||| c.toNat * 2 ^ 8
      = a.toNat * 2 ^ 24 + b.toNat * 2 ^ 16 + c.toNat * 2 ^ 8 := by
    rw [show a.toNat * 2 ^ 24 + b.toNat * 2 ^ 16 = (a.toNat * 256 + b.toNat) <<< 16 by
      rw [Nat.shiftLeft_eq]; omega, ← Nat.shiftLeft_add_eq_or_of_lt (by omega)]
  rw [f2]
  rw [show a.toNat * 2 ^ 24 + b.toNat * 2 ^ 16 + c.toNat * 2 ^ 8
      = (a.toNat * 2 ^ 16 + b.toNat * 2 ^ 8 + c.toNat) <<< 8 by
      rw [Nat.shiftLeft_eq]; omega, ← Nat.shiftLeft_add_eq_or_of_lt (by omega)]

end Verif

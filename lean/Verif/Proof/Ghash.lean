import Verif.Proof.Bmul
import Verif.Model.Tls.Ghash
/-!
# The 32-bit words of `ghash.rs` as polynomials
-/
namespace Verif.Gf2
open Polynomial Tls

/-- The polynomial of a word. -/
noncomputable def P (w : UInt32) : Poly := pol w.toNat

/-- The value of a bit. -/
def bitv (b : Bool) : ZMod 2 := if b then 1 else 0

theorem bitv_xor (a b : Bool) : bitv (a ^^ b) = bitv a + bitv b := by cases a <;> cases b <;> decide

theorem coeff_P (w : UInt32) (k : Nat) : (P w).coeff k = bitv (w.toNat.testBit k) := coeff_pol _ _

theorem bit_ge (w : UInt32) {k : Nat} (h : 32 ≤ k) : w.toNat.testBit k = false :=
  Nat.testBit_lt_two_pow (Nat.lt_of_lt_of_le w.toNat_lt (Nat.pow_le_pow_right (by decide) h))

theorem P_xor (a b : UInt32) : P (a ^^^ b) = P a + P b := by
  unfold P
  rw [UInt32.toNat_xor, pol_xor]

theorem mask_bits (i : Nat) : (0x11111111 : Nat).testBit i = decide (i < 32 ∧ i % 4 = 0) ∧ (0x22222222 : Nat).testBit i = decide (i < 32 ∧ i % 4 = 1)
    ∧ (0x44444444 : Nat).testBit i = decide (i < 32 ∧ i % 4 = 2) ∧ (0x88888888 : Nat).testBit i = decide (i < 32 ∧ i % 4 = 3) := by
  by_cases h : i < 32
  · have : ∀ i : Fin 32, (0x11111111 : Nat).testBit i = decide (i.val < 32 ∧ i.val % 4 = 0) ∧ (0x22222222 : Nat).testBit i = decide (i.val < 32 ∧ i.val % 4 = 1)
      ∧ (0x44444444 : Nat).testBit i = decide (i.val < 32 ∧ i.val % 4 = 2) ∧ (0x88888888 : Nat).testBit i = decide (i.val < 32 ∧ i.val % 4 = 3) := by
      decide +kernel
    exact this ⟨i, h⟩
  · have e : ∀ n : Nat, n < 2 ^ 32 → n.testBit i = false := fun n hn =>
      Nat.testBit_lt_two_pow (Nat.lt_of_lt_of_le hn (Nat.pow_le_pow_right (by decide) (by omega)))
    rw [e _ (by decide), e _ (by decide), e _ (by decide), e _ (by decide)]
    simp [h]

/-- `w` has bits only in the columns `r` modulo 4. -/
def Sparse (r : Nat) (w : UInt32) : Prop := ∀ i, w.toNat.testBit i → i % 4 = r

theorem sparse0 (x : UInt32) : Sparse 0 (x &&& 0x11111111) := by
  intro i h
  rw [UInt32.toNat_and, Nat.testBit_and, show (0x11111111 : UInt32).toNat = 0x11111111 from rfl, (mask_bits i).1] at h
  simp at h
  exact h.2.2
theorem sparse1 (x : UInt32) : Sparse 1 (x &&& 0x22222222) := by
  intro i h
  rw [UInt32.toNat_and, Nat.testBit_and, show (0x22222222 : UInt32).toNat = 0x22222222 from rfl, (mask_bits i).2.1] at h
  simp at h
  exact h.2.2
theorem sparse2 (x : UInt32) : Sparse 2 (x &&& 0x44444444) := by
  intro i h
  rw [UInt32.toNat_and, Nat.testBit_and, show (0x44444444 : UInt32).toNat = 0x44444444 from rfl, (mask_bits i).2.2.1] at h
  simp at h
  exact h.2.2
theorem sparse3 (x : UInt32) : Sparse 3 (x &&& 0x88888888) := by
  intro i h
  rw [UInt32.toNat_and, Nat.testBit_and, show (0x88888888 : UInt32).toNat = 0x88888888 from rfl, (mask_bits i).2.2.2] at h
  simp at h
  exact h.2.2

theorem P_columns (x : UInt32) :
    P x = P (x &&& 0x11111111) + P (x &&& 0x22222222) + P (x &&& 0x44444444) + P (x &&& 0x88888888) := by
  ext k
  simp only [coeff_add, coeff_P, UInt32.toNat_and, Nat.testBit_and]
  rw [show (0x11111111 : UInt32).toNat = 0x11111111 from rfl, show (0x22222222 : UInt32).toNat = 0x22222222 from rfl,
    show (0x44444444 : UInt32).toNat = 0x44444444 from rfl, show (0x88888888 : UInt32).toNat = 0x88888888 from rfl,
    (mask_bits k).1, (mask_bits k).2.1, (mask_bits k).2.2.1, (mask_bits k).2.2.2]
  by_cases h : k < 32
  · have h4 : k % 4 = 0 ∨ k % 4 = 1 ∨ k % 4 = 2 ∨ k % 4 = 3 := by omega
    rcases h4 with h4 | h4 | h4 | h4 <;> simp [h, h4, bitv]
  · rw [bit_ge x (by omega)]
    simp [bitv]

theorem sparse_mul_bit {r s : Nat} {a b : UInt32} (ha : Sparse r a) (hb : Sparse s b) (hr : r < 4) {k : Nat} (hk : k < 32) (he : k % 4 = (r + s) % 4) :
    bitv ((a * b).toNat.testBit k) = (P a * P b).coeff k := by
  rw [P, P, ← mul_bit ha hb hr hk he, UInt32.toNat_mul, Nat.testBit_mod_two_pow]
  simp [hk, bitv]

theorem sparse_mul_zero {r s : Nat} {a b : UInt32} (ha : Sparse r a) (hb : Sparse s b) {k : Nat} (he : k % 4 ≠ (r + s) % 4) :
    (P a * P b).coeff k = 0 := by
  rw [P, P, ← map_polN, ← map_polN, ← Polynomial.map_mul, coeff_map, coeff_prod_zero ha hb he]
  simp

/-- `bmul32` computes the low 32 coefficients of the product. -/
theorem bmul32_bit (x y : UInt32) {k : Nat} (hk : k < 32) : bitv ((bmul32 x y).toNat.testBit k) = (P x * P y).coeff k := by
  rw [P_columns x, P_columns y]
  unfold bmul32
  simp only [UInt32.toNat_or, UInt32.toNat_and (_ ^^^ _), UInt32.toNat_xor, Nat.testBit_or, Nat.testBit_and, Nat.testBit_xor]
  rw [show (0x11111111 : UInt32).toNat = 0x11111111 from rfl, show (0x22222222 : UInt32).toNat = 0x22222222 from rfl,
    show (0x44444444 : UInt32).toNat = 0x44444444 from rfl, show (0x88888888 : UInt32).toNat = 0x88888888 from rfl,
    (mask_bits k).1, (mask_bits k).2.1, (mask_bits k).2.2.1, (mask_bits k).2.2.2]
  have hx0 := sparse0 x
  have hx1 := sparse1 x
  have hx2 := sparse2 x
  have hx3 := sparse3 x
  have hy0 := sparse0 y
  have hy1 := sparse1 y
  have hy2 := sparse2 y
  have hy3 := sparse3 y
  generalize x &&& 0x11111111 = x0 at *
  generalize x &&& 0x22222222 = x1 at *
  generalize x &&& 0x44444444 = x2 at *
  generalize x &&& 0x88888888 = x3 at *
  generalize y &&& 0x11111111 = y0 at *
  generalize y &&& 0x22222222 = y1 at *
  generalize y &&& 0x44444444 = y2 at *
  generalize y &&& 0x88888888 = y3 at *
  simp only [mul_add, add_mul, coeff_add]
  have h4 : k % 4 = 0 ∨ k % 4 = 1 ∨ k % 4 = 2 ∨ k % 4 = 3 := by omega
  rcases h4 with h4 | h4 | h4 | h4
  · rw [sparse_mul_zero hx0 hy1 (by omega), sparse_mul_zero hx0 hy2 (by omega), sparse_mul_zero hx0 hy3 (by omega),
      sparse_mul_zero hx1 hy0 (by omega), sparse_mul_zero hx1 hy1 (by omega), sparse_mul_zero hx1 hy2 (by omega),
      sparse_mul_zero hx2 hy0 (by omega), sparse_mul_zero hx2 hy1 (by omega), sparse_mul_zero hx2 hy3 (by omega),
      sparse_mul_zero hx3 hy0 (by omega), sparse_mul_zero hx3 hy2 (by omega), sparse_mul_zero hx3 hy3 (by omega),
      ← sparse_mul_bit hx0 hy0 (by omega) hk (by omega), ← sparse_mul_bit hx1 hy3 (by omega) hk (by omega),
      ← sparse_mul_bit hx2 hy2 (by omega) hk (by omega), ← sparse_mul_bit hx3 hy1 (by omega) hk (by omega)]
    simp [hk, h4, bitv_xor]
    try ring
  · rw [sparse_mul_zero hx0 hy0 (by omega), sparse_mul_zero hx0 hy2 (by omega), sparse_mul_zero hx0 hy3 (by omega),
      sparse_mul_zero hx1 hy3 (by omega), sparse_mul_zero hx1 hy1 (by omega), sparse_mul_zero hx1 hy2 (by omega),
      sparse_mul_zero hx2 hy0 (by omega), sparse_mul_zero hx2 hy1 (by omega), sparse_mul_zero hx2 hy2 (by omega),
      sparse_mul_zero hx3 hy0 (by omega), sparse_mul_zero hx3 hy1 (by omega), sparse_mul_zero hx3 hy3 (by omega),
      ← sparse_mul_bit hx0 hy1 (by omega) hk (by omega), ← sparse_mul_bit hx1 hy0 (by omega) hk (by omega),
      ← sparse_mul_bit hx2 hy3 (by omega) hk (by omega), ← sparse_mul_bit hx3 hy2 (by omega) hk (by omega)]
    simp [hk, h4, bitv_xor]
    try ring
  · rw [sparse_mul_zero hx0 hy0 (by omega), sparse_mul_zero hx0 hy1 (by omega), sparse_mul_zero hx0 hy3 (by omega),
      sparse_mul_zero hx1 hy3 (by omega), sparse_mul_zero hx1 hy0 (by omega), sparse_mul_zero hx1 hy2 (by omega),
      sparse_mul_zero hx2 hy3 (by omega), sparse_mul_zero hx2 hy1 (by omega), sparse_mul_zero hx2 hy2 (by omega),
      sparse_mul_zero hx3 hy0 (by omega), sparse_mul_zero hx3 hy1 (by omega), sparse_mul_zero hx3 hy2 (by omega),
      ← sparse_mul_bit hx0 hy2 (by omega) hk (by omega), ← sparse_mul_bit hx1 hy1 (by omega) hk (by omega),
      ← sparse_mul_bit hx2 hy0 (by omega) hk (by omega), ← sparse_mul_bit hx3 hy3 (by omega) hk (by omega)]
    simp [hk, h4, bitv_xor]
    try ring
  · rw [sparse_mul_zero hx0 hy0 (by omega), sparse_mul_zero hx0 hy1 (by omega), sparse_mul_zero hx0 hy2 (by omega),
      sparse_mul_zero hx1 hy3 (by omega), sparse_mul_zero hx1 hy0 (by omega), sparse_mul_zero hx1 hy1 (by omega),
      sparse_mul_zero hx2 hy3 (by omega), sparse_mul_zero hx2 hy0 (by omega), sparse_mul_zero hx2 hy2 (by omega),
      sparse_mul_zero hx3 hy3 (by omega), sparse_mul_zero hx3 hy1 (by omega), sparse_mul_zero hx3 hy2 (by omega),
      ← sparse_mul_bit hx0 hy3 (by omega) hk (by omega), ← sparse_mul_bit hx1 hy2 (by omega) hk (by omega),
      ← sparse_mul_bit hx2 hy1 (by omega) hk (by omega), ← sparse_mul_bit hx3 hy0 (by omega) hk (by omega)]
    simp [hk, h4, bitv_xor]
    try ring

end Verif.Gf2

import Verif.Proof.Ghash2
/-!
# Multiplication of field elements
-/
namespace Verif.Gf2
open Polynomial Tls

/-- The polynomial of four words. -/
noncomputable def Q (u : U32x4) : Poly := P u.w0 + X ^ 32 * P u.w1 + X ^ 64 * P u.w2 + X ^ 96 * P u.w3

/-- The modulus, in the order of the bits of a word. -/
noncomputable def modulus : Poly := X ^ 128 + X ^ 127 + X ^ 126 + X ^ 121 + 1

theorem fold_word (w : UInt32) : X ^ 128 * P (foldHi w) + X ^ 96 * P (foldLo w) = (X ^ 128 + X ^ 127 + X ^ 126 + X ^ 121) * P w := by
  have h31 := P_shift w 31 31 1 rfl rfl (by decide) (by decide)
  have h30 := P_shift w 30 30 2 rfl rfl (by decide) (by decide)
  have h25 := P_shift w 25 25 7 rfl rfl (by decide) (by decide)
  unfold foldHi foldLo
  simp only [P_xor]
  linear_combination (-X ^ 96) * h31 + (-X ^ 96) * h30 + (-X ^ 96) * h25

theorem P_xor' (a b : UInt32) : P (a ^^^ b) = P a - P b := by rw [P_xor, sub_add]

/-- The reduction. -/
theorem reduce_eq (z0 z1 z2 z3 z4 z5 z6 z7 : UInt32) :
    X ^ 128 * Q (reduce z0 z1 z2 z3 z4 z5 z6 z7)
      = P z0 + X ^ 32 * P z1 + X ^ 64 * P z2 + X ^ 96 * P z3 + X ^ 128 * P z4 + X ^ 160 * P z5 + X ^ 192 * P z6 + X ^ 224 * P z7
        - modulus * Q ⟨z0, z1, z2, z3 ^^^ foldLo z0⟩ := by
  have f0 := fold_word z0
  have f1 := fold_word z1
  have f2 := fold_word z2
  have f3 := fold_word (z3 ^^^ foldLo z0)
  unfold reduce Q modulus
  simp only [P_xor']
  simp only [P_xor'] at f3
  linear_combination (-1 : Poly) * f0 + (-X ^ 32) * f1 + (-X ^ 64) * f2 + (-X ^ 96) * f3

theorem reduce_ex {z0 z1 z2 z3 z4 z5 z6 z7 : UInt32} {R : Poly}
    (h : P z0 + X ^ 32 * P z1 + X ^ 64 * P z2 + X ^ 96 * P z3 + X ^ 128 * P z4 + X ^ 160 * P z5 + X ^ 192 * P z6 + X ^ 224 * P z7 = R) :
    ∃ q, X ^ 128 * Q (reduce z0 z1 z2 z3 z4 z5 z6 z7) = R - modulus * q :=
  ⟨_, h ▸ reduce_eq _ _ _ _ _ _ _ _⟩

theorem shr_xor (a b : UInt32) : (a ^^^ b) >>> 1 = (a >>> 1) ^^^ (b >>> 1) := UInt32.shiftRight_xor

theorem rev32_rev32 (a : UInt32) : rev32 (rev32 a) = a := by
  apply u32_ext_bits
  intro k hk
  rw [rev32_bit _ _ hk, rev32_bit _ _ (by omega), show 31 - (31 - k) = k by omega]

/-- Karatsuba's method on four words, from nine products of words. -/
theorem karatsuba {y0 y1 y2 y3 h0 h1 h2 h3 L0 L1 L2 L3 L4 L5 L6 L7 L8 H0 H1 H2 H3 H4 H5 H6 H7 H8 T : Poly}
    (e0 : y0 * h0 = L0 + T * H0) (e1 : y1 * h1 = L1 + T * H1) (e2 : y2 * h2 = L2 + T * H2) (e3 : y3 * h3 = L3 + T * H3)
    (e4 : (y0 + y1) * (h0 + h1) = L4 + T * H4) (e5 : (y2 + y3) * (h2 + h3) = L5 + T * H5)
    (e6 : (y0 + y2) * (h0 + h2) = L6 + T * H6) (e7 : (y1 + y3) * (h1 + h3) = L7 + T * H7)
    (e8 : (y0 + y2 + (y1 + y3)) * (h0 + h2 + (h1 + h3)) = L8 + T * H8) :
    L0 + T * ((L4 - (L0 + L1)) + H0) + T ^ 2 * (L1 - L0 - L2 + L6 + (H4 - (H0 + H1)))
      + T ^ 3 * (- (L4 - (L0 + L1)) - (L5 - (L2 + L3)) + (L8 - (L6 + L7)) + (H1 - H0 - H2 + H6))
      + T ^ 4 * (L2 - L1 - L3 + L7 + (- (H4 - (H0 + H1)) - (H5 - (H2 + H3)) + (H8 - (H6 + H7))))
      + T ^ 5 * ((L5 - (L2 + L3)) + (H2 - H1 - H3 + H7)) + T ^ 6 * (L3 + (H5 - (H2 + H3))) + T ^ 7 * H3
      = (h0 + T * h1 + T ^ 2 * h2 + T ^ 3 * h3) * (y0 + T * y1 + T ^ 2 * y2 + T ^ 3 * y3) := by
  linear_combination (-(1 - T) * (1 - T ^ 2)) * e0 + (-(T ^ 2 - T) * (1 - T ^ 2)) * e1 + (-T * (1 - T ^ 2)) * e4
    + (-(1 - T) * (T ^ 4 - T ^ 2)) * e2 + (-(T ^ 2 - T) * (T ^ 4 - T ^ 2)) * e3 + (-T * (T ^ 4 - T ^ 2)) * e5
    + (-T ^ 2 * (1 - T)) * e6 + (-T ^ 2 * (T ^ 2 - T)) * e7 + (-T ^ 3) * e8

theorem neg_eq' (a : Poly) : -a = a := CharTwo.neg_eq a

/-- The words that `mul` reduces. -/
theorem mul_words (h y : U32x4) : h.mul y = reduce (bmul32 y.w0 h.w0)
    (bmul32 (y.w0 ^^^ y.w1) (h.w0 ^^^ h.w1) ^^^ (bmul32 y.w0 h.w0 ^^^ bmul32 y.w1 h.w1) ^^^ hi y.w0 h.w0)
    (bmul32 y.w1 h.w1 ^^^ bmul32 y.w0 h.w0 ^^^ bmul32 y.w2 h.w2 ^^^ bmul32 (y.w0 ^^^ y.w2) (h.w0 ^^^ h.w2)
      ^^^ (hi (y.w0 ^^^ y.w1) (h.w0 ^^^ h.w1) ^^^ (hi y.w0 h.w0 ^^^ hi y.w1 h.w1)))
    ((bmul32 (y.w0 ^^^ y.w1) (h.w0 ^^^ h.w1) ^^^ (bmul32 y.w0 h.w0 ^^^ bmul32 y.w1 h.w1))
      ^^^ (bmul32 (y.w2 ^^^ y.w3) (h.w2 ^^^ h.w3) ^^^ (bmul32 y.w2 h.w2 ^^^ bmul32 y.w3 h.w3))
      ^^^ (bmul32 (y.w0 ^^^ y.w2 ^^^ (y.w1 ^^^ y.w3)) (h.w0 ^^^ h.w2 ^^^ (h.w1 ^^^ h.w3))
        ^^^ (bmul32 (y.w0 ^^^ y.w2) (h.w0 ^^^ h.w2) ^^^ bmul32 (y.w1 ^^^ y.w3) (h.w1 ^^^ h.w3)))
      ^^^ (hi y.w1 h.w1 ^^^ hi y.w0 h.w0 ^^^ hi y.w2 h.w2 ^^^ hi (y.w0 ^^^ y.w2) (h.w0 ^^^ h.w2)))
    (bmul32 y.w2 h.w2 ^^^ bmul32 y.w1 h.w1 ^^^ bmul32 y.w3 h.w3 ^^^ bmul32 (y.w1 ^^^ y.w3) (h.w1 ^^^ h.w3)
      ^^^ ((hi (y.w0 ^^^ y.w1) (h.w0 ^^^ h.w1) ^^^ (hi y.w0 h.w0 ^^^ hi y.w1 h.w1))
        ^^^ (hi (y.w2 ^^^ y.w3) (h.w2 ^^^ h.w3) ^^^ (hi y.w2 h.w2 ^^^ hi y.w3 h.w3))
        ^^^ (hi (y.w0 ^^^ y.w2 ^^^ (y.w1 ^^^ y.w3)) (h.w0 ^^^ h.w2 ^^^ (h.w1 ^^^ h.w3))
          ^^^ (hi (y.w0 ^^^ y.w2) (h.w0 ^^^ h.w2) ^^^ hi (y.w1 ^^^ y.w3) (h.w1 ^^^ h.w3)))))
    ((bmul32 (y.w2 ^^^ y.w3) (h.w2 ^^^ h.w3) ^^^ (bmul32 y.w2 h.w2 ^^^ bmul32 y.w3 h.w3))
      ^^^ (hi y.w2 h.w2 ^^^ hi y.w1 h.w1 ^^^ hi y.w3 h.w3 ^^^ hi (y.w1 ^^^ y.w3) (h.w1 ^^^ h.w3)))
    (bmul32 y.w3 h.w3 ^^^ (hi (y.w2 ^^^ y.w3) (h.w2 ^^^ h.w3) ^^^ (hi y.w2 h.w2 ^^^ hi y.w3 h.w3)))
    (hi y.w3 h.w3) := by
  unfold U32x4.mul
  have e : ∀ a b, rev32 (bmul32 (rev32 a) (rev32 b)) >>> 1 = hi a b := fun _ _ => rfl
  simp only [rev32_xor, shr_xor]
  simp only [← rev32_xor]
  simp only [e]

/-- `X^128` times the product computed by `mul` is the product of the factors, modulo the modulus. -/
theorem mul_eq (h y : U32x4) : ∃ q, X ^ 128 * Q (h.mul y) = Q h * Q y - modulus * q := by
  rw [mul_words]
  apply reduce_ex
  have e4 := P_mul (y.w0 ^^^ y.w1) (h.w0 ^^^ h.w1)
  have e5 := P_mul (y.w2 ^^^ y.w3) (h.w2 ^^^ h.w3)
  have e6 := P_mul (y.w0 ^^^ y.w2) (h.w0 ^^^ h.w2)
  have e7 := P_mul (y.w1 ^^^ y.w3) (h.w1 ^^^ h.w3)
  have e8 := P_mul (y.w0 ^^^ y.w2 ^^^ (y.w1 ^^^ y.w3)) (h.w0 ^^^ h.w2 ^^^ (h.w1 ^^^ h.w3))
  simp only [P_xor y.w0, P_xor y.w1, P_xor y.w2, P_xor h.w0, P_xor h.w1, P_xor h.w2, P_xor (y.w0 ^^^ y.w2), P_xor (h.w0 ^^^ h.w2)] at e4 e5 e6 e7 e8
  have k := karatsuba (P_mul y.w0 h.w0) (P_mul y.w1 h.w1) (P_mul y.w2 h.w2) (P_mul y.w3 h.w3) e4 e5 e6 e7 e8
  simp only [sub_add, neg_eq', ← pow_mul] at k
  unfold Q
  simp only [P_xor]
  exact k

end Verif.Gf2

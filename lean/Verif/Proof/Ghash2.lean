import Verif.Proof.Ghash
/-!
# Bit reversal and the full product of two words
-/
namespace Verif.Gf2
open Polynomial Tls

theorem bit_shl (x : UInt32) (s : Nat) (hs : s < 32) (k : Nat) (hk : k < 32) :
    (x <<< UInt32.ofNat s).toNat.testBit k = (decide (s ≤ k) && x.toNat.testBit (k - s)) := by
  rw [UInt32.toNat_shiftLeft, Nat.testBit_mod_two_pow, Nat.testBit_shiftLeft]
  have e : (UInt32.ofNat s).toNat % 32 = s := by
    rw [UInt32.toNat_ofNat_of_lt' (by show s < 4294967296; omega)]; omega
  rw [e]
  simp [hk]

theorem bit_shr (x : UInt32) (s : Nat) (hs : s < 32) (k : Nat) : (x >>> UInt32.ofNat s).toNat.testBit k = x.toNat.testBit (k + s) := by
  rw [UInt32.toNat_shiftRight, Nat.testBit_shiftRight]
  have e : (UInt32.ofNat s).toNat % 32 = s := by
    rw [UInt32.toNat_ofNat_of_lt' (by show s < 4294967296; omega)]; omega
  rw [e, Nat.add_comm]

/-- Where bit `j` comes from when neighbouring groups of `s` bits are exchanged. -/
def swapIdx (s j : Nat) : Nat := if (j / s) % 2 = 0 then j + s else j - s

theorem swap_bit (x m : UInt32) (s j : Nat) (hs : s < 32) (hj : j < 32)
    (hm : ∀ i : Fin 32, m.toNat.testBit i = decide ((i.val / s) % 2 = 0))
    (hi : ∀ i : Fin 32, s ≤ i.val → ((i.val - s) / s % 2 = 0 ↔ ¬ (i.val / s) % 2 = 0))
    (hl : ∀ i : Fin 32, ¬ s ≤ i.val → (i.val / s) % 2 = 0) :
    (((x &&& m) <<< UInt32.ofNat s) ||| ((x >>> UInt32.ofNat s) &&& m)).toNat.testBit j = x.toNat.testBit (swapIdx s j) := by
  rw [UInt32.toNat_or, Nat.testBit_or, bit_shl _ _ hs _ hj, UInt32.toNat_and, UInt32.toNat_and, Nat.testBit_and, Nat.testBit_and, bit_shr _ _ hs,
    hm ⟨j, hj⟩]
  unfold swapIdx
  by_cases h : s ≤ j
  · rw [hm ⟨j - s, by omega⟩]
    have := hi ⟨j, hj⟩ h
    simp only at this
    by_cases h2 : (j / s) % 2 = 0
    · have h3 : ¬ (j - s) / s % 2 = 0 := by rw [this]; simp [h2]
      simp [h2, h3]
    · have h3 : (j - s) / s % 2 = 0 := this.mpr h2
      simp [h, h2, h3]
  · have := hl ⟨j, hj⟩ h
    simp only at this
    simp [h, this]

theorem rev32_bit (x : UInt32) (k : Nat) (hk : k < 32) : (rev32 x).toNat.testBit k = x.toNat.testBit (31 - k) := by
  have lt16 : ∀ k : Fin 32, swapIdx 16 k < 32 := by decide
  have lt8 : ∀ k : Fin 32, swapIdx 8 k < 32 := by decide
  have lt4 : ∀ k : Fin 32, swapIdx 4 k < 32 := by decide
  have lt2 : ∀ k : Fin 32, swapIdx 2 k < 32 := by decide
  have tot : ∀ k : Fin 32, swapIdx 1 (swapIdx 2 (swapIdx 4 (swapIdx 8 (swapIdx 16 k)))) = 31 - k.val := by decide
  have last : ∀ y : UInt32, ((y >>> 16) ||| (y <<< 16)).toNat.testBit k = y.toNat.testBit (swapIdx 16 k) := by
    intro y
    rw [UInt32.toNat_or, Nat.testBit_or, show (16 : UInt32) = UInt32.ofNat 16 from rfl, bit_shl _ _ (by decide) _ hk, bit_shr _ _ (by decide)]
    unfold swapIdx
    by_cases h : 16 ≤ k
    · have e : k / 16 % 2 = 1 := by omega
      rw [bit_ge y (by omega)]
      simp [h, e]
    · have e : k / 16 % 2 = 0 := by omega
      simp [h, e]
  unfold rev32
  simp only
  rw [last]
  have h16 := lt16 ⟨k, hk⟩
  have h8 := lt8 ⟨_, h16⟩
  have h4 := lt4 ⟨_, h8⟩
  have h2 := lt2 ⟨_, h4⟩
  simp only at h16 h8 h4 h2
  rw [show (8 : UInt32) = UInt32.ofNat 8 from rfl, swap_bit _ 0x00ff00ff 8 _ (by decide) h16 (by decide +kernel) (by decide +kernel) (by decide +kernel),
    show (4 : UInt32) = UInt32.ofNat 4 from rfl, swap_bit _ 0x0f0f0f0f 4 _ (by decide) h8 (by decide +kernel) (by decide +kernel) (by decide +kernel),
    show (2 : UInt32) = UInt32.ofNat 2 from rfl, swap_bit _ 0x33333333 2 _ (by decide) h4 (by decide +kernel) (by decide +kernel) (by decide +kernel),
    show (1 : UInt32) = UInt32.ofNat 1 from rfl, swap_bit _ 0x55555555 1 _ (by decide) h2 (by decide +kernel) (by decide +kernel) (by decide +kernel),
    tot ⟨k, hk⟩]

theorem u32_ext_bits {a b : UInt32} (h : ∀ k, k < 32 → a.toNat.testBit k = b.toNat.testBit k) : a = b := by
  apply UInt32.toNat_inj.mp
  apply Nat.eq_of_testBit_eq
  intro i
  by_cases hi : i < 32
  · exact h i hi
  · rw [bit_ge a (by omega), bit_ge b (by omega)]

theorem rev32_xor (a b : UInt32) : rev32 (a ^^^ b) = rev32 a ^^^ rev32 b := by
  apply u32_ext_bits
  intro k hk
  rw [rev32_bit _ _ hk, UInt32.toNat_xor, UInt32.toNat_xor, Nat.testBit_xor, Nat.testBit_xor, rev32_bit _ _ hk, rev32_bit _ _ hk]

theorem P_rev32 (x : UInt32) : P (rev32 x) = reflect 31 (P x) := by
  ext k
  rw [coeff_reflect, coeff_P, coeff_P]
  by_cases hk : k < 32
  · rw [rev32_bit _ _ hk, revAt_le (by omega)]
  · rw [bit_ge _ (by omega), revAt_eq_self_of_lt (by omega), bit_ge _ (by omega)]

theorem natDegree_P (x : UInt32) : (P x).natDegree ≤ 31 := by
  rw [natDegree_le_iff_coeff_eq_zero]
  intro k hk
  rw [coeff_P, bit_ge _ (by omega)]
  rfl

/-- The high half of a product of two words, as `mul` computes it. -/
def hi (x y : UInt32) : UInt32 := rev32 (bmul32 (rev32 x) (rev32 y)) >>> 1

/-- The product of two words. -/
theorem P_mul (x y : UInt32) : P x * P y = P (bmul32 x y) + X ^ 32 * P (hi x y) := by
  ext k
  rw [coeff_add, coeff_X_pow_mul']
  by_cases hk : k < 32
  · rw [if_neg (by omega), add_zero, coeff_P, bmul32_bit x y hk]
  · rw [if_pos (by omega), coeff_P, coeff_P, bit_ge _ (by omega)]
    unfold hi
    rw [show (1 : UInt32) = UInt32.ofNat 1 from rfl, bit_shr _ _ (by decide)]
    obtain ⟨m, rfl⟩ : ∃ m, k = 32 + m := ⟨k - 32, by omega⟩
    rw [show 32 + m - 32 = m by omega]
    by_cases hm : m < 31
    · rw [rev32_bit _ _ (by omega), bmul32_bit _ _ (by omega), P_rev32, P_rev32, ← reflect_mul _ _ (natDegree_P x) (natDegree_P y), coeff_reflect,
        revAt_le (by omega), show 31 + 31 - (31 - (m + 1)) = 32 + m by omega]
      simp [bitv]
    · rw [bit_ge _ (by omega)]
      have : (P x * P y).natDegree < 32 + m := by
        have := natDegree_mul_le (p := P x) (q := P y)
        have := natDegree_P x
        have := natDegree_P y
        omega
      rw [coeff_eq_zero_of_natDegree_lt this]
      simp [bitv]

/-- A shift to the left within 64 bits. -/
theorem P_shift (w : UInt32) (s : Nat) (l r : UInt32) (hl : l = UInt32.ofNat s) (hr : r = UInt32.ofNat (32 - s)) (h0 : 0 < s) (hs : s < 32) :
    X ^ s * P w = P (w <<< l) + X ^ 32 * P (w >>> r) := by
  subst hl hr
  ext k
  rw [coeff_add, coeff_X_pow_mul', coeff_X_pow_mul']
  by_cases hk : k < 32
  · rw [if_neg (show ¬ 32 ≤ k by omega), coeff_P, coeff_P, bit_shl _ _ hs _ hk]
    by_cases h : s ≤ k <;> simp [h, bitv]
  · rw [if_pos (show 32 ≤ k by omega), if_pos (by omega), coeff_P, coeff_P, coeff_P, bit_ge (w <<< _) (by omega), bit_shr _ _ (by omega),
      show k - 32 + (32 - s) = k - s by omega]
    simp [bitv]

end Verif.Gf2

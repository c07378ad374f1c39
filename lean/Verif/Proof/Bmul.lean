import Verif.Proof.Gf2
/-!
# Products of numbers with holes are products of polynomials
-/
namespace Verif.Gf2
open Polynomial

/-- Below `2^k` a sum of multiples at most 15 of `2^m`, `m = k mod 4`, stays below `2^k`. -/
theorem low_sum (f : Nat → Nat) (k : Nat) (h0 : ∀ m, m % 4 ≠ k % 4 → f m = 0) (hb : ∀ m, m < k → f m ≤ 15) :
    ∑ m ∈ Finset.range k, f m * 2 ^ m < 2 ^ k := by
  induction k using Nat.strongRecOn with
  | _ k ih =>
    by_cases hk : k < 4
    · have : ∑ m ∈ Finset.range k, f m * 2 ^ m = 0 := by
        apply Finset.sum_eq_zero
        intro m hm
        rw [h0 m (by have := Finset.mem_range.mp hm; omega), Nat.zero_mul]
      rw [this]
      exact Nat.two_pow_pos k
    · obtain ⟨j, rfl⟩ : ∃ j, k = j + 4 := ⟨k - 4, by omega⟩
      have h := ih j (by omega) (fun m hm => h0 m (by omega)) (fun m hm => hb m (by omega))
      rw [Finset.sum_range_succ, Finset.sum_range_succ, Finset.sum_range_succ, Finset.sum_range_succ, h0 (j + 1) (by omega), h0 (j + 2) (by omega),
        h0 (j + 3) (by omega)]
      have hj := hb j (by omega)
      have : f j * 2 ^ j ≤ 15 * 2 ^ j := Nat.mul_le_mul_right _ hj
      have e : 2 ^ (j + 4) = 16 * 2 ^ j := by rw [Nat.pow_add]; omega
      omega

theorem bit_of_sum (f : Nat → Nat) (k t : Nat) (h0 : ∀ m, m % 4 ≠ k % 4 → f m = 0) (hb : ∀ m, m < k → f m ≤ 15) :
    (∑ m ∈ Finset.range (k + 1 + t), f m * 2 ^ m).testBit k = decide (f k % 2 = 1) := by
  have hlow := low_sum f k h0 hb
  rw [Finset.sum_range_add, Finset.sum_range_succ]
  have hhigh : ∑ x ∈ Finset.range t, f (k + 1 + x) * 2 ^ (k + 1 + x) = 2 ^ k * (2 * ∑ x ∈ Finset.range t, f (k + 1 + x) * 2 ^ x) := by
    rw [Finset.mul_sum, Finset.mul_sum]
    apply Finset.sum_congr rfl
    intro x _
    rw [Nat.pow_add, Nat.pow_add]
    ring
  rw [hhigh]
  generalize ∑ x ∈ Finset.range t, f (k + 1 + x) * 2 ^ x = Q
  generalize ∑ x ∈ Finset.range k, f x * 2 ^ x = S at *
  rw [Nat.testBit_eq_decide_div_mod_eq]
  have : (S + f k * 2 ^ k + 2 ^ k * (2 * Q)) / 2 ^ k = f k + 2 * Q := by
    rw [show S + f k * 2 ^ k + 2 ^ k * (2 * Q) = S + 2 ^ k * (f k + 2 * Q) by ring, Nat.add_mul_div_left _ _ (Nat.two_pow_pos k),
      Nat.div_eq_of_lt hlow, Nat.zero_add]
  rw [this]
  congr 1
  rw [Nat.add_mul_mod_self_left]

/-- The polynomial with natural coefficients. -/
noncomputable def polN (n : Nat) : ℕ[X] := ∑ i ∈ Finset.range (n + 1), if n.testBit i then X ^ i else 0

theorem coeff_polN (n k : Nat) : (polN n).coeff k = if n.testBit k then 1 else 0 := by
  unfold polN
  rw [finsetSum_coeff]
  have h : ∀ i ∈ Finset.range (n + 1), (if n.testBit i then (X : ℕ[X]) ^ i else 0).coeff k = if i = k then (if n.testBit k then 1 else 0) else 0 := by
    intro i _
    by_cases hik : i = k
    · subst hik
      by_cases hb : n.testBit i <;> simp [hb]
    · by_cases hb : n.testBit i <;> simp [hb, hik, coeff_X_pow, Ne.symm hik]
  rw [Finset.sum_congr rfl h, Finset.sum_ite_eq']
  by_cases hk : k ∈ Finset.range (n + 1)
  · rw [if_pos hk]
  · rw [if_neg hk]
    have : n.testBit k = false := by
      apply Nat.testBit_lt_two_pow
      have : n < k := by simpa using hk
      exact Nat.lt_trans this Nat.lt_two_pow_self
    simp [this]

theorem map_polN (n : Nat) : (polN n).map (Nat.castRingHom (ZMod 2)) = pol n := by
  ext k
  rw [coeff_map, coeff_polN, coeff_pol]
  split <;> simp

theorem bits_sum (n m : Nat) : (∑ i ∈ Finset.range m, if n.testBit i then 2 ^ i else 0) = n % 2 ^ m := by
  induction m with
  | zero => simp [Nat.mod_one]
  | succ m ih =>
    rw [Finset.sum_range_succ, ih, Nat.mod_pow_succ, Nat.testBit_eq_decide_div_mod_eq]
    rcases Nat.mod_two_eq_zero_or_one (n / 2 ^ m) with h | h <;> simp [h]

theorem eval_polN (n : Nat) : (polN n).eval 2 = n := by
  unfold polN
  rw [eval_finsetSum]
  have : ∀ i ∈ Finset.range (n + 1), (if n.testBit i then (X : ℕ[X]) ^ i else 0).eval 2 = if n.testBit i then 2 ^ i else 0 := by
    intro i _
    split <;> simp
  rw [Finset.sum_congr rfl this, bits_sum, Nat.mod_eq_of_lt]
  exact Nat.lt_of_lt_of_le Nat.lt_two_pow_self (Nat.pow_le_pow_right (by decide) (by omega))

theorem coeff_prod_zero {A B r s m : Nat} (hA : ∀ i, A.testBit i → i % 4 = r) (hB : ∀ i, B.testBit i → i % 4 = s)
    (hm : m % 4 ≠ (r + s) % 4) : (polN A * polN B).coeff m = 0 := by
  rw [coeff_mul]
  apply Finset.sum_eq_zero
  intro x hx
  have hx := Finset.mem_antidiagonal.mp hx
  rw [coeff_polN, coeff_polN]
  by_cases h1 : A.testBit x.1
  · by_cases h2 : B.testBit x.2
    · have := hA _ h1
      have := hB _ h2
      omega
    · simp [h2]
  · simp [h1]

theorem count4 : ∀ m : Fin 32, ∀ r : Fin 4, ((Finset.range (m.val + 1)).filter fun i => i % 4 = r.val).card ≤ 8 := by decide +kernel

theorem coeff_prod_le {A B r m : Nat} (hA : ∀ i, A.testBit i → i % 4 = r) (hr : r < 4) (hm : m < 32) :
    (polN A * polN B).coeff m ≤ 15 := by
  rw [coeff_mul, Finset.Nat.sum_antidiagonal_eq_sum_range_succ_mk]
  refine Nat.le_trans (m := ∑ i ∈ Finset.range (m + 1), if i % 4 = r then 1 else 0) ?_ ?_
  · apply Finset.sum_le_sum
    intro i _
    rw [coeff_polN, coeff_polN]
    by_cases h1 : A.testBit i
    · rw [if_pos h1, if_pos (hA _ h1)]
      split <;> omega
    · simp [h1]
  · rw [← Finset.sum_filter, Finset.sum_const, smul_eq_mul, mul_one]
    exact Nat.le_trans (count4 ⟨m, hm⟩ ⟨r, hr⟩) (by decide)

/-- In the columns that count, the product of two numbers with holes has the bits of the product of their polynomials. -/
theorem mul_bit {A B r s k : Nat} (hA : ∀ i, A.testBit i → i % 4 = r) (hB : ∀ i, B.testBit i → i % 4 = s) (hr : r < 4)
    (hk : k < 32) (he : k % 4 = (r + s) % 4) :
    (if (A * B).testBit k then 1 else 0) = (pol A * pol B).coeff k := by
  have hc : (pol A * pol B).coeff k = (((polN A * polN B).coeff k : Nat) : ZMod 2) := by
    rw [← map_polN, ← map_polN, ← Polynomial.map_mul, coeff_map]
    rfl
  have hv : A * B = ∑ m ∈ Finset.range (k + 1 + ((polN A * polN B).natDegree + 1)), (polN A * polN B).coeff m * 2 ^ m := by
    rw [← eval_eq_sum_range' (by omega), eval_mul, eval_polN, eval_polN]
  rw [hc, hv, bit_of_sum (fun m => (polN A * polN B).coeff m) k _ (fun m hm => coeff_prod_zero hA hB (by omega))
    (fun m hm => coeff_prod_le hA hr (by omega))]
  generalize (polN A * polN B).coeff k = c
  rcases Nat.mod_two_eq_zero_or_one c with h | h
  · rw [h]
    have : (c : ZMod 2) = 0 := by rw [ZMod.natCast_eq_zero_iff]; omega
    simp [this]
  · rw [h]
    have : (c : ZMod 2) = ((1 : Nat) : ZMod 2) := by rw [ZMod.natCast_eq_natCast_iff]; exact h
    simp [this]

end Verif.Gf2

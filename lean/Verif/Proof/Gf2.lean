import Mathlib.Algebra.Polynomial.Reverse
import Mathlib.Algebra.Polynomial.Div
import Mathlib.Algebra.CharP.Two
import Mathlib.Data.ZMod.Basic
import Mathlib.Tactic.LinearCombination
/-!
# Natural numbers as polynomials over GF(2)
-/
namespace Verif.Gf2
open Polynomial

abbrev Poly := (ZMod 2)[X]

/-- The polynomial with the binary digits of `n` as coefficients. -/
noncomputable def pol (n : Nat) : Poly := ∑ i ∈ Finset.range (n + 1), if n.testBit i then X ^ i else 0

theorem coeff_pol (n k : Nat) : (pol n).coeff k = if n.testBit k then 1 else 0 := by
  unfold pol
  rw [finsetSum_coeff]
  have h : ∀ i ∈ Finset.range (n + 1), (if n.testBit i then (X : Poly) ^ i else 0).coeff k = if i = k then (if n.testBit k then 1 else 0) else 0 := by
    intro i _
    by_cases hik : i = k
    · subst hik
      by_cases hb : n.testBit i <;> simp [hb]
    · by_cases hb : n.testBit i <;> simp [hb, hik, coeff_X_pow, Ne.symm hik]
  rw [Finset.sum_congr rfl h, Finset.sum_ite_eq']
  by_cases hk : k ∈ Finset.range (n + 1)
  · rw [if_pos hk]
  · rw [if_neg hk]
    have : n.testBit k = false := by
      apply Nat.testBit_lt_two_pow
      have : n < k := by simpa using hk
      exact Nat.lt_trans this Nat.lt_two_pow_self
    simp [this]

theorem pol_inj {a b : Nat} (h : pol a = pol b) : a = b := by
  apply Nat.eq_of_testBit_eq
  intro i
  have := congrArg (fun p => p.coeff i) h
  simp only [coeff_pol] at this
  cases ha : a.testBit i <;> cases hb : b.testBit i <;> simp_all

theorem pol_xor (a b : Nat) : pol (a ^^^ b) = pol a + pol b := by
  ext k
  rw [coeff_add, coeff_pol, coeff_pol, coeff_pol, Nat.testBit_xor]
  cases a.testBit k <;> cases b.testBit k <;> decide

theorem pol_zero : pol 0 = 0 := by
  ext k
  simp [coeff_pol]

theorem pol_one : pol 1 = 1 := by
  ext k
  rw [coeff_pol, coeff_one]
  cases k with
  | zero => simp
  | succ k => simp [Nat.testBit_succ]

theorem pol_shl (a k : Nat) : pol (a <<< k) = X ^ k * pol a := by
  ext j
  rw [coeff_pol, coeff_X_pow_mul', coeff_pol, Nat.testBit_shiftLeft]
  by_cases h : k ≤ j <;> simp [h]

/-- The low `k` bits and the others. -/
theorem pol_split (a k : Nat) : pol a = pol (a % 2 ^ k) + X ^ k * pol (a >>> k) := by
  ext j
  rw [coeff_add, coeff_X_pow_mul', coeff_pol, coeff_pol, coeff_pol, Nat.testBit_mod_two_pow, Nat.testBit_shiftRight]
  by_cases h : k ≤ j
  · have e : k + (j - k) = j := by omega
    have e2 : ¬ j < k := by omega
    simp [h, e, e2]
  · have e2 : j < k := by omega
    simp [h, e2]

theorem degree_pol {a k : Nat} (h : a < 2 ^ k) : (pol a).degree < k := by
  rw [degree_lt_iff_coeff_zero]
  intro m hm
  rw [coeff_pol, Nat.testBit_lt_two_pow (Nat.lt_of_lt_of_le h (Nat.pow_le_pow_right (by decide) hm))]
  rfl

theorem two_zero : (2 : Poly) = 0 := CharTwo.two_eq_zero

theorem sub_add (a b : Poly) : a - b = a + b := CharTwo.sub_eq_add a b

end Verif.Gf2

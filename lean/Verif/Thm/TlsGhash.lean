import Verif.Proof.Ghash3
import Verif.Proof.Basic
import Verif.Spec.Gcm
import Mathlib.Tactic.ComputeDegree
import Mathlib.RingTheory.Coprime.Lemmas
/-!
# C56: GHASH
-/
namespace Verif.Gf2
open Polynomial Tls

/-! ## The specification as polynomials -/

theorem pol_R' (one : Nat) (h : pol one = 1) : X * pol (((one <<< 7) ^^^ (one <<< 6) ^^^ (one <<< 5) ^^^ one) <<< 120) = modulus - 1 := by
  rw [pol_shl, pol_xor, pol_xor, pol_xor, pol_shl, pol_shl, pol_shl, h]
  unfold modulus
  ring

theorem R_eq : Spec.Gcm.R = ((1 <<< 7) ^^^ (1 <<< 6) ^^^ (1 <<< 5) ^^^ 1) <<< 120 := by decide +kernel

theorem pol_R {r : Nat} (h : r = Spec.Gcm.R) : X * pol r = modulus - 1 := by
  generalize hone : 1 = one
  have h1 : pol one = 1 := by rw [← hone]; exact pol_one
  have := pol_R' one h1
  rw [R_eq] at h
  rw [h]
  subst hone
  exact this

theorem step_even {V : Nat} (h : pol V = 0 + X * pol (V / 2)) : ∃ q, X * pol (V / 2) = pol V + modulus * q :=
  ⟨0, by rw [h]; ring⟩

theorem step_odd {V r : Nat} (h : pol V = 1 + X * pol (V / 2)) (hR : X * pol r = modulus - 1) :
    ∃ q, X * pol (V / 2 ^^^ r) = pol V + modulus * q := by
  refine ⟨1, ?_⟩
  rw [h, pol_xor]
  rw [sub_add] at hR
  linear_combination hR

theorem pol_half (V : Nat) : pol V = pol (V % 2) + X * pol (V / 2) := by
  have h := pol_split V 1
  rwa [Nat.shiftRight_eq_div_pow, pow_one, pow_one] at h

theorem step_eq (V : Nat) : ∃ q, X * pol (Spec.Gcm.step V) = pol V + modulus * q := by
  have h := pol_half V
  rcases Nat.mod_two_eq_zero_or_one V with h2 | h2
  · rw [show Spec.Gcm.step V = V / 2 from if_pos h2]
    rw [h2, pol_zero] at h
    exact step_even h
  · rw [show Spec.Gcm.step V = V / 2 ^^^ Spec.Gcm.R from if_neg (by rw [h2]; decide)]
    rw [h2, pol_one] at h
    exact step_odd h (pol_R rfl)

theorem step_lt {V : Nat} (h : V < 2 ^ 128) : Spec.Gcm.step V < 2 ^ 128 := by
  unfold Spec.Gcm.step
  split
  · omega
  · exact Nat.xor_lt_two_pow (by omega) (by decide +kernel)

theorem V_eq (H i : Nat) : ∃ q, X ^ i * pol (Spec.Gcm.V H i) = pol H + modulus * q := by
  induction i with
  | zero => exact ⟨0, by simp [Spec.Gcm.V]⟩
  | succ i ih =>
    obtain ⟨q, hq⟩ := ih
    obtain ⟨r, hr⟩ := step_eq (Spec.Gcm.V H i)
    refine ⟨q + X ^ i * r, ?_⟩
    rw [Spec.Gcm.V]
    linear_combination X ^ i * hr + hq

theorem V_lt {H : Nat} (h : H < 2 ^ 128) (i : Nat) : Spec.Gcm.V H i < 2 ^ 128 := by
  induction i with
  | zero => exact h
  | succ i ih => exact step_lt ih

theorem Z_lt (A : Nat) {H : Nat} (h : H < 2 ^ 128) (i : Nat) : Spec.Gcm.Z A H i < 2 ^ 128 := by
  induction i with
  | zero => exact Nat.two_pow_pos 128
  | succ i ih =>
    rw [Spec.Gcm.Z]
    split
    · exact Nat.xor_lt_two_pow ih (V_lt h i)
    · exact ih

/-- The `i` leftmost bits of `A`, in place. -/
def top (A i : Nat) : Nat := (A >>> (128 - i)) <<< (128 - i)

theorem top_succ (A i : Nat) (hi : i < 128) : pol (top A (i + 1)) = pol (top A i) + if A.testBit (127 - i) then X ^ (127 - i) else 0 := by
  ext k
  have e : (if A.testBit (127 - i) then (X : Poly) ^ (127 - i) else 0).coeff k = if k = 127 - i ∧ A.testBit (127 - i) then 1 else 0 := by
    by_cases h : A.testBit (127 - i) <;> simp [h, coeff_X_pow]
  rw [coeff_add, e, coeff_pol, coeff_pol]
  unfold top
  rw [Nat.testBit_shiftLeft, Nat.testBit_shiftLeft, Nat.testBit_shiftRight, Nat.testBit_shiftRight]
  by_cases h1 : 128 - i ≤ k
  · rw [show 128 - i + (k - (128 - i)) = k by omega, show 128 - (i + 1) + (k - (128 - (i + 1))) = k by omega]
    have h2 : 128 - (i + 1) ≤ k := by omega
    have h3 : k ≠ 127 - i := by omega
    simp only [ge_iff_le, h1, h2, h3, decide_true, Bool.true_and, false_and, if_false, add_zero]
  · by_cases h2 : k = 127 - i
    · subst h2
      rw [show 128 - (i + 1) + (127 - i - (128 - (i + 1))) = 127 - i by omega]
      have h3 : 128 - (i + 1) ≤ 127 - i := by omega
      have h4 : ¬ 128 ≤ 127 - i + i := by omega
      simp [h4]
    · have h3 : ¬ 128 - (i + 1) ≤ k := by omega
      simp only [ge_iff_le, h1, h3, h2, decide_false, Bool.false_and, false_and, if_false]
      simp

theorem Z_eq (A H i : Nat) (hi : i ≤ 128) : ∃ q, X ^ 127 * pol (Spec.Gcm.Z A H i) = pol (top A i) * pol H + modulus * q ∨ A ≥ 2 ^ 128 := by
  by_cases hA : A ≥ 2 ^ 128
  · exact ⟨0, Or.inr hA⟩
  induction i with
  | zero =>
    refine ⟨0, Or.inl ?_⟩
    have : top A 0 = 0 := by
      unfold top
      rw [Nat.shiftRight_eq_div_pow, Nat.div_eq_of_lt (by omega), Nat.zero_shiftLeft]
    rw [this, Spec.Gcm.Z, pol_zero]
    ring
  | succ i ih =>
    obtain ⟨q, hq⟩ := ih (by omega)
    have hq := hq.resolve_right hA
    obtain ⟨r, hr⟩ := V_eq H i
    rw [top_succ A i (by omega), Spec.Gcm.Z]
    by_cases hb : A.testBit (127 - i)
    · refine ⟨q + X ^ (127 - i) * r, Or.inl ?_⟩
      rw [if_pos hb, if_pos hb, pol_xor]
      have e : (X : Poly) ^ 127 = X ^ (127 - i) * X ^ i := by rw [← pow_add, Nat.sub_add_cancel (by omega)]
      rw [mul_add, hq, e, mul_assoc, hr]
      ring
    · refine ⟨q, Or.inl ?_⟩
      rw [if_neg hb, if_neg hb, hq, add_zero]

theorem spec_mul_eq (A H : Nat) (hA : A < 2 ^ 128) : ∃ q, X ^ 127 * pol (Spec.Gcm.mul A H) = pol A * pol H + modulus * q := by
  obtain ⟨q, hq⟩ := Z_eq A H 128 (Nat.le_refl _)
  have hq := hq.resolve_right fun h => Nat.lt_irrefl _ (Nat.lt_of_lt_of_le hA h)
  have ht : top A 128 = A := by
    unfold top
    rw [Nat.sub_self, Nat.shiftRight_zero, Nat.shiftLeft_zero]
  rw [ht] at hq
  unfold Spec.Gcm.mul
  exact ⟨q, hq⟩

/-! ## Reduced polynomials are equal when they are congruent -/

theorem natDegree_modulus : modulus.natDegree = 128 := by
  unfold modulus
  compute_degree!

theorem modulus_monic : modulus.Monic := by
  unfold modulus
  monicity!

theorem modulus_ne : modulus ≠ 0 := by
  intro h
  have := natDegree_modulus
  rw [h, natDegree_zero] at this
  exact absurd this (by decide)

theorem degree_modulus : modulus.degree = ((128 : Nat) : WithBot Nat) := by
  rw [degree_eq_natDegree modulus_ne, natDegree_modulus]

theorem degree_small_aux {a b n : Nat} (ha : a < 2 ^ n) (hb : b < 2 ^ n) (hm : modulus.degree = (n : WithBot Nat)) :
    (pol a - pol b).degree < modulus.degree := by
  rw [hm]
  exact lt_of_le_of_lt (degree_sub_le _ _) (max_lt (degree_pol ha) (degree_pol hb))

theorem degree_small {a b : Nat} (ha : a < 2 ^ 128) (hb : b < 2 ^ 128) : (pol a - pol b).degree < modulus.degree :=
  degree_small_aux (n := 128) ha hb degree_modulus

set_option maxRecDepth 8000 in
theorem eq_of_congr {a b : Nat} (ha : a < 2 ^ 128) (hb : b < 2 ^ 128) {q : Poly} (h : X ^ 128 * pol a = X ^ 128 * pol b + modulus * q) : a = b := by
  apply pol_inj
  have hc : IsCoprime modulus (X ^ 128 : Poly) := by
    apply IsCoprime.pow_right
    refine ⟨1, -(X ^ 127 + X ^ 126 + X ^ 125 + X ^ 120), ?_⟩
    unfold modulus
    ring
  have hd : modulus ∣ pol a - pol b := by
    apply hc.dvd_of_dvd_mul_left
    exact ⟨q, by rw [mul_sub, h, add_sub_cancel_left]⟩
  by_contra hne
  exact modulus_monic.not_dvd_of_degree_lt (sub_ne_zero.mpr hne) (degree_small ha hb) hd

/-! ## Words and bytes -/

/-- The number with the digits of a block, most significant first. -/
def blockNat (b : Block) : Nat := b.toList.foldl (fun n x => n * 256 + x.toNat) 0

/-- The number made of four words. -/
def nat4 (u : U32x4) : Nat := u.w0.toNat + 2 ^ 32 * (u.w1.toNat + 2 ^ 32 * (u.w2.toNat + 2 ^ 32 * u.w3.toNat))

theorem pol_join {a b k : Nat} (h : a < 2 ^ k) : pol (a + 2 ^ k * b) = pol a + X ^ k * pol b := by
  rw [pol_split (a + 2 ^ k * b) k, Nat.add_mul_mod_self_left, Nat.mod_eq_of_lt h, Nat.shiftRight_eq_div_pow,
    Nat.add_mul_div_left _ _ (Nat.two_pow_pos k), Nat.div_eq_of_lt h, Nat.zero_add]

theorem Q_eq (u : U32x4) : Q u = pol (nat4 u) := by
  unfold nat4
  rw [pol_join (k := 32) u.w0.toNat_lt, pol_join (k := 32) u.w1.toNat_lt, pol_join (k := 32) u.w2.toNat_lt]
  unfold Q P
  ring

theorem nat4_lt (u : U32x4) : nat4 u < 2 ^ 128 := by
  have := u.w0.toNat_lt
  have := u.w1.toNat_lt
  have := u.w2.toNat_lt
  have := u.w3.toNat_lt
  unfold nat4
  omega

theorem nat4_add (a b : U32x4) : nat4 (a.add b) = nat4 a ^^^ nat4 b := by
  apply pol_inj
  rw [pol_xor, ← Q_eq, ← Q_eq, ← Q_eq]
  unfold Q U32x4.add
  simp only [P_xor]
  ring

/-- A block is its sixteen bytes. -/
theorem block_cases {p : Block → Prop}
    (h : ∀ b0 b1 b2 b3 b4 b5 b6 b7 b8 b9 b10 b11 b12 b13 b14 b15, p #v[b0, b1, b2, b3, b4, b5, b6, b7, b8, b9, b10, b11, b12, b13, b14, b15])
    (b : Block) : p b := by
  match b with
  | ⟨⟨[b0, b1, b2, b3, b4, b5, b6, b7, b8, b9, b10, b11, b12, b13, b14, b15]⟩, _⟩ => exact h _ _ _ _ _ _ _ _ _ _ _ _ _ _ _ _

theorem blockNat_eq (b : Block) : blockNat b = nat4 (U32x4.ofBlock b) := by
  refine block_cases (p := fun b => blockNat b = nat4 (U32x4.ofBlock b)) ?_ b
  intro b0 b1 b2 b3 b4 b5 b6 b7 b8 b9 b10 b11 b12 b13 b14 b15
  simp [blockNat, nat4, U32x4.ofBlock, be32_toNat]
  omega

theorem blockNat_lt (b : Block) : blockNat b < 2 ^ 128 := by
  rw [blockNat_eq]
  exact nat4_lt _

theorem beByte_toNat (w : UInt32) (i : Nat) (hi : i < 4) : (beByte w i).toNat = w.toNat / 2 ^ (24 - 8 * i) % 256 := by
  unfold beByte
  rw [UInt32.toNat_toUInt8, UInt32.toNat_shiftRight, Nat.shiftRight_eq_div_pow]
  have e : (UInt32.ofNat (24 - 8 * i)).toNat % 32 = 24 - 8 * i := by
    rw [UInt32.toNat_ofNat_of_lt' (by show 24 - 8 * i < 4294967296; omega)]; omega
  rw [e]

theorem finalize_nat (g : GHash) : blockNat g.finalize = nat4 g.s := by
  have h0 := g.s.w0.toNat_lt
  have h1 := g.s.w1.toNat_lt
  have h2 := g.s.w2.toNat_lt
  have h3 := g.s.w3.toNat_lt
  simp [blockNat, nat4, GHash.finalize, beByte_toNat]
  omega

/-- The value read from a block in reverse order. -/
theorem u128OfLe_reverse (h : Block) : (u128OfLe h.reverse).toNat = blockNat h := by
  have hb := blockNat_lt h
  unfold u128OfLe
  rw [BitVec.toNat_ofNat, Vector.toList_reverse, List.foldr_reverse]
  have : (h.toList.foldl (fun n x => x.toNat + 256 * n) 0) = blockNat h := by
    unfold blockNat
    congr 1
    funext n x
    omega
  rw [this, Nat.mod_eq_of_lt hb]

theorem leOfU128_words (v : BitVec 128) :
    nat4 ⟨u32OfLe (leOfU128 v)[0] (leOfU128 v)[1] (leOfU128 v)[2] (leOfU128 v)[3], u32OfLe (leOfU128 v)[4] (leOfU128 v)[5] (leOfU128 v)[6] (leOfU128 v)[7],
      u32OfLe (leOfU128 v)[8] (leOfU128 v)[9] (leOfU128 v)[10] (leOfU128 v)[11],
      u32OfLe (leOfU128 v)[12] (leOfU128 v)[13] (leOfU128 v)[14] (leOfU128 v)[15]⟩ = v.toNat := by
  have h := v.isLt
  unfold nat4 u32OfLe leOfU128
  simp only [be32_toNat, Vector.getElem_ofFn, UInt8.toNat_ofNat', Nat.shiftRight_eq_div_pow]
  generalize v.toNat = n at h ⊢
  omega

/-! ## The hash key -/

/-- The element `mulx` computes, as a number. -/
def mulxV (v : BitVec 128) : BitVec 128 := (v <<< 1) ^^^ ((v >>> 127) ^^^ ((v >>> 127) <<< 127) ^^^ ((v >>> 127) <<< 126) ^^^ ((v >>> 127) <<< 121))

theorem shl_small (v : BitVec 128) (k n : Nat) (h : v.toNat <<< k < 2 ^ n) (hn : n = 128) : (v <<< k).toNat = v.toNat <<< k := by
  subst hn
  rw [BitVec.toNat_shiftLeft, Nat.mod_eq_of_lt h]

theorem pol_mulx_aux (H t n : Nat) (hn : n = 128) (ht : (H <<< 1) >>> n = t) :
    pol (((H <<< 1) % 2 ^ n) ^^^ (t ^^^ (t <<< 127) ^^^ (t <<< 126) ^^^ (t <<< 121))) = X * pol H + modulus * pol t := by
  have h := pol_split (H <<< 1) n
  rw [ht, pol_shl, pow_one] at h
  rw [pol_xor, pol_xor, pol_xor, pol_xor, pol_shl, pol_shl, pol_shl, h, hn]
  have e : pol ((H <<< 1) % 2 ^ 128) + X ^ 128 * pol t + modulus * pol t
      = pol ((H <<< 1) % 2 ^ 128) + (X ^ 128 * pol t + X ^ 128 * pol t) + (X ^ 127 + X ^ 126 + X ^ 121 + 1) * pol t := by
    unfold modulus
    ring
  rw [e, CharTwo.add_self_eq_zero]
  ring

theorem mulxV_eq (v : BitVec 128) : ∃ q, pol (mulxV v).toNat = X * pol v.toNat + modulus * q := by
  have hv := v.isLt
  have ht : (v >>> 127).toNat = v.toNat >>> 127 := BitVec.toNat_ushiftRight ..
  have h1 : v.toNat >>> 127 ≤ 1 := by
    rw [Nat.shiftRight_eq_div_pow]
    omega
  have e : (mulxV v).toNat = ((v.toNat <<< 1) % 2 ^ 128) ^^^
      (v.toNat >>> 127 ^^^ ((v.toNat >>> 127) <<< 127) ^^^ ((v.toNat >>> 127) <<< 126) ^^^ ((v.toNat >>> 127) <<< 121)) := by
    unfold mulxV
    rw [BitVec.toNat_xor, BitVec.toNat_xor, BitVec.toNat_xor, BitVec.toNat_xor, BitVec.toNat_shiftLeft, shl_small _ 127 128 _ rfl,
      shl_small _ 126 128 _ rfl, shl_small _ 121 128 _ rfl, ht]
    all_goals
      rw [ht, Nat.shiftLeft_eq]
      generalize v.toNat >>> 127 = t at h1
      omega
  refine ⟨pol (v.toNat >>> 127), ?_⟩
  rw [e]
  refine pol_mulx_aux v.toNat _ 128 rfl ?_
  rw [Nat.shiftLeft_eq, Nat.shiftRight_eq_div_pow, Nat.shiftRight_eq_div_pow]
  generalize v.toNat = n at hv
  omega

theorem new_h (h : Block) : nat4 (GHash.new h).h = (mulxV (u128OfLe h.reverse)).toNat := leOfU128_words _

/-- Multiplication by the prepared hash key is multiplication by the hash key. -/
theorem mul_key (s : U32x4) (h : Block) : nat4 (s.mul (GHash.new h).h) = Spec.Gcm.mul (nat4 s) (blockNat h) := by
  obtain ⟨q, hq⟩ := mul_eq s (GHash.new h).h
  obtain ⟨r, hr⟩ := mulxV_eq (u128OfLe h.reverse)
  obtain ⟨t, ht⟩ := spec_mul_eq (nat4 s) (blockNat h) (nat4_lt s)
  rw [Q_eq, Q_eq, Q_eq, new_h, hr, u128OfLe_reverse] at hq
  have hs : X ^ 128 * pol (Spec.Gcm.mul (nat4 s) (blockNat h)) = X * (pol (nat4 s) * pol (blockNat h) + modulus * t) := by
    rw [← ht]
    ring
  apply eq_of_congr (q := pol (nat4 s) * r - q - X * t) (nat4_lt _) (Z_lt _ (blockNat_lt h) _)
  rw [hq]
  unfold Spec.Gcm.mul at hs
  rw [hs]
  ring

/-- C56.  For every hash key and every sequence of blocks, what `GHash` returns after `new` with the key and `update` with each of the blocks is GHASH
of NIST SP 800-38D. -/
theorem C56_ghash (h : Block) (xs : List Block) :
    blockNat (xs.foldl GHash.update (GHash.new h)).finalize = Spec.Gcm.ghash (blockNat h) (xs.map blockNat) := by
  rw [finalize_nat]
  have key : ∀ (xs : List Block) (g : GHash) (Y : Nat), g.h = (GHash.new h).h → nat4 g.s = Y →
      nat4 (xs.foldl GHash.update g).s = (xs.map blockNat).foldl (fun Y X => Spec.Gcm.mul (Y ^^^ X) (blockNat h)) Y := by
    intro xs
    induction xs with
    | nil => exact fun g Y _ hY => hY
    | cons x xs ih =>
      intro g Y hg hY
      rw [List.foldl_cons, List.map_cons, List.foldl_cons]
      apply ih
      · exact hg
      · show nat4 ((g.s.add (U32x4.ofBlock x)).mul g.h) = _
        rw [hg, mul_key, nat4_add, hY, ← blockNat_eq]
  exact key xs (GHash.new h) 0 rfl rfl

/-- The specification gives the value of test case 2 of the GCM submission to NIST. -/
example : Spec.Gcm.ghash 0x66e94bd4ef8a2c3b884cfa59ca342b2e [0x0388dace60b6a392f328c2b971b2fe78, 128] = 0xf38cbb1ad69223dcc3457ae5b6b0f885 := by
  decide +kernel

end Verif.Gf2

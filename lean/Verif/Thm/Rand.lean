import Verif.Model.Rand
import Mathlib.Data.Fintype.EquivFin
/-!
# C64: the random generator
-/
namespace Verif.Thm
open Verif

/-- `f` applied `n` times. -/
def iter (f : α → α) : Nat → α → α
  | 0, x => x
  | n + 1, x => iter f n (f x)

/-- The generator after producing `n` numbers. -/
def after64 (n : Nat) (r : Rand) : Rand := iter (fun r => r.nextU32.2) n r

theorem after64_zero (r : Rand) : after64 0 r = r := by unfold after64; rw [iter]
theorem after64_succ (n : Nat) (r : Rand) : after64 (n + 1) r = after64 n r.nextU32.2 := by unfold after64; rw [iter]

/-- The multiplier and increment of the generator. -/
def mul64 : Nat := 0xbb2efcec3c39611d
def add64 : Nat := 0x7590ef39

/-- `1 + a + a² + … + a^(n-1)`. -/
def geom (a : Nat) : Nat → Nat
  | 0 => 0
  | n + 1 => 1 + a * geom a n

theorem next_state (r : Rand) : r.nextU32.2.state.toNat = (mul64 * r.state.toNat + add64) % 2 ^ 64 := by
  show (r.state * 0xbb2efcec3c39611d + 0x7590ef39).toNat = _
  have h1 : (0xbb2efcec3c39611d : UInt64).toNat = mul64 := by decide
  have h2 : (0x7590ef39 : UInt64).toNat = add64 := by decide
  rw [UInt64.toNat_add, UInt64.toNat_mul, h1, h2, Nat.mul_comm, Nat.mod_add_mod]

/-- C64: the state after `n` numbers, in closed form. -/
theorem C64_state (n : Nat) (r : Rand) :
    (after64 n r).state.toNat = (mul64 ^ n * r.state.toNat + geom mul64 n * add64) % 2 ^ 64 := by
  induction n generalizing r with
  | zero =>
    have := r.state.toNat_lt
    simp only [after64_zero, geom, Nat.pow_zero, Nat.one_mul, Nat.zero_mul, Nat.add_zero]
    omega
  | succ n ih =>
    rw [after64_succ, ih, next_state, Nat.add_mod, Nat.mul_mod_mod, ← Nat.add_mod, Nat.mul_add, ← Nat.mul_assoc,
      ← Nat.pow_succ, Nat.add_assoc]
    have : mul64 ^ n * add64 + geom mul64 n * add64 = geom mul64 (n + 1) * add64 := by
      rw [← Nat.add_mul]
      congr 1
      clear ih
      induction n with
      | zero => rfl
      | succ n ih2 =>
        have e : geom mul64 (n + 1 + 1) = 1 + mul64 * geom mul64 (n + 1) := by rw [geom]
        have e1 : geom mul64 (n + 1) = 1 + mul64 * geom mul64 n := by rw [geom]
        rw [e, Nat.pow_succ, ← ih2, Nat.mul_add, Nat.mul_comm (mul64 ^ n) mul64, ih2, e1]
        omega
    rw [this]

/-- C64: the number produced is bits of the new state: 32 of them, starting at a bit between 22 and 29
chosen by the top three. -/
theorem C64_output (r : Rand) :
    let s := r.nextU32.2.state.toNat
    r.nextU32.1.toNat = s / 2 ^ (29 - s / 2 ^ 61) % 2 ^ 32 ∧ r.nextU16.1.toNat = s / 2 ^ (29 - s / 2 ^ 61) % 2 ^ 16 ∧
      r.nextU16.2 = r.nextU32.2 := by
  intro s
  have hs : s < 2 ^ 64 := r.nextU32.2.state.toNat_lt
  have h61 : (r.nextU32.2.state >>> 61).toNat = s / 2 ^ 61 := by
    rw [UInt64.toNat_shiftRight, Nat.shiftRight_eq_div_pow]; rfl
  have hsh : ((29 : UInt64) - (r.nextU32.2.state >>> 61)).toNat = 29 - s / 2 ^ 61 := by
    rw [UInt64.toNat_sub_of_le _ _ (by show (r.nextU32.2.state >>> 61).toNat ≤ 29; rw [h61]; omega), h61]; rfl
  have h32 : r.nextU32.1.toNat = s / 2 ^ (29 - s / 2 ^ 61) % 2 ^ 32 := by
    show (r.nextU32.2.state >>> ((29 : UInt64) - (r.nextU32.2.state >>> 61))).toUInt32.toNat = _
    rw [UInt64.toNat_toUInt32, UInt64.toNat_shiftRight, hsh, Nat.shiftRight_eq_div_pow,
      Nat.mod_eq_of_lt (show 29 - s / 2 ^ 61 < 64 by omega)]
  refine ⟨h32, ?_, rfl⟩
  show r.nextU32.1.toUInt16.toNat = _
  rw [UInt32.toNat_toUInt16, h32, Nat.mod_mod_of_dvd _ (by decide)]

/-! ## Full period -/

theorem geom_double (a n : Nat) : geom a (n + n) = geom a n * (1 + a ^ n) := by
  have add : ∀ m, geom a (n + m) = geom a n + a ^ n * geom a m := by
    induction n with
    | zero => intro m; simp [geom]
    | succ n ih =>
      intro m
      rw [show n + 1 + m = (n + m) + 1 by omega, geom, ih m, geom, Nat.pow_succ, Nat.mul_add]
      rw [show a ^ n * a * geom a m = a * (a ^ n * geom a m) by rw [Nat.mul_comm (a ^ n) a, Nat.mul_assoc]]
      omega
  rw [add n, Nat.mul_add, Nat.mul_one, Nat.mul_comm (a ^ n)]

theorem pow_mod_four (a n : Nat) (ha : a % 4 = 1) : a ^ n % 4 = 1 := by
  rw [Nat.pow_mod, ha, Nat.one_pow]

theorem geom_mod_two (a n : Nat) (ha : a % 4 = 1) : geom a n % 2 = n % 2 := by
  induction n with
  | zero => rfl
  | succ n ih =>
    rw [geom, Nat.add_mod, Nat.mul_mod, show a % 2 = 1 by omega, ih]
    omega

theorem dvd_of_odd_mul {k x y : Nat} (hy : y % 2 = 1) (h : 2 ^ k ∣ x * y) : 2 ^ k ∣ x := by
  refine Nat.Coprime.dvd_of_dvd_mul_right ?_ h
  apply Nat.Coprime.pow_left
  show Nat.gcd 2 y = 1
  rw [Nat.gcd_rec, hy]; decide

theorem geom_dvd (a : Nat) (ha : a % 4 = 1) (k n : Nat) : 2 ^ k ∣ geom a n ↔ 2 ^ k ∣ n := by
  induction k generalizing n with
  | zero => simp
  | succ k ih =>
    by_cases hn : n % 2 = 0
    · obtain ⟨m, rfl⟩ : ∃ m, n = m + m := ⟨n / 2, by omega⟩
      have h1 := pow_mod_four a m ha
      obtain ⟨q, hq⟩ : ∃ q, 1 + a ^ m = 2 * (2 * q + 1) := ⟨a ^ m / 4, by omega⟩
      rw [geom_double, hq, show geom a m * (2 * (2 * q + 1)) = 2 * (geom a m * (2 * q + 1)) by
        rw [← Nat.mul_assoc, Nat.mul_comm (geom a m) 2, Nat.mul_assoc], Nat.pow_succ, Nat.mul_comm (2 ^ k) 2,
        show m + m = 2 * m by omega, Nat.mul_dvd_mul_iff_left (by decide), Nat.mul_dvd_mul_iff_left (by decide), ← ih m]
      exact ⟨fun h => dvd_of_odd_mul (by omega) h, fun h => Nat.dvd_mul_right_of_dvd h _⟩
    · have h1 := geom_mod_two a n ha
      have hdvd : ∀ x, x % 2 = 1 → ¬ 2 ^ (k + 1) ∣ x := by
        intro x hx ⟨q, hq⟩
        rw [Nat.pow_succ, Nat.mul_comm (2 ^ k) 2, Nat.mul_assoc] at hq
        omega
      exact ⟨fun h => absurd h (hdvd _ (by omega)), fun h => absurd h (hdvd _ (by omega))⟩

theorem after64_add (i j : Nat) (r : Rand) : after64 (i + j) r = after64 j (after64 i r) := by
  induction i generalizing r with
  | zero => rw [Nat.zero_add, after64_zero]
  | succ n ih => rw [show n + 1 + j = (n + j) + 1 by omega, after64_succ, after64_succ]; exact ih _

theorem rand_ext {r r' : Rand} (h : r.state.toNat = r'.state.toNat) : r = r' := by
  cases r; cases r'; congr; exact UInt64.toNat_inj.mp h

/-- C64, full period: from every seed the state comes back exactly after each multiple of 2^64 numbers. -/
theorem C64_full_period (r : Rand) (n : Nat) : after64 n r = r ↔ 2 ^ 64 ∣ n := by
  have hr := r.state.toNat_lt
  have ha : mul64 % 4 = 1 := by decide
  have key : after64 n r = r ↔ (mul64 ^ n * r.state.toNat + geom mul64 n * add64) % 2 ^ 64 = r.state.toNat % 2 ^ 64 := by
    rw [← C64_state, Nat.mod_eq_of_lt hr]
    exact ⟨fun h => by rw [h], rand_ext⟩
  rw [key]
  have hpow : ∀ n, mul64 ^ n = 1 + geom mul64 n * (mul64 - 1) := by
    intro n
    induction n with
    | zero => rfl
    | succ n ih =>
      have hm : mul64 = 1 + (mul64 - 1) := by decide
      rw [geom, Nat.pow_succ, ih]
      generalize mul64 - 1 = d at hm ⊢
      rw [hm]
      generalize geom (1 + d) n = g
      simp only [Nat.add_mul, Nat.mul_add, Nat.one_mul, Nat.mul_one]
      have : g * d * d = d * g * d := by rw [Nat.mul_comm g d]
      omega
  rw [hpow n, Nat.add_mul, Nat.one_mul, Nat.add_assoc, Nat.mul_assoc, ← Nat.mul_add]
  have hodd : ((mul64 - 1) * r.state.toNat + add64) % 2 = 1 := by
    rw [Nat.add_mod, Nat.mul_mod, show (mul64 - 1) % 2 = 0 by decide, show add64 % 2 = 1 by decide]
    omega
  generalize (mul64 - 1) * r.state.toNat + add64 = y at hodd
  rw [← geom_dvd mul64 ha]
  constructor
  · intro h
    have h2 : (geom mul64 n * y) % 2 ^ 64 = 0 := by omega
    exact dvd_of_odd_mul hodd (Nat.dvd_of_mod_eq_zero h2)
  · intro h
    have h2 : (geom mul64 n * y) % 2 ^ 64 = 0 := Nat.mod_eq_zero_of_dvd (Nat.dvd_mul_right_of_dvd h y)
    omega

/-- C64: within 2^64 numbers no state repeats, so from every seed every state is reached. -/
theorem C64_every_state_reached (r r' : Rand) : ∃ n < 2 ^ 64, after64 n r = r' := by
  have lem : ∀ x y, x ≤ y → y < 2 ^ 64 → after64 x r = after64 y r → x = y := by
    intro x y hxy hy h
    rw [show y = x + (y - x) by omega, after64_add] at h
    have := (C64_full_period (after64 x r) (y - x)).mp h.symm
    have := Nat.eq_zero_of_dvd_of_lt this (by omega)
    omega
  let f : Fin (2 ^ 64) → Fin (2 ^ 64) := fun i => ⟨(after64 i.val r).state.toNat, (after64 i.val r).state.toNat_lt⟩
  have inj : Function.Injective f := by
    intro i j h
    have h' : after64 i.val r = after64 j.val r := rand_ext (congrArg Fin.val h)
    rcases Nat.le_total i.val j.val with hij | hij
    · exact Fin.ext (lem _ _ hij j.isLt h')
    · exact Fin.ext (lem _ _ hij i.isLt h'.symm).symm
  obtain ⟨i, hi⟩ := Finite.injective_iff_surjective.mp inj ⟨r'.state.toNat, r'.state.toNat_lt⟩
  exact ⟨i.val, i.isLt, rand_ext (congrArg Fin.val hi)⟩

/-- The first number from seed 1. -/
example : (Rand.nextU32 ⟨1⟩).2.state = 0xbb2efcecb1ca5056 ∧ (Rand.nextU32 ⟨1⟩).1 = 0x2efcecb1 := by decide

end Verif.Thm

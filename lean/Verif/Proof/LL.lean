import Verif.Spec.RegFile
import Verif.Proof.Spi
namespace Verif
open Spec

theorem Sn.toU8_lt (s : Sn) : s.toU8.toNat < 8 := by cases s <;> decide
theorem Sn.block_toNat (s : Sn) : s.block.toNat = 4 * s.toU8.toNat + 1 := by cases s <;> rfl
theorem Sn.txBlock_toNat (s : Sn) : s.txBlock.toNat = 4 * s.toU8.toNat + 2 := by cases s <;> rfl
theorem Sn.rxBlock_toNat (s : Sn) : s.rxBlock.toNat = 4 * s.toU8.toNat + 3 := by cases s <;> rfl

@[simp] theorem memBus_read (a : UInt16) (b : UInt8) (n : Nat) (m : Mem) :
    memBus.read a b n m
      = (.ok (Vector.ofFn fun i : Fin n => m b.toNat ((a.toNat + i.val) % 65536)), m) := rfl
@[simp] theorem memBus_write (a : UInt16) (b : UInt8) (bs : Bytes) (m : Mem) :
    memBus.write a b bs m = (.ok (), m.write b.toNat a.toNat bs) := rfl

theorem encU16_eq (v : UInt16) : encU16 v = toBe16 v := by
  simp only [encU16, toBe16, List.cons.injEq, and_true]
  constructor
  · apply UInt8.toNat_inj.mp; rw [hi_toNat, UInt8.toNat_ofNat']
    have := v.toNat_lt; omega
  · apply UInt8.toNat_inj.mp; rw [lo_toNat, UInt8.toNat_ofNat']; omega

theorem Spec.Mem.write_get (m : Mem) (b a : Nat) (xs : Bytes) (hx : a + xs.length ≤ 65536)
    (b' a' : Nat) :
    m.write b a xs b' a' =
      if h : b' = b ∧ a ≤ a' ∧ a' < a + xs.length then xs[a' - a]'(by omega) else m b' a' := by
  induction xs generalizing m a with
  | nil =>
    rw [dif_neg (by simp)]; rfl
  | cons x xs ih =>
    simp only [List.length_cons] at hx
    rw [Mem.write, ih _ _ (by omega), Nat.mod_eq_of_lt (by omega)]
    by_cases h1 : b' = b ∧ a + 1 ≤ a' ∧ a' < a + 1 + xs.length
    · rw [dif_pos h1, dif_pos (by simp; omega)]
      rw [List.getElem_cons, dif_neg (by omega)]
      congr 1
    · rw [dif_neg h1, Mem.store]
      by_cases h2 : b' = b ∧ a' = a
      · rw [if_pos h2, dif_pos (by simp; omega)]
        simp [h2.2]
      · rw [if_neg h2, dif_neg (by simp only [List.length_cons]; omega)]

theorem Spec.Mem.read_write_same (m : Mem) (b a : Nat) (xs : Bytes) (hx : a + xs.length ≤ 65536) :
    (m.write b a xs).read b a xs.length = xs := by
  apply List.ext_getElem
  · simp [Mem.read]
  · intro i h1 h2
    simp only [Mem.read, List.getElem_map, List.getElem_range]
    rw [Mem.write_get _ _ _ _ hx, dif_pos (by omega)]
    congr 1; omega

end Verif

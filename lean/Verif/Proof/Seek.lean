import Verif.Model.Hl.Tcp
import Verif.Spec.Cursor
import Verif.Proof.Basic
namespace Verif
open Hl Spec

theorem u16_sub_toNat (a b : UInt16) : (a - b).toNat = (a.toNat + 65536 - b.toNat) % 65536 := by
  rw [UInt16.toNat_sub]; have := b.toNat_lt; omega

theorem u16_lt (a : UInt16) : a.toNat < 65536 := a.toNat_lt

theorem i16_bounds (x : Int16) : -32768 ≤ x.toInt ∧ x.toInt < 32768 :=
  ⟨x.le_toInt, x.toInt_lt⟩

theorem i16_toUInt16_toNat (x : Int16) : (x.toUInt16.toNat : Int) = x.toInt % 65536 := by
  show ((x.toBitVec.toNat : Nat) : Int) = x.toBitVec.toInt % 65536
  rw [BitVec.toInt_eq_toNat_cond]
  have := x.toBitVec.isLt
  split <;> omega

theorem unsignedAbs_toNat (x : Int16) : (unsignedAbs x).toNat = x.toInt.natAbs := by
  have := i16_bounds x
  rw [unsignedAbs, UInt16.toNat_ofNat']
  omega

theorem min16_toNat (a b : UInt16) : (min16 a b).toNat = min a.toNat b.toNat := by
  unfold min16
  by_cases h : a ≤ b
  · rw [if_pos h]; rw [UInt16.le_iff_toNat_le] at h; omega
  · rw [if_neg h]; rw [UInt16.le_iff_toNat_le] at h; omega

theorem lenU16_toNat (n : Nat) : (lenU16 n).toNat = min n 65535 := by
  unfold lenU16
  split
  · rw [UInt16.toNat_ofNat']; omega
  · show 65535 = _; omega

theorem u16_ext {a b : UInt16} (h : a.toNat = b.toNat) : a = b := UInt16.toNat_inj.mp h

/-- `new_ptr` in terms of offsets. -/
theorem newPtr_spec (pos : SeekFrom) (ptr head tail : UInt16)
    (hp : (ptr - head).toNat ≤ (tail - head).toNat) :
    let len := (tail - head).toNat
    let t := seekTarget len (ptr - head).toNat pos
    (0 ≤ t ∧ t ≤ len → ∃ p, pos.newPtr ptr head tail = some p ∧ ((p - head).toNat : Int) = t) ∧
    (¬ (0 ≤ t ∧ t ≤ len) → pos.newPtr ptr head tail = none) := by
  simp only [u16_sub_toNat] at hp ⊢
  have h1 := u16_lt ptr; have h2 := u16_lt head; have h3 := u16_lt tail
  cases pos with
  | start o =>
    have h4 := u16_lt o
    simp only [seekTarget, SeekFrom.newPtr]
    constructor
    · intro ⟨_, h⟩
      rw [if_neg (by rw [gt_iff_lt, UInt16.lt_iff_toNat_lt, u16_sub_toNat]; omega)]
      refine ⟨_, rfl, ?_⟩
      rw [UInt16.toNat_add]; omega
    · intro h
      rw [if_pos (by rw [gt_iff_lt, UInt16.lt_iff_toNat_lt, u16_sub_toNat]; omega)]
  | «end» o =>
    have h4 := i16_bounds o
    have h5 := i16_toUInt16_toNat o
    simp only [seekTarget, SeekFrom.newPtr]
    constructor
    · intro ⟨ha, h⟩
      rw [if_neg (by
        rw [gt_iff_lt, gt_iff_lt, UInt16.lt_iff_toNat_lt, u16_sub_toNat, unsignedAbs_toNat, Int16.lt_iff_toInt_lt,
          show (0 : Int16).toInt = 0 from rfl]; omega)]
      refine ⟨_, rfl, ?_⟩
      rw [UInt16.toNat_add]; omega
    · intro h
      rw [if_pos (by
        rw [gt_iff_lt, gt_iff_lt, UInt16.lt_iff_toNat_lt, u16_sub_toNat, unsignedAbs_toNat, Int16.lt_iff_toInt_lt,
          show (0 : Int16).toInt = 0 from rfl]; omega)]
  | current o =>
    have h4 := i16_bounds o
    have h5 := i16_toUInt16_toNat o
    simp only [seekTarget, SeekFrom.newPtr]
    constructor
    · intro ⟨ha, h⟩
      rw [if_neg (by
        rw [gt_iff_lt, gt_iff_lt, gt_iff_lt, UInt16.lt_iff_toNat_lt, UInt16.lt_iff_toNat_lt, u16_sub_toNat, u16_sub_toNat,
          unsignedAbs_toNat, Int16.lt_iff_toInt_lt, Int16.lt_iff_toInt_lt,
          show (0 : Int16).toInt = 0 from rfl]; omega)]
      refine ⟨_, rfl, ?_⟩
      rw [UInt16.toNat_add]; omega
    · intro h
      rw [if_pos (by
        rw [gt_iff_lt, gt_iff_lt, gt_iff_lt, UInt16.lt_iff_toNat_lt, UInt16.lt_iff_toNat_lt, u16_sub_toNat, u16_sub_toNat,
          unsignedAbs_toNat, Int16.lt_iff_toInt_lt, Int16.lt_iff_toInt_lt,
          show (0 : Int16).toInt = 0 from rfl]; omega)]

end Verif

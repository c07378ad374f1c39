import Verif.Proof.TlsReader
import Verif.Model.Tls.ServerHello
import Verif.Spec.ServerHello
/-!
# Steps of the parsers of handshake messages
-/
namespace Verif.Tls
open Verif Hl

theorem ok_bind_iff {α β ε : Type} {m : Except ε α} {f : α → Except ε β} {b : β} :
    (m >>= f) = .ok b ↔ ∃ a, m = .ok a ∧ f a = .ok b := by
  cases m with
  | error e => simp [bind, Except.bind]
  | ok a => simp [bind, Except.bind]

theorem ite_fail_iff {α : Type} {c : Prop} [Decidable c] {e : AlertDescription} {m : Res α} {b : α} :
    (if c then fail e else m) = .ok b ↔ ¬ c ∧ m = .ok b := by
  by_cases h : c <;> simp [h, fail]

/-- `r` after `n` bytes. -/
def CircleReader.adv (r : CircleReader) (n : Nat) : CircleReader := { r with ptr := r.ptr + UInt16.ofNat n }

theorem prefix_length {x l : Bytes} {p : Nat} (h : x <+: l.drop p) (hp : p ≤ l.length) : p + x.length ≤ l.length := by
  have := h.length_le; rw [List.length_drop] at this; omega

theorem CRel.adv {r : CircleReader} {d : Bytes} {p : Nat} (h : CRel r d p) {x : Bytes} (hx : x <+: d.drop p) :
    CRel (r.adv x.length) d (p + x.length) := CRel.add h _ (prefix_length hx h.pos)

/-- Reading one thing after the other is reading both. -/
theorem prefix_append_iff {x y d : Bytes} {p : Nat} : x ++ y <+: d.drop p ↔ x <+: d.drop p ∧ y <+: d.drop (p + x.length) := by
  constructor
  · rintro ⟨t, ht⟩
    refine ⟨⟨y ++ t, by rw [← ht]; simp⟩, t, ?_⟩
    rw [← List.drop_drop, ← ht]; simp
  · rintro ⟨⟨t, ht⟩, u, hu⟩
    refine ⟨u, ?_⟩
    rw [← List.drop_drop, ← ht, List.drop_left] at hu
    rw [← ht, List.append_assoc, hu]

theorem CRel.readExact_iff {r : CircleReader} {d : Bytes} {p n : Nat} (h : CRel r d p) {x : Bytes × CircleReader} :
    r.readExact n = .ok x ↔ x.1.length = n ∧ x.1 <+: d.drop p ∧ x.2 = r.adv n := by
  obtain ⟨x1, x2⟩ := x
  by_cases hn : n ≤ d.length - p
  · rw [h.readExact_ok hn]
    simp only [Except.ok.injEq, Prod.mk.injEq]
    constructor
    · rintro ⟨rfl, rfl⟩
      exact ⟨by simp; omega, List.take_prefix _ _, rfl⟩
    · rintro ⟨h1, h2, rfl⟩
      exact ⟨by rw [← h1]; exact (List.prefix_iff_eq_take.1 h2).symm, rfl⟩
  · rw [h.readExact_none hn]
    simp only [reduceCtorEq, false_iff, not_and]
    intro h1 h2
    have := h2.length_le
    rw [List.length_drop] at this; omega

theorem CRel.u8_iff {r : CircleReader} {d : Bytes} {p : Nat} (h : CRel r d p) {x : UInt8 × CircleReader} :
    r.nextU8 = .ok x ↔ [x.1] <+: d.drop p ∧ x.2 = r.adv 1 := by
  obtain ⟨x1, x2⟩ := x
  simp only [CircleReader.nextU8, ok_bind_iff, h.readExact_iff, Except.ok.injEq, Prod.mk.injEq]
  constructor
  · rintro ⟨⟨a, r'⟩, ⟨h1, h2, rfl⟩, h3, rfl⟩
    match a, h1 with
    | [y], _ => simp only [List.getD_cons_zero] at h3; subst h3; exact ⟨h2, rfl⟩
  · rintro ⟨h1, rfl⟩
    exact ⟨([x1], _), ⟨rfl, h1, rfl⟩, rfl, rfl⟩

theorem CRel.u16_iff {r : CircleReader} {d : Bytes} {p : Nat} (h : CRel r d p) {x : UInt16 × CircleReader} :
    r.nextU16 = .ok x ↔ toBe16 x.1 <+: d.drop p ∧ x.2 = r.adv 2 := by
  obtain ⟨x1, x2⟩ := x
  simp only [CircleReader.nextU16, ok_bind_iff, h.readExact_iff, Except.ok.injEq, Prod.mk.injEq]
  constructor
  · rintro ⟨⟨a, r'⟩, ⟨h1, h2, rfl⟩, h3, rfl⟩
    match a, h1 with
    | [y, z], _ =>
      simp only [List.getD_cons_zero, List.getD_cons_succ] at h3; subst h3
      rw [toBe16_be16]; exact ⟨h2, rfl⟩
  · rintro ⟨h1, rfl⟩
    exact ⟨(toBe16 x1, _), ⟨rfl, h1, rfl⟩, be16_toBe16 x1, rfl⟩

theorem CRel.skip_iff {r : CircleReader} {d : Bytes} {p : Nat} (h : CRel r d p) {n : UInt16} {r' : CircleReader} :
    r.skipN n = .ok r' ↔ p + n.toNat ≤ d.length ∧ r' = r.adv n.toNat := by
  have hl := h.len
  have hp := h.ptr
  have hs := h.small
  unfold CircleReader.skipN
  have e : r.adv n.toNat = { r with ptr := r.ptr + n } := by rw [CircleReader.adv, UInt16.ofNat_toNat]
  rw [e]
  by_cases c : p + n.toNat ≤ d.length
  · rw [if_pos ⟨by omega, by rw [UInt16.le_iff_toNat_le, UInt16.toNat_add]; omega⟩]
    simp [c, eq_comm]
  · rw [if_neg]
    · simp [c]
    · rintro ⟨c1, c2⟩
      rw [UInt16.le_iff_toNat_le, UInt16.toNat_add] at c2; omega

theorem u16_bytes (v : UInt16) : Spec.Tls.u16 v.toNat = toBe16 v := by
  unfold Spec.Tls.u16 toBe16
  congr 1
  · apply UInt8.toNat_inj.1
    have := v.toNat_lt
    simp [Nat.shiftRight_eq_div_pow]

theorem toBe16_length (v : UInt16) : (toBe16 v).length = 2 := rfl

theorem u16_length (n : Nat) : (Spec.Tls.u16 n).length = 2 := rfl

theorem adv_sub {r : CircleReader} {n : Nat} (h : n < 65536) : ((r.adv n).ptr - r.ptr).toNat = n := by
  have := r.ptr.toNat_lt
  rw [u16_sub_toNat, CircleReader.adv, UInt16.toNat_add, UInt16.toNat_ofNat']; omega

end Verif.Tls

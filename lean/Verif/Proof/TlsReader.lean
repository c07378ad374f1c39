import Verif.Proof.TlsBuffer
import Verif.Proof.Seek
import Verif.Model.Hl.Prog
/-!
# The reader of TLS application data is a cursor
-/
namespace Verif.Tls
open Verif Hl Spec

/-- A circle reader shows the bytes `d` and is at position `p`. -/
structure CRel (r : CircleReader) (d : Bytes) (p : Nat) : Prop where
  data : r.a ++ r.b = d
  ptr : r.ptr.toNat = p
  pos : p ≤ d.length
  small : d.length ≤ 32767

theorem CRel.length {r : CircleReader} {d : Bytes} {p : Nat} (h : CRel r d p) : r.a.length + r.b.length = d.length := by
  rw [← h.data]; simp

theorem CRel.len {r : CircleReader} {d : Bytes} {p : Nat} (h : CRel r d p) : r.len.toNat = d.length := by
  have h1 := h.length
  have h2 := h.small
  rw [CircleReader.len, UInt16.toNat_ofNat', h1]; omega

theorem CRel.slices {r : CircleReader} {d : Bytes} {p : Nat} (h : CRel r d p) :
    ∃ s, r.asSlices = .ok s ∧ s.1 ++ s.2 = d.drop p ∧ s.1.length + s.2.length = d.length - p := by
  have hlen := h.length
  obtain ⟨hd, hp, hl, hs⟩ := h
  unfold CircleReader.asSlices
  rw [hp]
  by_cases c : r.a.length ≤ p
  · rw [if_pos c, if_pos (by omega)]
    refine ⟨_, rfl, ?_, ?_⟩
    · rw [← hd, List.drop_append, List.drop_eq_nil_of_le c]; simp
    · simp; omega
  · rw [if_neg c]
    refine ⟨_, rfl, ?_, ?_⟩
    · rw [← hd, List.drop_append_of_le_length (by omega)]
    · simp; omega

theorem CRel.move {r : CircleReader} {d : Bytes} {p : Nat} (h : CRel r d p) (v : UInt16) (n : Nat)
    (hn : n ≤ d.length) (hv : v.toNat = n) : CRel { r with ptr := v } d n := ⟨h.data, hv, hn, h.small⟩

theorem CRel.add {r : CircleReader} {d : Bytes} {p : Nat} (h : CRel r d p) (n : Nat) (hn : p + n ≤ d.length) :
    CRel { r with ptr := r.ptr + UInt16.ofNat n } d (p + n) := by
  have := h.small
  refine h.move _ _ hn ?_
  rw [UInt16.toNat_add, h.ptr, UInt16.toNat_ofNat']; omega

theorem CRel.readExact_ok {r : CircleReader} {d : Bytes} {p n : Nat} (h : CRel r d p) (hn : n ≤ d.length - p) :
    r.readExact n = .ok ((d.drop p).take n, { r with ptr := r.ptr + UInt16.ofNat n }) := by
  obtain ⟨s, hs, hd, hl⟩ := h.slices
  unfold CircleReader.readExact CircleReader.asSlicesOfN
  rw [hs]
  simp only [bind, Except.bind]
  rw [if_neg (by omega)]
  by_cases c : n ≤ s.1.length
  · rw [if_pos c, ← hd, List.take_append_of_le_length c]; simp
  · rw [if_neg c, ← hd, List.take_append, List.take_of_length_le (l := s.1) (by omega)]

theorem CRel.readExact_none {r : CircleReader} {d : Bytes} {p n : Nat} (h : CRel r d p) (hn : ¬ n ≤ d.length - p) :
    r.readExact n = .error (.err .decodeError) := by
  obtain ⟨s, hs, hd, hl⟩ := h.slices
  unfold CircleReader.readExact CircleReader.asSlicesOfN
  rw [hs]
  simp only [bind, Except.bind]
  rw [if_pos (by omega)]

theorem CRel.read {r : CircleReader} {d : Bytes} {p : Nat} (h : CRel r d p) (n : Nat) :
    r.read n = .ok ((d.drop p).take n, { r with ptr := r.ptr + UInt16.ofNat ((d.drop p).take n).length }) := by
  obtain ⟨s, hs, hd, hl⟩ := h.slices
  unfold CircleReader.read
  rw [hs]
  simp only [bind, Except.bind]
  have e : s.1.take (min s.1.length n) ++ s.2.take (min s.2.length (n - s.1.length)) = (d.drop p).take n := by
    rw [← hd, List.take_append, Nat.min_comm, ← List.take_take, List.take_length, Nat.min_comm, ← List.take_take,
      List.take_length]
  have el : ((d.drop p).take n).length = min s.1.length n + min s.2.length (n - s.1.length) := by
    rw [← e]; simp
  rw [e, el]

/-- A reader of application data and the cursor that it is. -/
def TRel (r : TlsReader) (c : Cursor) : Prop := CRel r.inner c.data c.pos

theorem TRel.seek {r : TlsReader} {c : Cursor} (h : TRel r c) (pos : SeekFrom) :
    let t := seekTarget c.data.length c.pos pos
    (0 ≤ t ∧ t ≤ c.data.length → ∃ v, r.seek pos = .ok { r with inner := { r.inner with ptr := v } } ∧ (v.toNat : Int) = t) ∧
    (¬ (0 ≤ t ∧ t ≤ c.data.length) → r.seek pos = .error .unexpectedEof) := by
  have hl := CRel.len h
  have hp := h.ptr
  have hpos := h.pos
  have hs := h.small
  cases pos with
  | start k =>
    simp only [seekTarget, TlsReader.seek, gt_iff_lt, UInt16.lt_iff_toNat_lt, hl]
    constructor
    · intro ht; rw [if_neg (by omega)]; exact ⟨k, rfl, rfl⟩
    · intro ht; rw [if_pos (by omega)]
  | «end» k =>
    have hb := i16_bounds k
    simp only [seekTarget, TlsReader.seek, gt_iff_lt, UInt16.lt_iff_toNat_lt, hl, unsignedAbs_toNat, Int16.lt_iff_toInt_lt,
      show (0 : Int16).toInt = 0 from rfl]
    constructor
    · intro ht; rw [if_neg (by omega), if_neg (by omega)]
      refine ⟨_, rfl, ?_⟩
      rw [u16_sub_toNat, hl, unsignedAbs_toNat]; omega
    · intro ht
      by_cases c1 : 0 < k.toInt
      · rw [if_pos c1]
      · rw [if_neg c1, if_pos (by omega)]
  | current k =>
    have hb := i16_bounds k
    have hu := i16_toUInt16_toNat k
    have e1 : clampI16 (if r.inner.ptr ≤ r.inner.len then r.inner.len - r.inner.ptr else 0) = ((c.data.length - c.pos : Nat) : Int) := by
      rw [if_pos (by rw [UInt16.le_iff_toNat_le]; omega), clampI16, u16_sub_toNat, hl, hp]; omega
    have e2 : clampI16 r.inner.ptr = (c.pos : Int) := by rw [clampI16, hp]; omega
    simp only [seekTarget, TlsReader.seek, e1, e2]
    constructor
    · intro ht; rw [if_neg (by omega)]
      refine ⟨_, rfl, ?_⟩
      rw [UInt16.toNat_add, hp]; omega
    · intro ht; rw [if_pos (by omega)]

/-- Running any program on the reader gives what it gives on the cursor. -/
theorem tlsReader_sim {α : Type} (dbg : Bool) (prog : RProg α) : ∀ {r : TlsReader} {c : Cursor}, TRel r c →
    let x := prog.run (TlsReader.ops dbg) r
    let y := prog.run cursorOps c
    x.1 = y.1 ∧ TRel x.2 y.2 ∧ x.2.head = r.head ∧ x.2.wrap = r.wrap ∧ y.2.data = c.data := by
  induction prog with
  | ret r => intro s c h; exact ⟨rfl, h, rfl, rfl, rfl⟩
  | read n k ih =>
    intro r c h
    have e1 : (TlsReader.ops dbg).read n r = (.ok ((c.data.drop c.pos).take n),
        { r with inner := { r.inner with ptr := r.inner.ptr + UInt16.ofNat ((c.data.drop c.pos).take n).length } }) := by
      simp only [TlsReader.ops, CRel.read h n]
    have e2 : cursorOps.read n c = (.ok ((c.data.drop c.pos).take n),
        { c with pos := c.pos + ((c.data.drop c.pos).take n).length }) := rfl
    have := h.pos
    simp only [RProg.run]
    rw [e1, e2]
    exact ih _ (CRel.add h _ (by simp; omega))
  | readExact n k ih =>
    intro r c h
    have hpos := h.pos
    by_cases hn : n ≤ c.data.length - c.pos
    · have e1 : (TlsReader.ops dbg).readExact n r = (.ok ((c.data.drop c.pos).take n),
          { r with inner := { r.inner with ptr := r.inner.ptr + UInt16.ofNat n } }) := by
        simp only [TlsReader.ops, CRel.readExact_ok h hn]
      have e2 : cursorOps.readExact n c = (.ok ((c.data.drop c.pos).take n), { c with pos := c.pos + n }) := if_pos hn
      simp only [RProg.run]
      rw [e1, e2]
      exact ih _ (CRel.add h _ (by omega))
    · have e1 : (TlsReader.ops dbg).readExact n r = (.error .unexpectedEof, r) := by
        simp only [TlsReader.ops, CRel.readExact_none h hn]
      have e2 : cursorOps.readExact n c = (.error .unexpectedEof, c) := if_neg hn
      simp only [RProg.run]
      rw [e1, e2]
      exact ih _ h
  | seek pos k ih =>
    intro r c h
    obtain ⟨h1, h2⟩ := TRel.seek h pos
    by_cases ht : 0 ≤ seekTarget c.data.length c.pos pos ∧ seekTarget c.data.length c.pos pos ≤ c.data.length
    · obtain ⟨v, e, hv⟩ := h1 ht
      have e1 : (TlsReader.ops dbg).seek pos r = (.ok (), { r with inner := { r.inner with ptr := v } }) := by
        simp only [TlsReader.ops, e]
      have e2 : cursorOps.seek pos c = (.ok (), { c with pos := (seekTarget c.data.length c.pos pos).toNat }) := if_pos ht
      simp only [RProg.run]
      rw [e1, e2]
      exact ih _ (CRel.move h _ _ (by simp only; omega) (by simp only; omega))
    · have e := h2 ht
      have e1 : (TlsReader.ops dbg).seek pos r = (.error .unexpectedEof, r) := by simp only [TlsReader.ops, e]
      have e2 : cursorOps.seek pos c = (.error .unexpectedEof, c) := if_neg ht
      simp only [RProg.run]
      rw [e1, e2]
      exact ih _ h
  | rewind k ih =>
    intro r c h
    simp only [RProg.run]
    exact ih (c := { c with pos := 0 }) (r := r.rewind) (CRel.move h _ _ (Nat.zero_le _) rfl)
  | streamLen k ih =>
    intro r c h
    have : r.inner.len = UInt16.ofNat c.data.length := by rw [← CRel.len h]; exact UInt16.ofNat_toNat.symm
    simp only [RProg.run, RProg.withVal, TlsReader.ops, cursorOps]
    rw [this]; exact ih _ h
  | streamPosition k ih =>
    intro r c h
    have : r.inner.ptr = UInt16.ofNat c.pos := by rw [← h.ptr]; exact UInt16.ofNat_toNat.symm
    simp only [RProg.run, RProg.withVal, TlsReader.ops, cursorOps]
    rw [this]; exact ih _ h
  | remain k ih =>
    intro r c h
    have hl := CRel.len h
    have hp := h.ptr
    have hpos := h.pos
    have hs := h.small
    have e : r.inner.len - r.inner.ptr = UInt16.ofNat (c.data.length - c.pos) := by
      apply u16_ext; rw [u16_sub_toNat, hl, hp, UInt16.toNat_ofNat']; omega
    have e1 : (TlsReader.ops dbg).remain r = (.ok (UInt16.ofNat (c.data.length - c.pos)), r) := by
      simp only [TlsReader.ops]
      rw [if_neg (by rw [UInt16.lt_iff_toNat_lt]; omega), e]
    simp only [RProg.run, RProg.withVal]
    rw [e1]; exact ih _ h

end Verif.Tls

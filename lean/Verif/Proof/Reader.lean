import Verif.Proof.TcpRx
import Verif.Spec.Stream
import Verif.Spec.Cursor
namespace Verif
open Hl Spec

theorem Spec.RxState.length {c : Chip} {k p : Nat} (h : RxState c k p) : c.rxRsr k = (c.received k).length - p := by
  have := congrArg List.length h.data
  rw [Chip.unread, Mem.ringRead_length, List.length_drop] at this
  exact this

theorem Spec.RxState.at {c : Chip} {k p : Nat} (h : RxState c k p) : ∃ base, RxAt c k base p := by
  have hl := h.length
  have hle := h.le
  have hlt := h.size_lt
  have hrs := h.rsr_le
  refine ⟨c.rxRd k + 65536 * p - p, ?_, ?_⟩
  · constructor
    · exact h.size_dvd
    · exact h.size_lt
    · exact h.le
    · omega
    · exact hl
    · rw [h.wr, hl]; omega
    · intro i h1 h2
      have e : ((c.received k).drop p)[i - p]? = (c.received k)[i]? := by
        rw [List.getElem?_drop]; congr 1; omega
      rw [← h.data, Chip.unread, Mem.ringRead, List.getElem?_map, List.getElem?_range (by omega)] at e
      simp only [Option.map_some] at e
      rw [List.getElem?_eq_getElem h1] at e
      injection e with e
      rw [← e]
      congr 1
      have : c.rxRd k + 65536 * p - p + i = (c.rxRd k + (i - p)) + 65536 * p := by omega
      rw [this]
      obtain ⟨d, hd⟩ := Nat.dvd_of_mod_eq_zero h.size_dvd
      rw [hd, Nat.mul_assoc, Nat.add_mul_mod_self_left]
  · have : c.rxRd k < 65536 := Mem.word_lt _ _ _
    omega

theorem RxAt.state {c : Chip} {k base p : Nat} (h : RxAt c k base p) : RxState c k p := by
  obtain ⟨hr, hd⟩ := h
  have hle := hr.le
  have hlt := hr.size_lt
  have hrs := hr.fits
  have hrsr := hr.rsr
  constructor
  · exact hr.dvd
  · exact hr.size_lt
  · omega
  · rw [hr.wr, hd, hrsr]; omega
  · exact hr.le
  · unfold Chip.unread
    rw [hd, Mem.ringRead_mod _ _ _ _ _ _ hr.dvd, hr.ringRead p _ (Nat.le_refl _) (by omega), hrsr,
      List.take_of_length_le (by rw [List.length_drop]; exact Nat.le_refl _)]

/-- A reader positioned in a stream of received bytes and the cursor it is equivalent to. -/
structure RdRel (s : World × Ptrs) (c : Cursor) (base p q : Nat) : Prop where
  rx : RxAt s.1.chip s.2.sn.idx base p
  pq : p ≤ q
  len : q + c.data.length ≤ (s.1.chip.received s.2.sn.idx).length
  data : c.data = ((s.1.chip.received s.2.sn.idx).drop q).take c.data.length
  pos : c.pos ≤ c.data.length
  head : s.2.head.toNat = (base + q) % 65536
  tail : s.2.tail.toNat = (base + q + c.data.length) % 65536
  ptr : s.2.ptr.toNat = (base + q + c.pos) % 65536

theorem dvd_le_half {s : Nat} (h : 65536 % s = 0) (hs : s < 65536) : s ≤ 32768 := by
  obtain ⟨d, hd⟩ := Nat.dvd_of_mod_eq_zero h
  match d with
  | 0 => omega
  | 1 => omega
  | d + 2 => rw [Nat.mul_add] at hd; omega

theorem RdRel.small {s c base p q} (h : RdRel s c base p q) : c.data.length ≤ 32768 := by
  have := dvd_le_half h.rx.rx.dvd h.rx.rx.size_lt
  have := h.rx.rx.fits; have := h.rx.rx.size_lt; have := h.len; have := h.pq; omega

theorem RdRel.tick {w : World} {r : Ptrs} {c base p q} (h : RdRel (w, r) c base p q) : RdRel (w.tick, r) c base p q := by
  have pre := tick_received_prefix w r.sn.idx
  have := pre.length_le
  have hl := h.len
  simp only at hl
  refine ⟨h.rx.tick, h.pq, by simp only; omega, ?_, h.pos, h.head, h.tail, h.ptr⟩
  rw [← take_drop_prefix pre q _ hl]; exact h.data

theorem RdRel.remain {s c base p q} (h : RdRel s c base p q) : s.2.remain.toNat = c.data.length - c.pos := by
  have := h.small; have := h.pos
  unfold Ptrs.remain
  rw [u16_sub_toNat, h.tail, h.ptr]; omega
theorem RdRel.streamLen {s c base p q} (h : RdRel s c base p q) : s.2.streamLen.toNat = c.data.length := by
  have := h.small
  unfold Ptrs.streamLen
  rw [u16_sub_toNat, h.tail, h.head]; omega
theorem RdRel.streamPosition {s c base p q} (h : RdRel s c base p q) : s.2.streamPosition.toNat = c.pos := by
  have := h.small; have := h.pos
  unfold Ptrs.streamPosition
  rw [u16_sub_toNat, h.ptr, h.head]; omega

/-- moving the position -/
theorem RdRel.move {w : World} {r : Ptrs} {c base p q} (h : RdRel (w, r) c base p q) (v : UInt16) (n : Nat)
    (hn : n ≤ c.data.length) (hv : v.toNat = (base + q + n) % 65536) :
    RdRel (w, { r with ptr := v }) { c with pos := n } base p q :=
  ⟨h.rx, h.pq, h.len, h.data, hn, h.head, h.tail, hv⟩

/-- reading `n` bytes at the position -/
theorem RdRel.buf {w : World} {r : Ptrs} {c base p q} (h : RdRel (w, r) c base p q) (n : Nat)
    (hn : c.pos + n ≤ c.data.length) :
    worldBus.snRxBuf r.sn r.ptr n w = (.ok ((c.data.drop c.pos).take n), w.tick) := by
  have hl := h.len
  simp only at hl
  have hpq := h.pq
  rw [h.rx.rx.run_rxBuf r.ptr (q + c.pos) n (by rw [h.ptr, Nat.add_assoc]) (by omega) (by simp only; omega)]
  congr 2
  have hd := h.data
  simp only at hd
  rw [hd, List.drop_take, List.drop_drop, List.take_take]
  congr 1
  omega

theorem read_sim {w : World} {r : Ptrs} {c base p q} (h : RdRel (w, r) c base p q) (n : Nat) :
    ((tcpReaderOps worldBus).read n (w, r)).1 = (cursorOps.read n c).1 ∧
    RdRel ((tcpReaderOps worldBus).read n (w, r)).2 (cursorOps.read n c).2 base p q := by
  have hsm := h.small; have hpos := h.pos
  have hm : (min16 r.remain (lenU16 n)).toNat = min (c.data.length - c.pos) n := by
    rw [min16_toNat, h.remain, lenU16_toNat]; omega
  have hx : (c.data.drop c.pos).take n = (c.data.drop c.pos).take (min (c.data.length - c.pos) n) := by
    rw [Nat.min_comm, ← List.take_take, List.take_of_length_le (l := c.data.drop c.pos) (i := c.data.length - c.pos)]
    rw [List.length_drop]; exact Nat.le_refl _
  have hxl : ((c.data.drop c.pos).take n).length = min (c.data.length - c.pos) n := by
    rw [List.length_take, List.length_drop]; omega
  have hspec : cursorOps.read n c = (.ok ((c.data.drop c.pos).take n), { c with pos := c.pos + min (c.data.length - c.pos) n }) := by
    rw [← hxl]; rfl
  rw [hspec]
  by_cases hz : min16 r.remain (lenU16 n) = 0
  · have e : (tcpReaderOps worldBus).read n (w, r) = (.ok [], (w, r)) := by
      have : tcpReaderRead worldBus r n w = (.ok (0, [], r), w) := by
        unfold tcpReaderRead
        show (if min16 r.remain (lenU16 n) ≠ 0 then _ else _ : M World _) w = _
        rw [if_neg (by simp [hz])]; rfl
      simp only [tcpReaderOps, this]
    have hz0 : min (c.data.length - c.pos) n = 0 := by rw [← hm, hz]; rfl
    rw [e, hx, hz0]
    refine ⟨rfl, ?_⟩
    exact h
  · have e : (tcpReaderOps worldBus).read n (w, r) = (.ok ((c.data.drop c.pos).take n),
        (w.tick, { r with ptr := r.ptr + min16 r.remain (lenU16 n) })) := by
      have : tcpReaderRead worldBus r n w = (.ok (min16 r.remain (lenU16 n), (c.data.drop c.pos).take n,
          { r with ptr := r.ptr + min16 r.remain (lenU16 n) }), w.tick) := by
        unfold tcpReaderRead
        show (if min16 r.remain (lenU16 n) ≠ 0 then _ else _ : M World _) w = _
        rw [if_pos (by simpa using hz), M.bind_ok (h.buf _ (by rw [hm]; omega)), hm, ← hx]; rfl
      simp only [tcpReaderOps, this]
    rw [e]
    refine ⟨rfl, h.tick.move _ _ (by omega) ?_⟩
    have hp := h.ptr
    simp only at hp
    rw [UInt16.toNat_add, hp, hm]; omega

theorem readExact_sim {w : World} {r : Ptrs} {c base p q} (h : RdRel (w, r) c base p q) (n : Nat)  :
    ((tcpReaderOps worldBus).readExact n (w, r)).1 = (cursorOps.readExact n c).1 ∧
    RdRel ((tcpReaderOps worldBus).readExact n (w, r)).2 (cursorOps.readExact n c).2 base p q := by
  have hsm := h.small; have hpos := h.pos
  have hm : (min16 r.remain (lenU16 n)).toNat = min (c.data.length - c.pos) (min n 65535) := by
    rw [min16_toNat, h.remain, lenU16_toNat]
  by_cases hn : n ≤ c.data.length - c.pos
  · have hspec : cursorOps.readExact n c = (.ok ((c.data.drop c.pos).take n), { c with pos := c.pos + n }) := if_pos hn
    rw [hspec]
    have hm' : (min16 r.remain (lenU16 n)).toNat = n := by omega
    have hz : min16 r.remain (lenU16 n) = lenU16 n := u16_ext (by rw [hm', lenU16_toNat]; omega)
    have e : (tcpReaderOps worldBus).readExact n (w, r) = (.ok ((c.data.drop c.pos).take n),
        (w.tick, { r with ptr := r.ptr + min16 r.remain (lenU16 n) })) := by
      have : tcpReaderReadExact worldBus r n w = (.ok ((c.data.drop c.pos).take n,
          { r with ptr := r.ptr + min16 r.remain (lenU16 n) }), w.tick) := by
        unfold tcpReaderReadExact
        show (if min16 r.remain (lenU16 n) ≠ lenU16 n then _ else _ : M World _) w = _
        rw [if_neg (by simp [hz]), M.bind_ok (h.buf _ (by omega))]; rfl
      simp only [tcpReaderOps, this]
    rw [e]
    refine ⟨rfl, h.tick.move _ _ (by omega) ?_⟩
    have hp := h.ptr
    simp only at hp
    rw [UInt16.toNat_add, hp, hm']; omega
  · have hspec : cursorOps.readExact n c = (.error .unexpectedEof, c) := if_neg hn
    rw [hspec]
    have e : (tcpReaderOps worldBus).readExact n (w, r) = (.error .unexpectedEof, (w, r)) := by
      have : tcpReaderReadExact worldBus r n w = (.error .unexpectedEof, w) := by
        unfold tcpReaderReadExact
        show (if min16 r.remain (lenU16 n) ≠ lenU16 n then _ else _ : M World _) w = _
        rw [if_pos]; rfl
        intro hz
        have := congrArg UInt16.toNat hz
        rw [hm, lenU16_toNat] at this
        omega
      simp only [tcpReaderOps, this]
    rw [e]; exact ⟨rfl, h⟩

theorem seek_sim {w : World} {r : Ptrs} {c base p q} (h : RdRel (w, r) c base p q) (pos : SeekFrom) :
    ((tcpReaderOps worldBus).seek pos (w, r)).1 = (cursorOps.seek pos c).1 ∧
    RdRel ((tcpReaderOps worldBus).seek pos (w, r)).2 (cursorOps.seek pos c).2 base p q := by
  have hsm := h.small; have hpos := h.pos
  have hp := h.streamPosition
  have hl := h.streamLen
  simp only [Ptrs.streamPosition, Ptrs.streamLen] at hp hl
  obtain ⟨h1, h2⟩ := newPtr_spec pos r.ptr r.head r.tail (by rw [hp, hl]; exact hpos)
  rw [hp, hl] at h1 h2
  by_cases ht : 0 ≤ seekTarget c.data.length c.pos pos ∧ seekTarget c.data.length c.pos pos ≤ c.data.length
  · obtain ⟨v, e, hv⟩ := h1 ht
    have e1 : (tcpReaderOps worldBus).seek pos (w, r) = (.ok (), (w, { r with ptr := v })) := by
      simp only [tcpReaderOps, Ptrs.seek, e]
    have e2 : cursorOps.seek pos c = (.ok (), { c with pos := (seekTarget c.data.length c.pos pos).toNat }) :=
      if_pos ht
    rw [e1, e2]
    refine ⟨rfl, h.move _ _ (by omega) ?_⟩
    have hh := h.head
    simp only at hh
    rw [u16_sub_toNat, hh] at hv
    have := u16_lt v
    omega
  · have e := h2 ht
    have e1 : (tcpReaderOps worldBus).seek pos (w, r) = (.error .unexpectedEof, (w, r)) := by
      simp only [tcpReaderOps, Ptrs.seek, e]
    have e2 : cursorOps.seek pos c = (.error .unexpectedEof, c) := if_neg ht
    rw [e1, e2]
    exact ⟨rfl, h⟩

/-- Running any program on the reader gives what it gives on the cursor. -/
theorem prog_sim {α : Type} (prog : RProg α) : ∀ {s : World × Ptrs} {c base p q}, RdRel s c base p q →
    (prog.run (tcpReaderOps worldBus) s).1 = (prog.run cursorOps c).1 ∧
    RdRel (prog.run (tcpReaderOps worldBus) s).2 (prog.run cursorOps c).2 base p q := by
  induction prog with
  | ret r => intro s c base p q h; exact ⟨rfl, h⟩
  | read n k ih =>
    intro ⟨w, r⟩ c base p q h
    obtain ⟨e, h'⟩ := read_sim h n
    simp only [RProg.run]
    rw [e]; exact ih _ h'
  | readExact n k ih =>
    intro ⟨w, r⟩ c base p q h
    obtain ⟨e, h'⟩ := readExact_sim h n
    simp only [RProg.run]
    rw [e]; exact ih _ h'
  | seek pos k ih =>
    intro ⟨w, r⟩ c base p q h
    obtain ⟨e, h'⟩ := seek_sim h pos
    simp only [RProg.run]
    rw [e]; exact ih _ h'
  | rewind k ih =>
    intro ⟨w, r⟩ c base p q h
    simp only [RProg.run]
    exact ih (h.move r.head 0 (by omega) h.head)
  | streamLen k ih =>
    intro ⟨w, r⟩ c base p q h
    have : r.streamLen = UInt16.ofNat c.data.length := by
      rw [← h.streamLen]; exact UInt16.ofNat_toNat.symm
    simp only [RProg.run, RProg.withVal, tcpReaderOps, cursorOps]
    rw [this]; exact ih _ h
  | streamPosition k ih =>
    intro ⟨w, r⟩ c base p q h
    have : r.streamPosition = UInt16.ofNat c.pos := by
      rw [← h.streamPosition]; exact UInt16.ofNat_toNat.symm
    simp only [RProg.run, RProg.withVal, tcpReaderOps, cursorOps]
    rw [this]; exact ih _ h
  | remain k ih =>
    intro ⟨w, r⟩ c base p q h
    have : r.remain = UInt16.ofNat (c.data.length - c.pos) := by
      rw [← h.remain]; exact UInt16.ofNat_toNat.symm
    simp only [RProg.run, RProg.withVal, tcpReaderOps, cursorOps]
    rw [this]; exact ih _ h

end Verif

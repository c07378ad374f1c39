import Verif.Proof.Reader
namespace Verif
open Hl Spec

theorem tick_fsr_le (w : World) (k : Nat) (hlt : w.chip.txSize k < 65536) (h : w.chip.txFsr k ≤ w.chip.txSize k) :
    w.tick.chip.txFsr k ≤ w.chip.txSize k := by
  unfold World.tick
  cases w.sched with
  | nil => exact h
  | cons es rest =>
    simp only
    revert h hlt
    generalize w.chip = c
    induction es generalizing c with
    | nil => exact fun _ h => h
    | cons e es ih =>
      intro hlt h
      rw [List.foldl_cons]
      have hs : (c.envStep e).txSize k = c.txSize k := by
        unfold Chip.txSize; rw [envStep_frame _ _ _ _ (by omega) (by omega)]
      have hfsr : (c.envStep e).txFsr k ≤ c.txSize k := by
        cases e with
        | arrive j bs =>
          simp only [Chip.envStep]
          split
          · unfold Chip.txFsr
            simp only [Chip.setReg]
            rw [Mem.ringWrite_word _ _ _ _ _ _ _ (by omega), Mem.word_setWord_ne _ _ _ _ _ _ (by omega),
              Mem.word_setWord_ne _ _ _ _ _ _ (by omega)]
            exact h
          · exact h
        | status j s =>
          show (c.mem.store (4 * j + 1) 3 s).word (4 * k + 1) 0x20 ≤ _
          unfold Mem.word Mem.store
          rw [if_neg (by omega), if_neg (by omega)]; exact h
        | free j n =>
          by_cases hj : j = k
          · subst hj
            show (c.setReg j 0x20 _).mem.word _ _ ≤ _
            rw [setReg_word]; omega
          · show (c.mem.setWord (4 * j + 1) 0x20 _).word (4 * k + 1) 0x20 ≤ _
            rw [Mem.word_setWord_ne _ _ _ _ _ _ (by omega)]; exact h
        | raise j s =>
          show (c.mem.store (4 * j + 1) 2 _).word (4 * k + 1) 0x20 ≤ _
          unfold Mem.word Mem.store
          rw [if_neg (by omega), if_neg (by omega)]; exact h
      have := ih (c.envStep e) (by rw [hs]; exact hlt) (by rw [hs]; exact hfsr)
      rw [hs] at this
      exact this

theorem txSize_of_ringWrite (c : Chip) (k s p : Nat) (bs : Bytes) (j : Nat) :
    ({ c with mem := c.mem.ringWrite (4 * k + 2) s p bs } : Chip).txSize j = c.txSize j := by
  unfold Chip.txSize; simp only; rw [Mem.ringWrite_out _ _ _ _ _ _ _ (.inl (by omega))]

/-- Storing `bs` at offset `pos` of a window of the ring. -/
theorem ringRead_ringWrite (m : Mem) (b size a cap pos : Nat) (bs : Bytes) (hcap : cap ≤ size)
    (h : pos + bs.length ≤ cap) :
    (m.ringWrite b size (a + pos) bs).ringRead b size a cap
      = (m.ringRead b size a cap).take pos ++ bs ++ (m.ringRead b size a cap).drop (pos + bs.length) := by
  apply List.ext_getElem
  · simp [Mem.ringRead_length]; omega
  · intro i h1 h2
    rw [Mem.ringRead_length] at h1
    have hl : (m.ringRead b size a cap).length = cap := Mem.ringRead_length _ _ _ _ _
    have hL : ((m.ringWrite b size (a + pos) bs).ringRead b size a cap)[i]'(by rw [Mem.ringRead_length]; exact h1)
        = m.ringWrite b size (a + pos) bs b ((a + i) % size) := by simp [Mem.ringRead]
    rw [hL]
    by_cases c1 : i < pos
    · rw [List.getElem_append_left (by simp [hl]; omega), List.getElem_append_left (by simp [hl]; omega),
        List.getElem_take]
      rw [Mem.ringWrite_out]
      · simp [Mem.ringRead]
      · right; intro j hj e
        have := mod_inj e (by omega) (by omega)
        omega
    · by_cases c2 : i < pos + bs.length
      · rw [List.getElem_append_left (by simp [hl]; omega), List.getElem_append_right (by simp [hl]; omega)]
        have := Mem.ringWrite_in m b size (a + pos) bs (by omega) (i - pos) (by omega)
        rw [show a + pos + (i - pos) = a + i by omega] at this
        rw [this]
        congr 1; simp [hl]; omega
      · rw [List.getElem_append_right (by simp [hl]; omega), List.getElem_drop]
        rw [Mem.ringWrite_out]
        · simp only [Mem.ringRead, List.getElem_map, List.getElem_range]
          congr 2
          simp; omega
        · right; intro j hj e
          have := mod_inj e.symm (by omega) (by omega)
          omega

/-- A writer and the image it is equivalent to; `c0` is the chip when the writer was created. -/
structure WrRel (s : World × Ptrs) (i : Image) (c0 : Chip) (a : Nat) : Prop where
  dvd : 65536 % c0.txSize s.2.sn.idx = 0
  size_lt : c0.txSize s.2.sn.idx < 65536
  cap : i.buf.length ≤ c0.txSize s.2.sn.idx
  pos : i.pos ≤ i.buf.length
  head : s.2.head.toNat = a % 65536
  tail : s.2.tail.toNat = (a + i.buf.length) % 65536
  ptr : s.2.ptr.toNat = (a + i.pos) % 65536
  data : s.1.chip.mem.ringRead (4 * s.2.sn.idx + 2) (c0.txSize s.2.sn.idx) a i.buf.length = i.buf
  out : ∀ x, (∀ j < i.buf.length, x ≠ (a + j) % c0.txSize s.2.sn.idx) →
    s.1.chip.mem (4 * s.2.sn.idx + 2) x = c0.mem (4 * s.2.sn.idx + 2) x
  regs : ∀ b x, b % 4 ≠ 3 → b ≠ 4 * s.2.sn.idx + 2 → (b % 4 = 1 → x ≠ 2 ∧ x ≠ 3 ∧ x ≠ 0x20 ∧ x ≠ 0x21 ∧ x ≠ 0x26 ∧
    x ≠ 0x27 ∧ x ≠ 0x2A ∧ x ≠ 0x2B) → s.1.chip.mem b x = c0.mem b x
  sent : s.1.chip.sent = c0.sent
  fsr : s.1.chip.txFsr s.2.sn.idx ≤ c0.txSize s.2.sn.idx
  rx : ∀ k base p, RxAt c0 k base p → RxAt s.1.chip k base p
  pre : ∀ k, c0.received k <+: s.1.chip.received k

theorem WrRel.small {s i c0 a} (h : WrRel s i c0 a) : i.buf.length ≤ 32768 := by
  have := dvd_le_half h.dvd h.size_lt
  have := h.cap; omega

theorem WrRel.txSize {s i c0 a} (h : WrRel s i c0 a) : s.1.chip.txSize s.2.sn.idx = c0.txSize s.2.sn.idx := by
  unfold Chip.txSize; rw [h.regs _ _ (by omega) (by omega) (by omega)]

theorem ringRead_congr {m m' : Mem} {b size a n : Nat} (h : ∀ x, m b x = m' b x) :
    m.ringRead b size a n = m'.ringRead b size a n := by
  unfold Mem.ringRead
  exact List.map_congr_left fun i _ => h _

theorem WrRel.tick {w : World} {r : Ptrs} {i c0 a} (h : WrRel (w, r) i c0 a) : WrRel (w.tick, r) i c0 a := by
  have fr : ∀ x, w.tick.chip.mem (4 * r.sn.idx + 2) x = w.chip.mem (4 * r.sn.idx + 2) x :=
    fun x => tick_frame _ _ _ (by omega) (by omega)
  refine ⟨h.dvd, h.size_lt, h.cap, h.pos, h.head, h.tail, h.ptr, ?_, ?_, ?_, ?_, ?_, ?_, fun k => (h.pre k).trans (tick_received_prefix w k)⟩
  · exact (ringRead_congr fr).trans h.data
  · intro x hx; exact (fr x).trans (h.out x hx)
  · intro b x h1 h2 h3; exact (tick_frame _ _ _ h1 h3).trans (h.regs b x h1 h2 h3)
  · exact (tick_sent w).trans h.sent
  · have e := h.txSize
    have h1 := h.fsr
    have h2 := h.size_lt
    simp only at e h1 h2
    simp only
    rw [← e]
    exact tick_fsr_le w _ (by rw [e]; exact h2) (by rw [e]; exact h1)
  · intro k base p hk; exact (h.rx k base p hk).tick

theorem WrRel.remain {s i c0 a} (h : WrRel s i c0 a) : s.2.remain.toNat = i.buf.length - i.pos := by
  have := h.small; have := h.pos
  unfold Ptrs.remain
  rw [u16_sub_toNat, h.tail, h.ptr]; omega
theorem WrRel.streamLen {s i c0 a} (h : WrRel s i c0 a) : s.2.streamLen.toNat = i.buf.length := by
  have := h.small
  unfold Ptrs.streamLen
  rw [u16_sub_toNat, h.tail, h.head]; omega
theorem WrRel.streamPosition {s i c0 a} (h : WrRel s i c0 a) : s.2.streamPosition.toNat = i.pos := by
  have := h.small; have := h.pos
  unfold Ptrs.streamPosition
  rw [u16_sub_toNat, h.ptr, h.head]; omega

theorem WrRel.move {w : World} {r : Ptrs} {i c0 a} (h : WrRel (w, r) i c0 a) (v : UInt16) (n : Nat)
    (hn : n ≤ i.buf.length) (hv : v.toNat = (a + n) % 65536) :
    WrRel (w, { r with ptr := v }) { i with pos := n } c0 a :=
  ⟨h.dvd, h.size_lt, h.cap, hn, h.head, h.tail, hv, h.data, h.out, h.regs, h.sent, h.fsr, h.rx, h.pre⟩

theorem ringWrite_rxSame (c : Chip) (j s p : Nat) (bs : Bytes) (k : Nat) :
    RxSame c { c with mem := c.mem.ringWrite (4 * j + 2) s p bs } k := by
  apply RxSame.of_mem
  · intro x _; exact Mem.ringWrite_out _ _ _ _ _ _ _ (.inl (by omega))
  · intro x; exact Mem.ringWrite_out _ _ _ _ _ _ _ (.inl (by omega))
  · rfl

theorem put_length (i : Image) (bs : Bytes) (h : i.pos + bs.length ≤ i.buf.length) :
    (i.put bs).buf.length = i.buf.length := by
  simp [Image.put]; omega

/-- storing bytes at the position -/
theorem WrRel.put {w : World} {r : Ptrs} {i c0 a} (h : WrRel (w, r) i c0 a) (bs : Bytes)
    (hn : i.pos + bs.length ≤ i.buf.length) (v : UInt16) (hv : v.toNat = (a + (i.pos + bs.length)) % 65536) :
    ∃ w', worldBus.setSnTxBuf r.sn r.ptr bs w = (.ok (), w') ∧
      WrRel (w', { r with ptr := v }) (i.put bs) c0 a := by
  have ht := h.tick
  have hsz := ht.txSize
  simp only at hsz
  have hdvd := h.dvd
  simp only at hdvd
  have hcap := h.cap
  simp only at hcap
  rw [run_setSnTxBuf _ _ _ _ (by rw [hsz]; exact hdvd)]
  refine ⟨_, rfl, ?_⟩
  rw [hsz]
  have hp := h.ptr
  simp only at hp
  have hmem : w.tick.chip.mem.ringWrite (4 * r.sn.idx + 2) (c0.txSize r.sn.idx) r.ptr.toNat bs
      = w.tick.chip.mem.ringWrite (4 * r.sn.idx + 2) (c0.txSize r.sn.idx) (a + i.pos) bs := by
    rw [hp, Mem.ringWrite_mod _ _ _ _ _ _ hdvd]
  rw [hmem]
  have hlen := put_length i bs hn
  constructor
  · exact h.dvd
  · exact h.size_lt
  · rw [hlen]; exact h.cap
  · rw [hlen]; exact hn
  · exact h.head
  · rw [hlen]; exact h.tail
  · exact hv
  · rw [hlen]
    show (w.tick.chip.mem.ringWrite _ _ _ _).ringRead _ _ _ _ = _
    have hdat := ht.data
    simp only at hdat
    rw [ringRead_ringWrite _ _ _ _ _ _ _ hcap hn, hdat]; rfl
  · intro x hx
    show w.tick.chip.mem.ringWrite _ _ _ _ _ _ = _
    rw [hlen] at hx
    rw [Mem.ringWrite_out]
    · exact ht.out x hx
    · right; intro j hj
      rw [Nat.add_assoc]; exact hx _ (by omega)
  · intro b x h1 h2 h3
    show w.tick.chip.mem.ringWrite _ _ _ _ _ _ = _
    rw [Mem.ringWrite_out _ _ _ _ _ _ _ (.inl h2)]
    exact ht.regs b x h1 h2 h3
  · exact ht.sent
  · have := ht.fsr
    simp only at this ⊢
    show (w.tick.chip.mem.ringWrite _ _ _ _).word _ _ ≤ _
    rw [Mem.ringWrite_word _ _ _ _ _ _ _ (by omega)]
    exact this
  · intro k base p hk
    have hk' := ht.rx k base p hk
    refine ⟨(ringWrite_rxSame w.tick.chip r.sn.idx _ _ bs k).rxOk hk'.rx, ?_⟩
    rw [← hk'.rd]
    unfold Chip.rxRd
    exact Mem.ringWrite_word _ _ _ _ _ _ _ (by omega)
  · exact ht.pre

theorem put_nil (i : Image) : i.put [] = i := by
  simp [Image.put]

theorem write_sim {w : World} {r : Ptrs} {i c0 a} (h : WrRel (w, r) i c0 a) (bs : Bytes) :
    ((writerOps worldBus).write bs (w, r)).1 = (imageOps.write bs i).1 ∧
    WrRel ((writerOps worldBus).write bs (w, r)).2 (imageOps.write bs i).2 c0 a := by
  have hsm := h.small; have hpos := h.pos
  have hm : (min16 r.remain (lenU16 bs.length)).toNat = min (i.buf.length - i.pos) bs.length := by
    rw [min16_toNat, h.remain, lenU16_toNat]; omega
  have hmu : min16 r.remain (lenU16 bs.length) = UInt16.ofNat (min (i.buf.length - i.pos) bs.length) := by
    rw [← hm]; exact UInt16.ofNat_toNat.symm
  have hspec : imageOps.write bs i = (.ok (UInt16.ofNat (min (i.buf.length - i.pos) bs.length)),
      i.put (bs.take (min (i.buf.length - i.pos) bs.length))) := rfl
  rw [hspec]
  by_cases hz : min16 r.remain (lenU16 bs.length) = 0
  · have hz0 : min (i.buf.length - i.pos) bs.length = 0 := by rw [← hm, hz]; rfl
    have e : (writerOps worldBus).write bs (w, r) = (.ok 0, (w, r)) := by
      have : writerWrite worldBus r bs w = (.ok (0, r), w) := by
        unfold writerWrite
        show (if min16 r.remain (lenU16 bs.length) ≠ 0 then _ else _ : M World _) w = _
        rw [if_neg (by simp [hz])]; rfl
      simp only [writerOps, this]
    rw [e, hz0, List.take_zero, put_nil i]
    exact ⟨rfl, h⟩
  · have hl : (bs.take (min16 r.remain (lenU16 bs.length)).toNat).length = min (i.buf.length - i.pos) bs.length := by
      rw [hm, List.length_take]; omega
    obtain ⟨w', e', h'⟩ := h.put (bs.take (min16 r.remain (lenU16 bs.length)).toNat) (by rw [hl]; omega)
      (r.ptr + min16 r.remain (lenU16 bs.length)) (by
        have hp := h.ptr
        simp only at hp
        rw [UInt16.toNat_add, hp, hl, hm]; omega)
    have e : (writerOps worldBus).write bs (w, r) = (.ok (min16 r.remain (lenU16 bs.length)),
        (w', { r with ptr := r.ptr + min16 r.remain (lenU16 bs.length) })) := by
      have : writerWrite worldBus r bs w = (.ok (min16 r.remain (lenU16 bs.length),
          { r with ptr := r.ptr + min16 r.remain (lenU16 bs.length) }), w') := by
        unfold writerWrite
        show (if min16 r.remain (lenU16 bs.length) ≠ 0 then _ else _ : M World _) w = _
        rw [if_pos (by simpa using hz), M.bind_ok e']; rfl
      simp only [writerOps, this]
    rw [e, hmu]
    refine ⟨rfl, ?_⟩
    rw [hm] at h'
    rw [← hmu]
    exact h'

theorem writeAll_sim {w : World} {r : Ptrs} {i c0 a} (h : WrRel (w, r) i c0 a) (bs : Bytes) :
    ((writerOps worldBus).writeAll bs (w, r)).1 = (imageOps.writeAll bs i).1 ∧
    WrRel ((writerOps worldBus).writeAll bs (w, r)).2 (imageOps.writeAll bs i).2 c0 a := by
  have hsm := h.small; have hpos := h.pos
  have hm : (min16 r.remain (lenU16 bs.length)).toNat = min (i.buf.length - i.pos) (min bs.length 65535) := by
    rw [min16_toNat, h.remain, lenU16_toNat]
  by_cases hn : bs.length ≤ i.buf.length - i.pos
  · have hspec : imageOps.writeAll bs i = (.ok (), i.put bs) := if_pos hn
    rw [hspec]
    have hm' : (min16 r.remain (lenU16 bs.length)).toNat = bs.length := by omega
    have hz : min16 r.remain (lenU16 bs.length) = lenU16 bs.length := u16_ext (by rw [hm', lenU16_toNat]; omega)
    obtain ⟨w', e', h'⟩ := h.put bs (by omega)
      (r.ptr + min16 r.remain (lenU16 bs.length)) (by
        have hp := h.ptr
        simp only at hp
        rw [UInt16.toNat_add, hp, hm']; omega)
    have e : (writerOps worldBus).writeAll bs (w, r) = (.ok (),
        (w', { r with ptr := r.ptr + min16 r.remain (lenU16 bs.length) })) := by
      have : writerWriteAll worldBus r bs w = (.ok
          { r with ptr := r.ptr + min16 r.remain (lenU16 bs.length) }, w') := by
        unfold writerWriteAll
        show (if min16 r.remain (lenU16 bs.length) ≠ lenU16 bs.length then _ else _ : M World _) w = _
        rw [if_neg (by simp [hz]), M.bind_ok e']; rfl
      simp only [writerOps, this]
    rw [e]
    exact ⟨rfl, h'⟩
  · have hspec : imageOps.writeAll bs i = (.error .outOfMemory, i) := if_neg hn
    rw [hspec]
    have e : (writerOps worldBus).writeAll bs (w, r) = (.error .outOfMemory, (w, r)) := by
      have : writerWriteAll worldBus r bs w = (.error .outOfMemory, w) := by
        unfold writerWriteAll
        show (if min16 r.remain (lenU16 bs.length) ≠ lenU16 bs.length then _ else _ : M World _) w = _
        rw [if_pos]; rfl
        intro hz
        have := congrArg UInt16.toNat hz
        rw [hm, lenU16_toNat] at this
        omega
      simp only [writerOps, this]
    rw [e]; exact ⟨rfl, h⟩

theorem wseek_sim {w : World} {r : Ptrs} {i c0 a} (h : WrRel (w, r) i c0 a) (pos : SeekFrom) :
    ((writerOps worldBus).seek pos (w, r)).1 = (imageOps.seek pos i).1 ∧
    WrRel ((writerOps worldBus).seek pos (w, r)).2 (imageOps.seek pos i).2 c0 a := by
  have hsm := h.small; have hpos := h.pos
  have hp := h.streamPosition
  have hl := h.streamLen
  simp only [Ptrs.streamPosition, Ptrs.streamLen] at hp hl
  obtain ⟨h1, h2⟩ := newPtr_spec pos r.ptr r.head r.tail (by rw [hp, hl]; exact hpos)
  rw [hp, hl] at h1 h2
  by_cases ht : 0 ≤ seekTarget i.buf.length i.pos pos ∧ seekTarget i.buf.length i.pos pos ≤ i.buf.length
  · obtain ⟨v, e, hv⟩ := h1 ht
    have e1 : (writerOps worldBus).seek pos (w, r) = (.ok (), (w, { r with ptr := v })) := by
      simp only [writerOps, Ptrs.seek, e]
    have e2 : imageOps.seek pos i = (.ok (), { i with pos := (seekTarget i.buf.length i.pos pos).toNat }) :=
      if_pos ht
    rw [e1, e2]
    refine ⟨rfl, h.move _ _ (by omega) ?_⟩
    have hh := h.head
    simp only at hh
    rw [u16_sub_toNat, hh] at hv
    have := u16_lt v
    omega
  · have e := h2 ht
    have e1 : (writerOps worldBus).seek pos (w, r) = (.error .unexpectedEof, (w, r)) := by
      simp only [writerOps, Ptrs.seek, e]
    have e2 : imageOps.seek pos i = (.error .unexpectedEof, i) := if_neg ht
    rw [e1, e2]
    exact ⟨rfl, h⟩

/-- Running any program on the writer gives what it gives on the image. -/
theorem wprog_sim {α : Type} (prog : WProg α) : ∀ {s : World × Ptrs} {i c0 a}, WrRel s i c0 a →
    (prog.run (writerOps worldBus) s).1 = (prog.run imageOps i).1 ∧
    WrRel (prog.run (writerOps worldBus) s).2 (prog.run imageOps i).2 c0 a := by
  induction prog with
  | ret r => intro s i c0 a h; exact ⟨rfl, h⟩
  | write n k ih =>
    intro ⟨w, r⟩ i c0 a h
    obtain ⟨e, h'⟩ := write_sim h n
    simp only [WProg.run]
    rw [e]; exact ih _ h'
  | writeAll n k ih =>
    intro ⟨w, r⟩ i c0 a h
    obtain ⟨e, h'⟩ := writeAll_sim h n
    simp only [WProg.run]
    rw [e]; exact ih _ h'
  | seek pos k ih =>
    intro ⟨w, r⟩ i c0 a h
    obtain ⟨e, h'⟩ := wseek_sim h pos
    simp only [WProg.run]
    rw [e]; exact ih _ h'
  | rewind k ih =>
    intro ⟨w, r⟩ i c0 a h
    simp only [WProg.run]
    exact ih (h.move r.head 0 (by omega) h.head)
  | streamLen k ih =>
    intro ⟨w, r⟩ i c0 a h
    have : r.streamLen = UInt16.ofNat i.buf.length := by
      rw [← h.streamLen]; exact UInt16.ofNat_toNat.symm
    simp only [WProg.run, RProg.withVal, writerOps, imageOps]
    rw [this]; exact ih _ h
  | streamPosition k ih =>
    intro ⟨w, r⟩ i c0 a h
    have : r.streamPosition = UInt16.ofNat i.pos := by
      rw [← h.streamPosition]; exact UInt16.ofNat_toNat.symm
    simp only [WProg.run, RProg.withVal, writerOps, imageOps]
    rw [this]; exact ih _ h
  | remain k ih =>
    intro ⟨w, r⟩ i c0 a h
    have : r.remain = UInt16.ofNat (i.buf.length - i.pos) := by
      rw [← h.remain]; exact UInt16.ofNat_toNat.symm
    simp only [WProg.run, RProg.withVal, writerOps, imageOps]
    rw [this]; exact ih _ h

theorem Spec.TxState.tick {w : World} {k : Nat} (h : TxState w.chip k) : TxState w.tick.chip k :=
  ⟨by rw [tick_txSize]; exact h.size_dvd, by rw [tick_txSize]; exact h.size_lt,
    by rw [tick_txRd, tick_txWr]; exact h.idle, by rw [tick_txSize]; exact tick_fsr_le w k h.size_lt h.fsr_le⟩

/-- Making a writer. -/
theorem run_socketWriter {w : World} {sn : Sn} (h : TxState w.chip sn.idx) :
    ∃ r img, socketWriter worldBus sn w = (.ok r, w.tick) ∧ r.sn = sn ∧ img.pos = 0 ∧
      img.buf.length = w.tick.chip.txFsr sn.idx ∧
      WrRel (w.tick, r) img w.tick.chip (w.tick.chip.txWr sn.idx) := by
  have ht := h.tick
  have hw : (UInt16.ofNat (w.tick.chip.txWr sn.idx)).toNat = w.tick.chip.txWr sn.idx := ofNat16_toNat (Mem.word_lt _ _ _)
  have hf : (UInt16.ofNat (w.tick.chip.txFsr sn.idx)).toNat = w.tick.chip.txFsr sn.idx := ofNat16_toNat (Mem.word_lt _ _ _)
  have hlt : w.tick.chip.txWr sn.idx < 65536 := Mem.word_lt _ _ _
  refine ⟨⟨sn, UInt16.ofNat (w.tick.chip.txWr sn.idx),
    UInt16.ofNat (w.tick.chip.txWr sn.idx) + UInt16.ofNat (w.tick.chip.txFsr sn.idx),
    UInt16.ofNat (w.tick.chip.txWr sn.idx)⟩,
    ⟨w.tick.chip.mem.ringRead (4 * sn.idx + 2) (w.tick.chip.txSize sn.idx) (w.tick.chip.txWr sn.idx)
      (w.tick.chip.txFsr sn.idx), 0⟩, ?_, rfl, rfl, Mem.ringRead_length _ _ _ _ _, ?_⟩
  · unfold socketWriter
    rw [M.bind_ok (run_snTxPtrs sn w)]; rfl
  · constructor
    · exact ht.size_dvd
    · exact ht.size_lt
    · simp only [Mem.ringRead_length]; exact ht.fsr_le
    · exact Nat.zero_le _
    · simp only [hw]; omega
    · simp only [Mem.ringRead_length, UInt16.toNat_add, hw, hf]
    · simp only [hw]; omega
    · simp only [Mem.ringRead_length]
    · intro _ _; rfl
    · intro _ _ _ _ _; rfl
    · rfl
    · exact ht.fsr_le
    · intro _ _ _ h; exact h
    · intro k; exact List.prefix_rfl

theorem ringRead_take (m : Mem) (b size a n j : Nat) (h : j ≤ n) :
    (m.ringRead b size a n).take j = m.ringRead b size a j := by
  unfold Mem.ringRead
  rw [← List.map_take, List.take_range, Nat.min_eq_left h]

theorem destIp_congr {c c' : Chip} {k : Nat} (h : ∀ x, x < 0x20 → 0x0C ≤ x → c'.mem (4 * k + 1) x = c.mem (4 * k + 1) x) :
    c'.destIp k = c.destIp k := by
  unfold Chip.destIp
  apply List.map_congr_left
  intro i hi
  have := List.mem_range.mp hi
  exact h _ (by omega) (by omega)

/-- Pushing the write pointer and issuing `SEND`. -/
theorem WrRel.send {w : World} {r : Ptrs} {i c0 a} (h : WrRel (w, r) i c0 a)
    (hrd : c0.txRd r.sn.idx = a % 65536) (hwr0 : c0.txWr r.sn.idx = a % 65536) :
    ∃ w', writerSend worldBus r w = (.ok (), w') ∧
      w'.chip.sent = c0.sent ++ [⟨r.sn.idx, c0.destIp r.sn.idx, c0.destPort r.sn.idx, i.buf.take i.pos⟩] ∧
      TxState w'.chip r.sn.idx ∧ w'.chip.txWr r.sn.idx = (a + i.pos) % 65536 ∧
      (∀ base p, RxAt c0 r.sn.idx base p → RxAt w'.chip r.sn.idx base p) ∧
      (c0.received r.sn.idx <+: w'.chip.received r.sn.idx) := by
  have hw : TxState w.chip r.sn.idx := by
    have e := h.txSize
    have hg := h.regs
    simp only at e hg
    refine ⟨by rw [e]; exact h.dvd, by rw [e]; exact h.size_lt, ?_, by rw [e]; exact h.fsr⟩
    have e1 : w.chip.txRd r.sn.idx = c0.txRd r.sn.idx := by
      unfold Chip.txRd Mem.word
      rw [hg _ _ (by omega) (by omega) (by omega), hg _ _ (by omega) (by omega) (by omega)]
    have e2 : w.chip.txWr r.sn.idx = c0.txWr r.sn.idx := by
      unfold Chip.txWr Mem.word
      rw [hg _ _ (by omega) (by omega) (by omega), hg _ _ (by omega) (by omega) (by omega)]
    rw [e1, e2, hrd, hwr0]
  unfold writerSend
  rw [M.bind_ok (run_setSnTxWr r.sn r.ptr w), run_setSnCr, command_send]
  refine ⟨_, rfl, ?_⟩
  have hsm := h.small
  have hpos := h.pos
  have hdvd := h.dvd
  simp only at hdvd
  generalize hw1 : ({ w.tick with chip := w.tick.chip.setReg r.sn.idx 0x24 r.ptr.toNat } : World) = w1
  -- the chip just before the command
  generalize hc : w1.tick.chip = c
  have ht := h.tick
  have hp := h.ptr
  simp only at hp
  have frame1 : ∀ b x, b % 4 ≠ 3 → (b % 4 = 1 → x ≠ 2 ∧ x ≠ 3 ∧ x ≠ 0x20 ∧ x ≠ 0x21 ∧ x ≠ 0x26 ∧
      x ≠ 0x27 ∧ x ≠ 0x2A ∧ x ≠ 0x2B) → (b ≠ 4 * r.sn.idx + 1 ∨ (x ≠ 0x24 ∧ x ≠ 0x25)) →
      c.mem b x = w.tick.chip.mem b x := by
    intro b x h1 h2 h3
    rw [← hc, tick_frame _ _ _ h1 h2, ← hw1]
    exact Mem.setWord_ne _ _ _ _ _ _ (by omega)
  have hwr : c.txWr r.sn.idx = (a + i.pos) % 65536 := by
    rw [← hc, tick_txWr, ← hw1]
    show (w.tick.chip.setReg _ _ _).mem.word _ _ = _
    rw [setReg_word, hp]; omega
  have hregs := ht.regs
  simp only at hregs
  have hrd' : c.txRd r.sn.idx = a % 65536 := by
    rw [← hrd]
    unfold Chip.txRd Mem.word
    rw [frame1 _ _ (by omega) (by omega) (by omega), frame1 _ _ (by omega) (by omega) (by omega),
      hregs _ _ (by omega) (by omega) (by omega), hregs _ _ (by omega) (by omega) (by omega)]
  have hsz : c.txSize r.sn.idx = c0.txSize r.sn.idx := by
    unfold Chip.txSize
    rw [frame1 _ _ (by omega) (by omega) (by omega), hregs _ _ (by omega) (by omega) (by omega)]
  have hn : (c.txWr r.sn.idx + 65536 - c.txRd r.sn.idx) % 65536 = i.pos := by rw [hwr, hrd']; omega
  have hip : c.destIp r.sn.idx = c0.destIp r.sn.idx := by
    apply destIp_congr
    intro x h1 h2
    rw [frame1 _ _ (by omega) (by omega) (by omega), hregs _ _ (by omega) (by omega) (by omega)]
  have hport : c.destPort r.sn.idx = c0.destPort r.sn.idx := by
    unfold Chip.destPort Mem.word
    rw [frame1 _ _ (by omega) (by omega) (by omega), frame1 _ _ (by omega) (by omega) (by omega),
      hregs _ _ (by omega) (by omega) (by omega), hregs _ _ (by omega) (by omega) (by omega)]
  have hpay : c.mem.ringRead (4 * r.sn.idx + 2) (c.txSize r.sn.idx) (c.txRd r.sn.idx) i.pos = i.buf.take i.pos := by
    rw [hsz, hrd', Mem.ringRead_mod _ _ _ _ _ _ hdvd]
    have hd := ht.data
    simp only at hd
    rw [← hd, ringRead_take _ _ _ _ _ _ hpos]
    exact ringRead_congr fun x => frame1 _ _ (by omega) (by omega) (by omega)
  have hsent : c.sent = c0.sent := by
    rw [← hc, tick_sent, ← hw1]
    exact ht.sent
  have hfsr : c.txFsr r.sn.idx ≤ c.txSize r.sn.idx := by
    have h1 := hw.tick
    have key : ∀ (v : World), 65536 % v.chip.txSize r.sn.idx = 0 → v.chip.txSize r.sn.idx < 65536 →
        v.chip.txFsr r.sn.idx ≤ v.chip.txSize r.sn.idx → v.tick.chip.txFsr r.sn.idx ≤ v.tick.chip.txSize r.sn.idx := by
      intro v _ d2 d3
      rw [tick_txSize]; exact tick_fsr_le v r.sn.idx d2 d3
    rw [← hc]
    apply key
    · rw [← hw1]
      have : (w.tick.chip.setReg r.sn.idx 0x24 r.ptr.toNat).txSize r.sn.idx = w.tick.chip.txSize r.sn.idx := by
        unfold Chip.txSize Chip.setReg; simp only; rw [Mem.setWord_ne _ _ _ _ _ _ (by omega)]
      simp only; rw [this]; exact h1.size_dvd
    · rw [← hw1]
      have : (w.tick.chip.setReg r.sn.idx 0x24 r.ptr.toNat).txSize r.sn.idx = w.tick.chip.txSize r.sn.idx := by
        unfold Chip.txSize Chip.setReg; simp only; rw [Mem.setWord_ne _ _ _ _ _ _ (by omega)]
      simp only; rw [this]; exact h1.size_lt
    · rw [← hw1]
      have : (w.tick.chip.setReg r.sn.idx 0x24 r.ptr.toNat).txSize r.sn.idx = w.tick.chip.txSize r.sn.idx := by
        unfold Chip.txSize Chip.setReg; simp only; rw [Mem.setWord_ne _ _ _ _ _ _ (by omega)]
      have e2 : (w.tick.chip.setReg r.sn.idx 0x24 r.ptr.toNat).txFsr r.sn.idx = w.tick.chip.txFsr r.sn.idx := by
        unfold Chip.txFsr Chip.setReg; simp only; rw [Mem.word_setWord_ne _ _ _ _ _ _ (by omega)]
      simp only; rw [this, e2]; exact h1.fsr_le
  refine ⟨?_, ?_, ?_, ?_, ?_⟩
  · show c.sent ++ [_] = _
    rw [hsent, hn, hpay, hip, hport]
  · have e1 : (c.cmdSend r.sn.idx).txSize r.sn.idx = c.txSize r.sn.idx := by
      unfold Chip.cmdSend Chip.txSize Chip.setReg
      simp only
      rw [Mem.setWord_ne _ _ _ _ _ _ (by omega), Mem.setWord_ne _ _ _ _ _ _ (by omega)]
    constructor
    · simp only; rw [e1, hsz]; exact hdvd
    · simp only; rw [e1, hsz]; exact h.size_lt
    · have a1 : (c.cmdSend r.sn.idx).txRd r.sn.idx = c.txWr r.sn.idx := by
        unfold Chip.cmdSend Chip.txRd Chip.setReg
        simp only
        rw [Mem.word_setWord_ne _ _ _ _ _ _ (by omega), Mem.word_setWord]
        have : c.txWr r.sn.idx < 65536 := Mem.word_lt _ _ _
        omega
      have a2 : (c.cmdSend r.sn.idx).txWr r.sn.idx = c.txWr r.sn.idx := by
        unfold Chip.cmdSend Chip.txWr Chip.setReg
        simp only
        rw [Mem.word_setWord_ne _ _ _ _ _ _ (by omega), Mem.word_setWord_ne _ _ _ _ _ _ (by omega)]
      simp only; rw [a1, a2]
    · have a1 : (c.cmdSend r.sn.idx).txFsr r.sn.idx ≤ c.txFsr r.sn.idx := by
        unfold Chip.cmdSend
        show (Mem.setWord _ _ 0x20 _).word _ 0x20 ≤ _
        rw [Mem.word_setWord]; omega
      simp only; rw [e1]; omega
  · have a2 : (c.cmdSend r.sn.idx).txWr r.sn.idx = c.txWr r.sn.idx := by
      unfold Chip.cmdSend Chip.txWr Chip.setReg
      simp only
      rw [Mem.word_setWord_ne _ _ _ _ _ _ (by omega), Mem.word_setWord_ne _ _ _ _ _ _ (by omega)]
    simp only; rw [a2, hwr]
  · intro base p hk
    have h1 := ht.rx _ _ _ hk
    simp only at h1
    have h2 : RxAt w1.chip r.sn.idx base p := by
      rw [← hw1]
      refine ⟨(setReg_rxSame _ _ _ _ _ (by omega)).rxOk h1.rx, ?_⟩
      rw [← h1.rd]
      exact Mem.word_setWord_ne _ _ _ _ _ _ (by omega)
    have h3 := h2.tick
    rw [hc] at h3
    have same : RxSame c (c.cmdSend r.sn.idx) r.sn.idx := by
      apply RxSame.of_mem
      · intro x hx
        show ((c.mem.setWord _ _ _).setWord _ _ _) _ _ = _
        rw [Mem.setWord_ne _ _ _ _ _ _ (by omega), Mem.setWord_ne _ _ _ _ _ _ (by omega)]
      · intro x
        show ((c.mem.setWord _ _ _).setWord _ _ _) _ _ = _
        rw [Mem.setWord_ne _ _ _ _ _ _ (by omega), Mem.setWord_ne _ _ _ _ _ _ (by omega)]
      · rfl
    refine ⟨same.rxOk h3.rx, ?_⟩
    rw [← h3.rd]
    show ((c.mem.setWord _ _ _).setWord _ _ _).word _ _ = _
    rw [Mem.word_setWord_ne _ _ _ _ _ _ (by omega), Mem.word_setWord_ne _ _ _ _ _ _ (by omega)]
    rfl
  · show c0.received _ <+: c.received _
    rw [← hc]
    refine List.IsPrefix.trans ?_ (tick_received_prefix w1 _)
    rw [← hw1]
    exact ht.pre _

/-- A window of the free space right after the write pointer. -/
theorem WrRel.start {w : World} {sn : Sn} (h : TxState w.chip sn.idx) (cap : Nat) (hcap : cap ≤ w.chip.txSize sn.idx)
    (r : Ptrs) (hr : r = ⟨sn, UInt16.ofNat (w.chip.txWr sn.idx), UInt16.ofNat (w.chip.txWr sn.idx) + UInt16.ofNat cap,
      UInt16.ofNat (w.chip.txWr sn.idx)⟩) :
    WrRel (w, r) ⟨w.chip.mem.ringRead (4 * sn.idx + 2) (w.chip.txSize sn.idx) (w.chip.txWr sn.idx) cap, 0⟩ w.chip
      (w.chip.txWr sn.idx) := by
  subst hr
  have hw : (UInt16.ofNat (w.chip.txWr sn.idx)).toNat = w.chip.txWr sn.idx := ofNat16_toNat (Mem.word_lt _ _ _)
  have hlt : w.chip.txWr sn.idx < 65536 := Mem.word_lt _ _ _
  have hsz := h.size_lt
  have hf : (UInt16.ofNat cap).toNat = cap := ofNat16_toNat (by omega)
  constructor
  · exact h.size_dvd
  · exact h.size_lt
  · simp only [Mem.ringRead_length]; exact hcap
  · exact Nat.zero_le _
  · simp only [hw]; omega
  · simp only [Mem.ringRead_length, UInt16.toNat_add, hw, hf]
  · simp only [hw]; omega
  · simp only [Mem.ringRead_length]
  · intro _ _; rfl
  · intro _ _ _ _ _; rfl
  · rfl
  · exact h.fsr_le
  · intro _ _ _ h; exact h
  · intro k; exact List.prefix_rfl

/-- What one transmission does. -/
structure SentOne (w w' : World) (sn : Sn) (payload : Bytes) : Prop where
  sent : w'.chip.sent = w.chip.sent ++ [⟨sn.idx, w.chip.destIp sn.idx, w.chip.destPort sn.idx, payload⟩]
  tx : TxState w'.chip sn.idx
  rx : ∀ base p, RxAt w.chip sn.idx base p → RxAt w'.chip sn.idx base p
  pre : w.chip.received sn.idx <+: w'.chip.received sn.idx

theorem run_txTail {w : World} {sn : Sn} (h : TxState w.chip sn.idx) (bs : Bytes) (n : UInt16)
    (hn : n.toNat = bs.length) (hfit : bs.length ≤ w.chip.txSize sn.idx) :
    ∃ w', (do
        worldBus.setSnTxBuf sn (UInt16.ofNat (w.chip.txWr sn.idx)) bs
        worldBus.setSnTxWr sn (UInt16.ofNat (w.chip.txWr sn.idx) + n)
        worldBus.setSnCr sn .send : M World Unit) w = (.ok (), w') ∧ SentOne w w' sn bs := by
  have h0 := WrRel.start h bs.length hfit _ rfl
  have hlt : w.chip.txWr sn.idx < 65536 := Mem.word_lt _ _ _
  obtain ⟨w1, e1, h1⟩ := h0.put bs (by simp [Mem.ringRead_length])
    (UInt16.ofNat (w.chip.txWr sn.idx) + n) (by
      rw [UInt16.toNat_add, hn, ofNat16_toNat hlt]; simp)
  obtain ⟨w2, e2, h2, h3, h4, h5, h6⟩ := h1.send (by simp only; rw [h.idle]; omega) (by simp only; omega)
  refine ⟨w2, ?_, ?_, h3, h5, h6⟩
  · simp only at e1
    rw [M.bind_ok e1]
    exact e2
  · rw [h2]
    congr 3
    have hl : (w.chip.mem.ringRead (4 * sn.idx + 2) (w.chip.txSize sn.idx) (w.chip.txWr sn.idx) bs.length).length
      = bs.length := Mem.ringRead_length _ _ _ _ _
    simp only [Image.put, List.take_zero, List.nil_append, Nat.zero_add]
    rw [List.drop_of_length_le (by rw [hl]; exact Nat.le_refl _), List.append_nil, List.take_length]

end Verif

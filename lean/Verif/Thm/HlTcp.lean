import Verif.Proof.History
/-!
# C10 to C13: TCP streams, readers and writers
-/
namespace Verif.Thm
open Verif Hl Spec

/-- C10 (TCP): suppose the receive side of `sn` is consistent and `p` bytes have been consumed.  If
`tcp_reader` succeeds then there is a string `D` of unread bytes — at least those there when the call was
made, at most those there when it returned — such that every program using the reader gets the same
results as on an in-memory cursor over `D`, whatever arrives in the meantime; the position reported
afterwards is the cursor's; nothing is consumed by the program; and `done` then consumes exactly the
bytes before the position. -/
theorem C10_tcp_reader_is_cursor (dbg : Bool) (sn : Sn) (p : Nat) (w w1 : World) (r : Ptrs)
    (h : RxState w.chip sn.toU8.toNat p) (hr : tcpReader dbg worldBus sn w = (.ok r, w1)) :
    ∃ D : Bytes, w.chip.unread sn.toU8.toNat <+: D ∧ D <+: w1.chip.unread sn.toU8.toNat ∧ D ≠ [] ∧
      ∀ {α : Type} (prog : RProg α),
        let real := prog.run (tcpReaderOps worldBus) (w1, r)
        let spec := prog.run cursorOps ⟨D, 0⟩
        real.1 = spec.1 ∧ real.2.2.streamPosition.toNat = spec.2.pos ∧ spec.2.pos ≤ D.length ∧
        RxState real.2.1.chip sn.toU8.toNat p ∧
        ∃ w2, tcpReaderDone worldBus real.2.2 real.2.1 = (.ok (), w2) ∧
          RxState w2.chip sn.toU8.toNat (p + spec.2.pos) := by
  change RxState w.chip sn.idx p at h
  obtain ⟨base, hb⟩ := h.at
  obtain ⟨w0, hw0, hd⟩ := run_debugAssert dbg _ w (run_notUdpInitMacraw sn w)
  rcases hd.symm with ⟨hdbg, hd⟩ | hd
  · unfold tcpReader at hr
    rw [M.bind_error hd] at hr
    simp at hr
  · have h0 := (hb.of_or hw0).tick
    have hrsr := h0.rsr_toNat
    unfold tcpReader at hr
    rw [M.bind_ok hd, M.bind_ok (run_snRxRsr sn w0)] at hr
    by_cases hz : UInt16.ofNat (w0.tick.chip.rxRsr sn.idx) = 0
    · rw [if_pos hz] at hr; simp [M.throw] at hr
    · rw [if_neg hz, M.bind_ok (run_snRxRd sn w0.tick)] at hr
      have hr' : (Except.ok (⟨sn, UInt16.ofNat (w0.tick.tick.chip.rxRd sn.idx),
          UInt16.ofNat (w0.tick.tick.chip.rxRd sn.idx) + UInt16.ofNat (w0.tick.chip.rxRsr sn.idx),
          UInt16.ofNat (w0.tick.tick.chip.rxRd sn.idx)⟩ : Ptrs), w0.tick.tick) = ((Except.ok r : Except Err Ptrs), w1) := hr
      injection hr' with e1 e2
      injection e1 with e1
      subst e1 e2
      have h1 := h0.tick
      have pre0 := (recv_prefix_of_or sn.idx hw0).trans (tick_received_prefix w0 sn.idx)
      have pre1 := tick_received_prefix w0.tick sn.idx
      have hle := h0.rx.le
      have hlen := pre1.length_le
      have hne : (w0.tick.chip.received sn.idx).length - p ≠ 0 := by
        rw [← hrsr]; exact u16_ne_zero.mp hz
      have hrd : (UInt16.ofNat (w0.tick.tick.chip.rxRd sn.idx)).toNat = (base + p) % 65536 := by
        rw [ofNat16_toNat (by rw [h1.rd]; omega), h1.rd]
      have hlD : ((w0.tick.chip.received sn.idx).drop p).length = (w0.tick.chip.received sn.idx).length - p :=
        List.length_drop
      refine ⟨(w0.tick.chip.received sn.idx).drop p, ?_, ?_, ?_, ?_⟩
      · show w.chip.unread sn.idx <+: _
        rw [h.data]; exact prefix_drop pre0 p
      · show _ <+: w0.tick.tick.chip.unread sn.idx
        rw [h1.state.data]; exact prefix_drop pre1 p
      · intro e; rw [e] at hlD; simp at hlD; omega
      · intro α prog
        have rel : RdRel (w0.tick.tick, (⟨sn, UInt16.ofNat (w0.tick.tick.chip.rxRd sn.idx),
          UInt16.ofNat (w0.tick.tick.chip.rxRd sn.idx) + UInt16.ofNat (w0.tick.chip.rxRsr sn.idx),
          UInt16.ofNat (w0.tick.tick.chip.rxRd sn.idx)⟩ : Ptrs)) ⟨(w0.tick.chip.received sn.idx).drop p, 0⟩ base p p := by
          constructor
          · exact h1
          · exact Nat.le_refl _
          · simp only [hlD]; omega
          · simp only [hlD]
            rw [← take_drop_prefix pre1 p _ (by omega), List.take_of_length_le (by rw [hlD]; exact Nat.le_refl _)]
          · exact Nat.zero_le _
          · exact hrd
          · simp only [hlD]; rw [UInt16.toNat_add, hrd, hrsr]; omega
          · exact hrd
        obtain ⟨g1, g2⟩ := prog_sim prog rel
        have hsn : (prog.run (tcpReaderOps worldBus) (w0.tick.tick, (⟨sn, UInt16.ofNat (w0.tick.tick.chip.rxRd sn.idx),
          UInt16.ofNat (w0.tick.tick.chip.rxRd sn.idx) + UInt16.ofNat (w0.tick.chip.rxRsr sn.idx),
          UInt16.ofNat (w0.tick.tick.chip.rxRd sn.idx)⟩ : Ptrs))).2.2.sn = sn := prog_sn prog _ _
        have hdat := prog_cursor_data prog ⟨(w0.tick.chip.received sn.idx).drop p, 0⟩
        intro real spec
        have hpos := g2.pos
        have hrx := g2.rx
        have hglen := g2.len
        have hptr := g2.ptr
        rw [hdat] at hpos hglen
        change spec.2.pos ≤ _ at hpos
        rw [hsn] at hrx hglen
        refine ⟨g1, g2.streamPosition, hpos, hrx.state, ?_⟩
        obtain ⟨w2, e2, h2, _⟩ := RxAt.consume (w := real.2.1) (sn := sn) hrx.rx real.2.2.ptr (q := p + spec.2.pos)
          (by rw [← Nat.add_assoc]; exact hptr) (by omega) (Nat.le_trans (Nat.add_le_add_left hpos p) hglen)
        refine ⟨w2, ?_, h2.state⟩
        unfold tcpReaderDone
        rw [hsn]; exact e2


/-- C11: suppose the transmit side of `sn` is idle.  A writer made by `tcp_writer` or `udp_writer` covers
the free space reported at its creation.  Every program using it gets the same results as on an in-memory
image of that size (whose initial contents are whatever is in the buffer).  The program changes nothing
of the chip except the bytes of that free space (and what the environment changes: status, interrupt,
free size and receive registers, and receive buffers); nothing is sent.  `send` then hands to the
network exactly the image up to the position. -/
theorem C11_writer_is_image (sn : Sn) (w w1 : World) (r : Ptrs) (h : TxState w.chip sn.toU8.toNat)
    (hr : socketWriter worldBus sn w = (.ok r, w1)) :
    let k := sn.toU8.toNat
    ∃ img : Image, img.pos = 0 ∧ img.buf.length = w1.chip.txFsr k ∧
      ∀ {α : Type} (prog : WProg α),
        let real := prog.run (writerOps worldBus) (w1, r)
        let spec := prog.run imageOps img
        real.1 = spec.1 ∧ real.2.2.streamPosition.toNat = spec.2.pos ∧
        (∀ x, (∀ j < img.buf.length, x ≠ (w1.chip.txWr k + j) % w1.chip.txSize k) →
          real.2.1.chip.mem (4 * k + 2) x = w1.chip.mem (4 * k + 2) x) ∧
        (∀ b x, b % 4 ≠ 3 → b ≠ 4 * k + 2 → (b % 4 = 1 → x ∉ [2, 3, 0x20, 0x21, 0x26, 0x27, 0x2A, 0x2B]) →
          real.2.1.chip.mem b x = w1.chip.mem b x) ∧
        real.2.1.chip.sent = w1.chip.sent ∧
        ∃ w2, writerSend worldBus real.2.2 real.2.1 = (.ok (), w2) ∧
          w2.chip.sent = w1.chip.sent ++
            [⟨k, w1.chip.destIp k, w1.chip.destPort k, spec.2.buf.take spec.2.pos⟩] ∧
          TxState w2.chip k := by
  change TxState w.chip sn.idx at h
  intro k
  change let k := sn.idx; _
  obtain ⟨r', img, e, hsn, hpos, hlen, rel⟩ := run_socketWriter h
  rw [e] at hr
  injection hr with e1 e2
  injection e1 with e1
  subst e1 e2
  refine ⟨img, hpos, hlen, ?_⟩
  intro α prog
  obtain ⟨g1, g2⟩ := wprog_sim prog rel
  have hs2 : (prog.run (writerOps worldBus) (w.tick, r')).2.2.sn = sn := (wprog_sn prog _ _).trans hsn
  intro real spec
  have hout := g2.out
  have hregs := g2.regs
  have hil := (wprog_image_length prog img (by omega)).1
  rw [hs2, hil] at hout
  rw [hs2] at hregs
  have ht := h.tick
  have hlt : w.tick.chip.txWr sn.idx < 65536 := Mem.word_lt _ _ _
  obtain ⟨w2, e2, s1, s2, s3, s4, s5⟩ := g2.send (by rw [hs2, ht.idle]; omega) (by rw [hs2]; omega)
  rw [hs2] at s1 s2
  exact ⟨g1, g2.streamPosition, hout, fun b x h1 h2 h3 => hregs b x h1 h2 (fun hb => by
    have := h3 hb; simp at this; omega), g2.sent, w2, e2, s1, s2⟩

/-- C11: the same for `udp_send_to` on a UDP writer: one datagram to `addr` (or, in a debug build whose
socket is not a UDP socket, a panic). -/
theorem C11_udp_send_to (dbg : Bool) (sn : Sn) (addr : SockAddr) (w w1 : World) (r : Ptrs)
    (h : TxState w.chip sn.toU8.toNat) (hr : socketWriter worldBus sn w = (.ok r, w1)) :
    ∃ img : Image, img.pos = 0 ∧ img.buf.length = w1.chip.txFsr sn.toU8.toNat ∧
      ∀ {α : Type} (prog : WProg α),
        let real := prog.run (writerOps worldBus) (w1, r)
        let spec := prog.run imageOps img
        real.1 = spec.1 ∧ ∃ w2,
          ((udpWriterSendTo dbg worldBus real.2.2 addr real.2.1 = (.error .panic, w2) ∧ dbg = true ∧
              w2.chip.sent = w1.chip.sent) ∨
           (udpWriterSendTo dbg worldBus real.2.2 addr real.2.1 = (.ok (), w2) ∧
              w2.chip.sent = w1.chip.sent ++
                [⟨sn.toU8.toNat, addr.ip.octets, addr.port.toNat, spec.2.buf.take spec.2.pos⟩])) ∧
          TxState w2.chip sn.toU8.toNat := by
  change TxState w.chip sn.idx at h
  change ∃ img : Image, img.pos = 0 ∧ img.buf.length = w1.chip.txFsr sn.idx ∧ _
  obtain ⟨r', img, e, hsn, hpos, hlen, rel⟩ := run_socketWriter h
  rw [e] at hr
  injection hr with e1 e2
  injection e1 with e1
  subst e1 e2
  refine ⟨img, hpos, hlen, ?_⟩
  intro α prog
  obtain ⟨g1, g2⟩ := wprog_sim prog rel
  have hs2 : (prog.run (writerOps worldBus) (w.tick, r')).2.2.sn = sn := (wprog_sn prog _ _).trans hsn
  intro real spec
  change real.2.2.sn = sn at hs2
  refine ⟨g1, ?_⟩
  have ht := h.tick
  have hlt : w.tick.chip.txWr sn.idx < 65536 := Mem.word_lt _ _ _
  obtain ⟨w3, hw3, hd⟩ := run_debugAssert dbg _ real.2.1 (run_srIsUdp sn real.2.1)
  have g3 : WrRel (w3, real.2.2) spec.2 w.tick.chip (w.tick.chip.txWr sn.idx) := by
    rcases hw3 with rfl | rfl
    · exact g2
    · exact WrRel.tick (w := real.2.1) (r := real.2.2) g2
  rcases hd.symm with ⟨hdbg, hd⟩ | hd
  · refine ⟨w3, .inl ⟨?_, hdbg, g3.sent⟩, ?_⟩
    · unfold udpWriterSendTo; rw [hs2, M.bind_error hd]
    · have hregs := g3.regs
      have e0 := g3.txSize
      have hf := g3.fsr
      simp only [hs2] at hregs e0 hf
      refine ⟨?_, ?_, ?_, ?_⟩
      · show 65536 % w3.chip.txSize sn.idx = 0
        rw [e0]; exact ht.size_dvd
      · show w3.chip.txSize sn.idx < _
        rw [e0]; exact ht.size_lt
      · show w3.chip.txRd sn.idx = w3.chip.txWr sn.idx
        have i := ht.idle
        unfold Chip.txRd Chip.txWr Mem.word at i ⊢
        rw [hregs _ _ (by omega) (by omega) (by omega), hregs _ _ (by omega) (by omega) (by omega),
          hregs _ _ (by omega) (by omega) (by omega), hregs _ _ (by omega) (by omega) (by omega)]
        exact i
      · show w3.chip.txFsr sn.idx ≤ w3.chip.txSize sn.idx
        rw [e0]; exact hf
  · have g4 := g3.setDest addr
    have hst : ∀ x, 0x12 ≤ x → (Verif.setDest w.tick.chip sn.idx addr).mem (4 * sn.idx + 1) x
        = w.tick.chip.mem (4 * sn.idx + 1) x := fun x hx => setDest_same _ _ _ _ _ (by omega)
    have r1 : (Verif.setDest w.tick.chip sn.idx addr).txRd sn.idx = w.tick.chip.txRd sn.idx := by
      unfold Chip.txRd Mem.word; rw [hst _ (by omega), hst _ (by omega)]
    have r2 : (Verif.setDest w.tick.chip sn.idx addr).txWr sn.idx = w.tick.chip.txWr sn.idx := by
      unfold Chip.txWr Mem.word; rw [hst _ (by omega), hst _ (by omega)]
    obtain ⟨w2, e2, s1, s2, s3, s4, s5⟩ := g4.send (by rw [hs2, r1, ht.idle]; omega) (by rw [hs2, r2]; omega)
    rw [hs2] at s1 s2
    rw [setDest_ip, setDest_port] at s1
    refine ⟨w2, .inr ⟨?_, s1⟩, s2⟩
    unfold udpWriterSendTo
    rw [hs2, M.bind_ok hd, M.bind_ok (run_setSnDest sn addr w3)]
    rw [hs2] at e2
    exact e2

/-- Write a list of strings with `write_all`, stopping at the first failure. -/
def writeAlls : List Bytes → WProg Unit
  | [] => .ret (.ok ())
  | x :: xs => .writeAll x fun r => match r with
    | .ok () => writeAlls xs
    | .error e => .ret (.error e)

/-- C11: in particular, writing any strings that together fit and sending them hands over their
concatenation, whatever the buffer contained. -/
theorem C11_write_alls_concat (xs : List Bytes) (img : Image) (hp : img.pos = 0) (h : xs.flatten.length ≤ img.buf.length) :
    ((writeAlls xs).run imageOps img).1 = .ok () ∧
    ((writeAlls xs).run imageOps img).2.buf.take ((writeAlls xs).run imageOps img).2.pos = xs.flatten := by
  have key : ∀ (xs : List Bytes) (i : Image), i.pos + xs.flatten.length ≤ i.buf.length →
      ((writeAlls xs).run imageOps i).1 = .ok () ∧
      ((writeAlls xs).run imageOps i).2.buf.take ((writeAlls xs).run imageOps i).2.pos
        = i.buf.take i.pos ++ xs.flatten := by
    intro xs
    induction xs with
    | nil => intro i _; simp [writeAlls, WProg.run]
    | cons x xs ih =>
      intro i hi
      rw [List.flatten_cons, List.length_append] at hi
      have e : imageOps.writeAll x i = (.ok (), i.put x) := by
        simp only [imageOps]; rw [if_pos (by omega)]
      have hl := put_length i x (by omega)
      have := ih (i.put x) (by rw [hl]; simp only [Image.put]; omega)
      have ht : (i.put x).buf.take (i.put x).pos = i.buf.take i.pos ++ x := by
        simp only [Image.put]
        rw [List.take_append_of_le_length (by simp; omega), List.take_of_length_le (by simp; omega)]
      rw [ht] at this
      rw [writeAlls, WProg.run]
      simp only [e]
      simpa [List.append_assoc] using this
  have := key xs img (by omega)
  rw [hp] at this
  simpa using this

/-- C13: one `tcp_write` on an idle transmitter.  Unless a debug build panics (nothing sent), the count
returned is the smaller of the argument's length and the free space when it was read, and exactly that
prefix of the argument is handed to the network (nothing at all if it is empty). -/
theorem C13_tcp_write (dbg : Bool) (sn : Sn) (buf : Bytes) (w : World) (h : TxState w.chip sn.toU8.toNat) :
    let k := sn.toU8.toNat
    let w' := (tcpWrite dbg worldBus sn buf w).2
    TxState w'.chip k ∧
    ((dbg = true ∧ (tcpWrite dbg worldBus sn buf w).1 = .error .panic ∧ w'.chip.sent = w.chip.sent) ∨
     ∃ w1 n, (w1 = w.tick ∨ w1 = w.tick.tick) ∧ (tcpWrite dbg worldBus sn buf w).1 = .ok n ∧
        n.toNat = min buf.length (w1.chip.txFsr k) ∧
        w'.chip.sent = w.chip.sent ++
          if n = 0 then [] else [⟨k, w.chip.destIp k, w.chip.destPort k, buf.take n.toNat⟩]) := by
  rcases tcpWrite_run dbg sn buf w h with ⟨w', hw', hd, e⟩ | ⟨w1, w', n, hw1, e, t⟩
  · intro k w''
    have e2 : w'' = w' := by simp only [w'', e]
    rw [e2]
    refine ⟨(Kept.of_or sn.idx hw').tx h, .inl ⟨hd, by rw [e], ?_⟩⟩
    rcases hw' with rfl | rfl
    · rfl
    · exact tick_sent w
  · intro k w''
    have e2 : w'' = w' := by simp only [w'', e]
    rw [e2]
    exact ⟨t.tx, .inr ⟨w1, n, hw1, by rw [e], t.count, t.sent⟩⟩

/-- Does the transmit side and the log of transmissions stay as they are? -/
def KeepsTx (k : Nat) {α : Type} (m : M World α) : Prop :=
  ∀ w, TxState w.chip k → TxState (m w).2.chip k ∧ (m w).2.chip.sent = w.chip.sent

theorem KeepsTx.bind {k : Nat} {α β : Type} {m : M World α} {f : α → M World β} (hm : KeepsTx k m)
    (hf : ∀ a, KeepsTx k (f a)) : KeepsTx k (m >>= f) := by
  intro w h
  rw [M.bind_run]
  have := hm w h
  rcases e : m w with ⟨e | a, w'⟩
  · rw [e] at this; exact this
  · rw [e] at this
    obtain ⟨h1, h2⟩ := hf a w' this.1
    exact ⟨h1, h2.trans this.2⟩

theorem KeepsTx.pure {k : Nat} {α : Type} (a : α) : KeepsTx k (Pure.pure a : M World α) := fun _ h => ⟨h, rfl⟩

theorem KeepsTx.of_tick {k : Nat} {α : Type} {m : M World α} (hm : ∀ w, (m w).2 = w ∨ (m w).2 = w.tick) : KeepsTx k m := by
  intro w h
  rcases hm w with e | e
  · rw [e]; exact ⟨h, rfl⟩
  · rw [e]; exact ⟨h.tick, tick_sent w⟩

theorem setReg_tx {c : Chip} {k v a : Nat} (ha : 0x26 ≤ a) (h : TxState c k) : TxState (c.setReg k a v) k := by
  have hs : ∀ x, x < 0x26 → (c.setReg k a v).mem (4 * k + 1) x = c.mem (4 * k + 1) x :=
    fun x hx => Mem.setWord_ne _ _ _ _ _ _ (by omega)
  have e1 : (c.setReg k a v).txSize k = c.txSize k := by unfold Chip.txSize; rw [hs _ (by omega)]
  have e2 : (c.setReg k a v).txRd k = c.txRd k := by unfold Chip.txRd Mem.word; rw [hs _ (by omega), hs _ (by omega)]
  have e3 : (c.setReg k a v).txWr k = c.txWr k := by unfold Chip.txWr Mem.word; rw [hs _ (by omega), hs _ (by omega)]
  have e4 : (c.setReg k a v).txFsr k = c.txFsr k := by unfold Chip.txFsr Mem.word; rw [hs _ (by omega), hs _ (by omega)]
  exact ⟨by rw [e1]; exact h.size_dvd, by rw [e1]; exact h.size_lt, by rw [e2, e3]; exact h.idle,
    by rw [e1, e4]; exact h.fsr_le⟩

theorem KeepsTx.setSnRxRd (sn : Sn) (v : UInt16) : KeepsTx sn.idx (worldBus.setSnRxRd sn v) := by
  intro w h
  rw [run_setSnRxRd]
  exact ⟨setReg_tx (by omega) h.tick, tick_sent w⟩

theorem KeepsTx.recv (sn : Sn) : KeepsTx sn.idx (worldBus.setSnCr sn .recv) := by
  intro w h
  rw [run_setSnCr]
  exact ⟨setReg_tx (by omega) h.tick, tick_sent w⟩

theorem tcpRead_tx (dbg : Bool) (sn : Sn) (n : Nat) : KeepsTx sn.idx (tcpRead dbg worldBus sn n) := by
  unfold tcpRead
  refine .bind (.of_tick fun w => ?_) fun _ => .bind (.of_tick fun w => .inr (by rw [run_snRxRsr])) fun rsr => ?_
  · obtain ⟨w', hw, h | ⟨_, h⟩⟩ := run_debugAssert dbg _ w (run_notUdpInitMacraw sn w)
    · rw [h]; exact hw
    · rw [h]; exact hw
  · show KeepsTx _ (if _ then _ else _ : M World _)
    split
    · refine .bind (.of_tick fun w => .inr (by rw [run_snRxRd])) fun _ => .bind (.of_tick fun w => .inr ?_) fun _ =>
        .bind (.setSnRxRd _ _) fun _ => .bind (.recv _) fun _ => .pure _
      rfl
    · exact .pure _

/-- C12 and C13 at once, by induction over the history. -/
theorem history (dbg : Bool) (fuel : Nat) (sn : Sn) (steps : List TcpStep)
    (hother : ∀ sn' c, TcpStep.other sn' c ∈ steps → sn' ≠ sn) :
    ∀ (w : World) (p base : Nat), RxAt w.chip sn.idx base p → TxState w.chip sn.idx →
      let out := runTcp dbg fuel sn steps w
      RxAt out.2.chip sn.idx base (p + out.1.reads.flatten.length) ∧ TxState out.2.chip sn.idx ∧
      w.chip.received sn.idx <+: out.2.chip.received sn.idx ∧
      out.1.reads.flatten = ((out.2.chip.received sn.idx).drop p).take out.1.reads.flatten.length ∧
      out.2.chip.sentStream sn.idx = w.chip.sentStream sn.idx ++ out.1.writes.flatten := by
  induction steps with
  | nil =>
    intro w p base h1 h2
    exact ⟨h1, h2, List.prefix_rfl, by simp [runTcp], by simp [runTcp]⟩
  | cons st rest ih =>
    have ih := ih (fun sn' c hm => hother sn' c (List.mem_cons_of_mem _ hm))
    intro w p base h1 h2
    have hsame : ∀ w' : World, w'.chip.sent.filter (·.sock = sn.idx) = w.chip.sent.filter (·.sock = sn.idx) →
        w'.chip.sentStream sn.idx = w.chip.sentStream sn.idx := by
      intro w' h; unfold Chip.sentStream; rw [h]
    cases st with
    | read n =>
      rcases tcpRead_rx dbg sn n w base p h1 with ⟨w', e, hd, hr, hp⟩ | ⟨w1, w', x, hw1, e, hx, hr, hp⟩
      · have htx := tcpRead_tx dbg sn n w h2
        rw [e] at htx
        obtain ⟨a1, a2, a3, a4, a5⟩ := ih w' p base hr htx.1
        have hs := hsame w' (by rw [htx.2])
        simp only [runTcp, e]
        rw [hs] at a5
        exact ⟨a1, a2, hp.trans a3, a4, a5⟩
      · have htx := tcpRead_tx dbg sn n w h2
        rw [e] at htx
        obtain ⟨a1, a2, a3, a4, a5⟩ := ih w' (p + x.length) base hr htx.1
        have hs := hsame w' (by rw [htx.2])
        rw [hs] at a5
        have hxl : x.length ≤ 65535 := by rw [hx, List.length_take]; omega
        have htake : x.take (UInt16.ofNat x.length).toNat = x := by
          rw [ofNat16_toNat (by omega), List.take_length]
        have hpre1 : w1.chip.received sn.idx <+: w'.chip.received sn.idx := hp
        have hpre : w.chip.received sn.idx <+: w'.chip.received sn.idx := by
          refine List.IsPrefix.trans ?_ hpre1
          rcases hw1 with rfl | rfl
          · exact tick_received_prefix w _
          · exact (tick_received_prefix w _).trans (tick_received_prefix w.tick _)
        simp only [runTcp, e, htake, List.flatten_cons, List.length_append]
        refine ⟨by rw [← Nat.add_assoc]; exact a1, a2, hpre.trans a3, ?_, a5⟩
        have hle : p + x.length ≤ (w1.chip.received sn.idx).length ∨ x = [] := by
          by_cases h0 : x = []
          · exact .inr h0
          · left
            have : x.length ≤ ((w1.chip.received sn.idx).drop p).length := by
              rw [hx, List.length_take]; omega
            rw [List.length_drop] at this
            have h3 : x.length ≠ 0 := fun h => h0 (List.length_eq_zero_iff.mp h)
            omega
        rcases hle with hle | rfl
        · have hx' : x = ((w1.chip.received sn.idx).drop p).take x.length :=
            List.prefix_iff_eq_take.mp (by rw [hx]; exact List.take_prefix _ _)
          rw [List.take_add, List.drop_drop, ← a4, ← take_drop_prefix (hpre1.trans a3) p x.length hle, ← hx']
        · simpa using a4
    | write buf =>
      rcases tcpWrite_run dbg sn buf w h2 with ⟨w', hw', hd, e⟩ | ⟨w1, w', n, hw1, e, t⟩
      · have k := Kept.of_or sn.idx hw'
        obtain ⟨a1, a2, a3, a4, a5⟩ := ih w' p base (k.rx _ _ h1) (k.tx h2)
        rw [hsame w' k.sent] at a5
        simp only [runTcp, e]
        exact ⟨a1, a2, k.pre.trans a3, a4, a5⟩
      · obtain ⟨a1, a2, a3, a4, a5⟩ := ih w' p base (t.rx _ _ h1) t.tx
        simp only [runTcp, e]
        refine ⟨a1, a2, t.pre.trans a3, a4, ?_⟩
        rw [a5, List.flatten_cons, ← List.append_assoc]
        congr 1
        unfold Chip.sentStream
        rw [t.sent]
        by_cases hz : n = 0
        · rw [if_pos hz, hz]; simp
        · rw [if_neg hz]; simp
    | other sn' c =>
      have k := kept_other dbg fuel sn sn' (hother sn' c List.mem_cons_self) c w
      obtain ⟨a1, a2, a3, a4, a5⟩ := ih _ p base (k.rx _ _ h1) (k.tx h2)
      rw [hsame _ k.sent] at a5
      exact ⟨a1, a2, k.pre.trans a3, a4, a5⟩

/-- C12: from any state in which the receive side is consistent with `p` bytes consumed (a freshly
opened socket has `p = 0`), for every history of reads of any sizes, writes and calls on other sockets,
with arrivals at any point, the bytes returned by the reads followed by the bytes still in the buffer are
exactly the bytes received from the network from the `p`-th on. -/
theorem C12_reads_in_order (dbg : Bool) (fuel : Nat) (sn : Sn) (steps : List TcpStep)
    (hother : ∀ sn' c, TcpStep.other sn' c ∈ steps → sn' ≠ sn) (w : World) (p : Nat)
    (hr : RxState w.chip sn.toU8.toNat p) (ht : TxState w.chip sn.toU8.toNat) :
    let out := runTcp dbg fuel sn steps w
    out.1.reads.flatten ++ out.2.chip.unread sn.toU8.toNat = (out.2.chip.received sn.toU8.toNat).drop p ∧
    w.chip.received sn.toU8.toNat <+: out.2.chip.received sn.toU8.toNat := by
  change RxState w.chip sn.idx p at hr
  obtain ⟨base, hb⟩ := hr.at
  obtain ⟨h1, _, h3, h4, _⟩ := history dbg fuel sn steps hother w p base hb ht
  refine ⟨?_, h3⟩
  show _ ++ Chip.unread _ sn.idx = _
  rw [h1.state.data, ← List.drop_drop]
  conv => lhs; arg 1; rw [h4]
  exact List.take_append_drop _ _

/-- C12: in particular, one `tcp_read` of `n ≤ 65535` bytes with `D` unread returns the first `n` bytes
of `D` (all of `D` if it is shorter), and it only fails by panicking in a debug build. -/
theorem C12_tcp_read (dbg : Bool) (sn : Sn) (n p : Nat) (chip : Chip) (hr : RxState chip sn.toU8.toNat p) :
    let out := tcpRead dbg worldBus sn n ⟨chip, []⟩
    let x := (chip.unread sn.toU8.toNat).take (min n 65535)
    (dbg = true ∧ out.1 = .error .panic ∧ RxState out.2.chip sn.toU8.toNat p) ∨
    (out.1 = .ok (UInt16.ofNat x.length, x) ∧ RxState out.2.chip sn.toU8.toNat (p + x.length) ∧
      chip.received sn.toU8.toNat <+: out.2.chip.received sn.toU8.toNat) := by
  change RxState chip sn.idx p at hr
  obtain ⟨base, hb⟩ := hr.at
  intro out x
  have hx0 : x = ((chip.received sn.idx).drop p).take (min n 65535) := by
    show (chip.unread sn.idx).take _ = _
    rw [hr.data]
  rcases tcpRead_rx dbg sn n ⟨chip, []⟩ base p hb with ⟨w', e, hd, hr, hp⟩ | ⟨w1, w', y, hw1, e, hx, hr, hp⟩
  · left
    simp only [out, e]
    exact ⟨hd, trivial, hr.state⟩
  · right
    have hy : y = x := by
      rw [hx0, hx]
      rcases hw1 with rfl | rfl <;> rfl
    rw [hy] at e hr
    simp only [out, e]
    refine ⟨trivial, hr.state, ?_⟩
    rcases hw1 with rfl | rfl <;> exact hp

/-- C13: for every history as above, the stream handed to the network for the socket grows by exactly the
concatenation of the accepted prefixes. -/
theorem C13_writes_in_order (dbg : Bool) (fuel : Nat) (sn : Sn) (steps : List TcpStep)
    (hother : ∀ sn' c, TcpStep.other sn' c ∈ steps → sn' ≠ sn) (w : World) (p : Nat)
    (hr : RxState w.chip sn.toU8.toNat p) (ht : TxState w.chip sn.toU8.toNat) :
    let out := runTcp dbg fuel sn steps w
    out.2.chip.sentStream sn.toU8.toNat = w.chip.sentStream sn.toU8.toNat ++ out.1.writes.flatten := by
  change RxState w.chip sn.idx p at hr
  obtain ⟨base, hb⟩ := hr.at
  exact (history dbg fuel sn steps hother w p base hb ht).2.2.2.2

/-- Does `m` leave the buffer sizes of socket `k` as they are? -/
def KeepsSize (k : Nat) {α : Type} (m : M World α) : Prop :=
  ∀ w, (m w).2.chip.rxSize k = w.chip.rxSize k ∧ (m w).2.chip.txSize k = w.chip.txSize k

theorem KeepsSize.bind {k : Nat} {α β : Type} {m : M World α} {f : α → M World β} (hm : KeepsSize k m)
    (hf : ∀ a, KeepsSize k (f a)) : KeepsSize k (m >>= f) := by
  intro w
  rw [M.bind_run]
  have := hm w
  rcases e : m w with ⟨e | a, w'⟩
  · rw [e] at this; exact this
  · rw [e] at this
    obtain ⟨h1, h2⟩ := hf a w'
    exact ⟨h1.trans this.1, h2.trans this.2⟩

theorem KeepsSize.of_tick {k : Nat} {α : Type} {m : M World α} (hm : ∀ w, (m w).2 = w ∨ (m w).2 = w.tick) : KeepsSize k m := by
  intro w
  rcases hm w with e | e
  · rw [e]; exact ⟨rfl, rfl⟩
  · rw [e]; exact ⟨tick_rxSize w k, tick_txSize w k⟩

/-- Only lets the environment act. -/
def ReadOnly {α : Type} (m : M World α) : Prop := ∀ w, ∃ j, (m w).2 = World.ticks j w

theorem ReadOnly.bind {α β : Type} {m : M World α} {f : α → M World β} (hm : ReadOnly m)
    (hf : ∀ a, ReadOnly (f a)) : ReadOnly (m >>= f) := by
  intro w
  rw [M.bind_run]
  obtain ⟨j, hj⟩ := hm w
  rcases e : m w with ⟨e | a, w'⟩
  · rw [e] at hj; exact ⟨j, hj⟩
  · rw [e] at hj
    obtain ⟨i, hi⟩ := hf a w'
    exact ⟨j + i, by rw [← ticks_add, ← hj]; exact hi⟩

theorem ReadOnly.pure {α : Type} (a : α) : ReadOnly (Pure.pure a : M World α) := fun _ => ⟨0, rfl⟩
theorem ReadOnly.throw {α : Type} (e : Err) : ReadOnly (M.throw e : M World α) := fun _ => ⟨0, rfl⟩
theorem ReadOnly.tick {α : Type} {m : M World α} (hm : ∀ w, (m w).2 = w.tick) : ReadOnly m := fun w => ⟨1, hm w⟩
theorem ReadOnly.ite {α : Type} {c : Prop} [Decidable c] {m n : M World α} (hm : ReadOnly m) (hn : ReadOnly n) :
    ReadOnly (if c then m else n) := by split <;> assumption

theorem readOnly_debugAssert (dbg : Bool) {m : M World Bool} (hm : ReadOnly m) : ReadOnly (debugAssert dbg m) := by
  unfold debugAssert
  exact .ite (.bind hm fun _ => .ite (.pure _) (.throw _)) (.pure _)

theorem readOnly_portIsUnique (sn : Sn) (port : UInt16) : ReadOnly (portIsUnique worldBus sn port) := by
  unfold portIsUnique
  generalize sockets.filter (· ≠ sn) = l
  induction l with
  | nil => exact .pure _
  | cons s rest ih =>
    exact .bind (.tick fun w => by rw [run_snPort]) fun _ => .ite
      (.bind (.tick fun w => by rw [run_snSr]) fun _ => .ite ih (.pure _)) ih

theorem readOnly_waitStatus (sn : Sn) (st : SocketStatus) (fuel : Nat) : ReadOnly (waitStatus worldBus sn st fuel) := by
  induction fuel with
  | zero => exact .throw _
  | succ n ih => exact .bind (.tick fun w => by rw [run_snSr]) fun _ => .ite (.pure _) ih

theorem ticks_size (k j : Nat) (w : World) :
    (World.ticks j w).chip.rxSize k = w.chip.rxSize k ∧ (World.ticks j w).chip.txSize k = w.chip.txSize k := by
  induction j generalizing w with
  | zero => exact ⟨rfl, rfl⟩
  | succ n ih =>
    obtain ⟨h1, h2⟩ := ih w.tick
    exact ⟨h1.trans (tick_rxSize w k), h2.trans (tick_txSize w k)⟩

theorem ReadOnly.keepsSize {α : Type} {m : M World α} (h : ReadOnly m) (k : Nat) : KeepsSize k m := by
  intro w; obtain ⟨j, hj⟩ := h w; rw [hj]; exact ticks_size k j w

theorem txState_ticks {w : World} {k : Nat} (h : TxState w.chip k) (j : Nat) : TxState (World.ticks j w).chip k := by
  induction j generalizing w with
  | zero => exact h
  | succ n ih => exact ih h.tick

/-- The state of a freshly opened socket, preserved. -/
def KeepsFresh (k : Nat) {α : Type} (m : M World α) : Prop :=
  ∀ w base, RxAt w.chip k base 0 → TxState w.chip k → RxAt (m w).2.chip k base 0 ∧ TxState (m w).2.chip k

theorem KeepsFresh.bind {k : Nat} {α β : Type} {m : M World α} {f : α → M World β} (hm : KeepsFresh k m)
    (hf : ∀ a, KeepsFresh k (f a)) : KeepsFresh k (m >>= f) := by
  intro w base h1 h2
  rw [M.bind_run]
  have := hm w base h1 h2
  rcases e : m w with ⟨e | a, w'⟩
  · rw [e] at this; exact this
  · rw [e] at this; exact hf a w' base this.1 this.2

theorem ReadOnly.keepsFresh {α : Type} {m : M World α} (h : ReadOnly m) (k : Nat) : KeepsFresh k m := by
  intro w base h1 h2; obtain ⟨j, hj⟩ := h w; rw [hj]; exact ⟨h1.ticks j, txState_ticks h2 j⟩

theorem setStatus_size (c : Chip) (k j : Nat) (s : UInt8) :
    (c.setStatus k s).rxSize j = c.rxSize j ∧ (c.setStatus k s).txSize j = c.txSize j := by
  unfold Chip.setStatus Chip.rxSize Chip.txSize Mem.store
  simp

theorem setStatus_fresh {c : Chip} {k base : Nat} (s : UInt8) (h1 : RxAt c k base 0) (h2 : TxState c k) :
    RxAt (c.setStatus k s) k base 0 ∧ TxState (c.setStatus k s) k := by
  have hs : ∀ b x, x ≠ 3 ∨ b ≠ 4 * k + 1 → (c.setStatus k s).mem b x = c.mem b x := by
    intro b x hx
    unfold Chip.setStatus Mem.store
    simp only
    rw [if_neg (by omega)]
  refine ⟨h1.congr (fun a ha => hs _ _ (by omega)) (fun a => hs _ _ (by omega)) rfl, ?_⟩
  have e1 : (c.setStatus k s).txSize k = c.txSize k := by unfold Chip.txSize; rw [hs _ _ (by omega)]
  have e2 : (c.setStatus k s).txRd k = c.txRd k := by unfold Chip.txRd Mem.word; rw [hs _ _ (by omega), hs _ _ (by omega)]
  have e3 : (c.setStatus k s).txWr k = c.txWr k := by unfold Chip.txWr Mem.word; rw [hs _ _ (by omega), hs _ _ (by omega)]
  have e4 : (c.setStatus k s).txFsr k = c.txFsr k := by unfold Chip.txFsr Mem.word; rw [hs _ _ (by omega), hs _ _ (by omega)]
  exact ⟨by rw [e1]; exact h2.size_dvd, by rw [e1]; exact h2.size_lt, by rw [e2, e3]; exact h2.idle,
    by rw [e1, e4]; exact h2.fsr_le⟩

theorem cmdOpen_fresh (c : Chip) (k : Nat) (h1 : 65536 % c.rxSize k = 0) (h2 : c.rxSize k < 65536)
    (h3 : 65536 % c.txSize k = 0) (h4 : c.txSize k < 65536) :
    RxState (c.cmdOpen k) k 0 ∧ TxState (c.cmdOpen k) k := by
  have e1 : (c.cmdOpen k).rxSize k = c.rxSize k := by
    simp [Chip.cmdOpen, Chip.setStatus, Chip.resetReceived, Chip.setReg, Chip.rxSize, Mem.setWord, Mem.store]
  have e2 : (c.cmdOpen k).txSize k = c.txSize k := by
    simp [Chip.cmdOpen, Chip.setStatus, Chip.resetReceived, Chip.setReg, Chip.txSize, Mem.setWord, Mem.store]
  have w1 : (c.cmdOpen k).rxRsr k = 0 := by
    simp [Chip.cmdOpen, Chip.setStatus, Chip.resetReceived, Chip.setReg, Chip.rxRsr, Mem.word, Mem.setWord, Mem.store]
  have w2 : (c.cmdOpen k).rxRd k = 0 := by
    simp [Chip.cmdOpen, Chip.setStatus, Chip.resetReceived, Chip.setReg, Chip.rxRd, Mem.word, Mem.setWord, Mem.store]
  have w3 : (c.cmdOpen k).rxWr k = 0 := by
    simp [Chip.cmdOpen, Chip.setStatus, Chip.resetReceived, Chip.setReg, Chip.rxWr, Mem.word, Mem.setWord, Mem.store]
  have w4 : (c.cmdOpen k).txRd k = 0 := by
    simp [Chip.cmdOpen, Chip.setStatus, Chip.resetReceived, Chip.setReg, Chip.txRd, Mem.word, Mem.setWord, Mem.store]
  have w5 : (c.cmdOpen k).txWr k = 0 := by
    simp [Chip.cmdOpen, Chip.setStatus, Chip.resetReceived, Chip.setReg, Chip.txWr, Mem.word, Mem.setWord, Mem.store]
  have w6 : (c.cmdOpen k).txFsr k = c.txSize k := by
    have : (c.cmdOpen k).txFsr k = c.txSize k % 65536 := by
      simp only [Chip.cmdOpen, Chip.setStatus, Chip.resetReceived, Chip.setReg, Chip.txFsr]
      unfold Mem.word
      simp [Mem.setWord, Mem.store]
      omega
    rw [this]; omega
  have w7 : (c.cmdOpen k).received k = [] := by
    simp [Chip.cmdOpen, Chip.setStatus, Chip.resetReceived]
  refine ⟨⟨by rw [e1]; exact h1, by rw [e1]; exact h2, by rw [w1]; omega, by rw [w1, w2, w3], by omega, ?_⟩,
    ⟨by rw [e2]; exact h3, by rw [e2]; exact h4, by rw [w4, w5], by rw [w6, e2]; omega⟩⟩
  rw [w7]
  unfold Chip.unread
  rw [w1]; rfl

/-- The part of a call up to and including OPEN. -/
theorem open_ok {k : Nat} {α : Type} {pre : M World Unit} {sn : Sn} {post : M World α} (hk : k = sn.idx)
    (hpre : KeepsSize k pre) (hpost : KeepsFresh k post) (w : World) (x : α) (w' : World)
    (h1 : 65536 % w.chip.rxSize k = 0) (h2 : w.chip.rxSize k < 65536)
    (h3 : 65536 % w.chip.txSize k = 0) (h4 : w.chip.txSize k < 65536)
    (h : (pre >>= fun _ => worldBus.setSnCr sn .«open» >>= fun _ => post) w = (.ok x, w')) :
    RxState w'.chip k 0 ∧ TxState w'.chip k := by
  subst hk
  rw [M.bind_run] at h
  have hs := hpre w
  rcases e : pre w with ⟨e | a, w1⟩
  · rw [e] at h; simp at h
  · rw [e] at h hs
    simp only at h hs
    rw [M.bind_ok (run_setSnCr sn .«open» w1)] at h
    have hc : w1.tick.chip.command sn.idx SocketCommand.«open».code = w1.tick.chip.cmdOpen sn.idx := rfl
    rw [hc] at h
    have hf := cmdOpen_fresh w1.tick.chip sn.idx (by rw [tick_rxSize, hs.1]; exact h1) (by rw [tick_rxSize, hs.1]; exact h2)
      (by rw [tick_txSize, hs.2]; exact h3) (by rw [tick_txSize, hs.2]; exact h4)
    obtain ⟨base, hb⟩ := hf.1.at
    have := hpost { w1.tick with chip := w1.tick.chip.cmdOpen sn.idx } base hb hf.2
    rw [h] at this
    exact ⟨this.1.state, this.2⟩

theorem keepsSize_setStatusCmd (sn : Sn) (v : SocketCommand) (s : UInt8)
    (h : ∀ c : Chip, c.command sn.idx v.code = c.setStatus sn.idx s) : KeepsSize sn.idx (worldBus.setSnCr sn v) := by
  intro w
  rw [run_setSnCr, h]
  have := setStatus_size w.tick.chip sn.idx sn.idx s
  simp only
  rw [this.1, this.2]
  exact ⟨tick_rxSize w _, tick_txSize w _⟩

theorem keepsSize_setSnMr (sn : Sn) (v : SocketMode) : KeepsSize sn.idx (worldBus.setSnMr sn v) := by
  intro w
  rw [run_setSnMr]
  constructor
  · rw [← tick_rxSize w]; simp [Chip.rxSize, Mem.store]
  · rw [← tick_txSize w]; simp [Chip.txSize, Mem.store]

theorem keepsSize_setSnPort (sn : Sn) (v : UInt16) : KeepsSize sn.idx (worldBus.setSnPort sn v) := by
  intro w
  rw [run_setSnPort]
  constructor
  · rw [← tick_rxSize w]; simp [Chip.setReg, Chip.rxSize, Mem.setWord, Mem.store]
  · rw [← tick_txSize w]; simp [Chip.setReg, Chip.txSize, Mem.setWord, Mem.store]

theorem keepsFresh_cmd (sn : Sn) (v : SocketCommand) (s : UInt8)
    (h : ∀ c : Chip, c.command sn.idx v.code = c.setStatus sn.idx s ∨ c.command sn.idx v.code = c) :
    KeepsFresh sn.idx (worldBus.setSnCr sn v) := by
  intro w base h1 h2
  rw [run_setSnCr]
  rcases h w.tick.chip with e | e
  · rw [e]; exact setStatus_fresh s h1.tick h2.tick
  · rw [e]; exact ⟨h1.tick, h2.tick⟩

theorem keepsSize_open_prefix (dbg : Bool) (fuel : Nat) (sn : Sn) (port : UInt16) (mode : SocketMode) :
    KeepsSize sn.idx (do
      debugAssert dbg (portIsUnique worldBus sn port)
      worldBus.setSnCr sn .close
      waitStatus worldBus sn .closed fuel
      worldBus.setSnMr sn mode
      worldBus.setSnPort sn port) :=
  .bind ((readOnly_debugAssert dbg (readOnly_portIsUnique sn port)).keepsSize _) fun _ =>
  .bind (keepsSize_setStatusCmd sn .close 0x00 fun _ => rfl) fun _ =>
  .bind ((readOnly_waitStatus _ _ _).keepsSize _) fun _ => .bind (keepsSize_setSnMr _ _) fun _ => keepsSize_setSnPort _ _

theorem keepsFresh_setSnDest (sn : Sn) (addr : SockAddr) : KeepsFresh sn.idx (worldBus.setSnDest sn addr) := by
  intro w base h1 h2
  rw [run_setSnDest]
  exact ⟨setDest_rx addr h1.tick, setDest_tx addr h2.tick⟩

/-- The calls that open a socket. -/
inductive OpenCall where
  | connect (port : UInt16) (addr : SockAddr)
  | listen (port : UInt16)
  | bind (port : UInt16)

def OpenCall.exec (dbg : Bool) (fuel : Nat) (sn : Sn) : OpenCall → M World Unit
  | .connect port addr => tcpConnect dbg fuel worldBus sn port addr
  | .listen port => tcpListen dbg fuel worldBus sn port
  | .bind port => udpBind dbg fuel worldBus sn port

/-- C12, C13: the hypotheses on the receive and transmit side hold, with nothing consumed, whenever
`tcp_connect`, `tcp_listen` or `udp_bind` has returned successfully, provided the configured buffer
sizes divide 64 KiB (1, 2, 4, 8 or 16 KiB). -/
theorem C12_open_establishes (dbg : Bool) (fuel : Nat) (sn : Sn) (c : OpenCall) (w w' : World)
    (h1 : 65536 % w.chip.rxSize sn.toU8.toNat = 0) (h2 : w.chip.rxSize sn.toU8.toNat < 65536)
    (h3 : 65536 % w.chip.txSize sn.toU8.toNat = 0) (h4 : w.chip.txSize sn.toU8.toNat < 65536)
    (h : c.exec dbg fuel sn w = (.ok (), w')) :
    RxState w'.chip sn.toU8.toNat 0 ∧ TxState w'.chip sn.toU8.toNat := by
  cases c with
  | connect port addr =>
    refine open_ok (sn := sn) rfl (keepsSize_open_prefix dbg fuel sn port (SocketMode.default.setProtocol .tcp))
      (post := worldBus.setSnDest sn addr >>= fun _ => waitStatus worldBus sn .init fuel >>= fun _ =>
        worldBus.setSnCr sn .connect) ?_ w () w' h1 h2 h3 h4 ?_
    · exact .bind (keepsFresh_setSnDest sn addr) fun _ => .bind ((readOnly_waitStatus _ _ _).keepsFresh _) fun _ =>
        keepsFresh_cmd sn .connect 0x15 fun c => by
          show (if c.status sn.idx = 0x13 then c.setStatus sn.idx 0x15 else c) = _ ∨
            (if c.status sn.idx = 0x13 then c.setStatus sn.idx 0x15 else c) = _
          split <;> simp
    · simp only [bind_assoc]; exact h
  | listen port =>
    refine open_ok (sn := sn) rfl (keepsSize_open_prefix dbg fuel sn port (SocketMode.default.setProtocol .tcp))
      (post := waitStatus worldBus sn .init fuel >>= fun _ => worldBus.setSnCr sn .listen) ?_ w () w' h1 h2 h3 h4 ?_
    · exact .bind ((readOnly_waitStatus _ _ _).keepsFresh _) fun _ =>
        keepsFresh_cmd sn .listen 0x14 fun c => by
          show (if c.status sn.idx = 0x13 then c.setStatus sn.idx 0x14 else c) = _ ∨
            (if c.status sn.idx = 0x13 then c.setStatus sn.idx 0x14 else c) = _
          split <;> simp
    · simp only [bind_assoc]; exact h
  | bind port =>
    refine open_ok (sn := sn) rfl (pre := do
        debugAssert dbg (portIsUnique worldBus sn port)
        worldBus.setSnCr sn .close
        waitStatus worldBus sn .closed fuel
        worldBus.setSnPort sn port
        worldBus.setSnMr sn (SocketMode.default.setProtocol .udp))
      (.bind ((readOnly_debugAssert dbg (readOnly_portIsUnique sn port)).keepsSize _) fun _ =>
        .bind (keepsSize_setStatusCmd sn .close 0x00 fun _ => rfl) fun _ =>
        .bind ((readOnly_waitStatus _ _ _).keepsSize _) fun _ => .bind (keepsSize_setSnPort _ _) fun _ => keepsSize_setSnMr _ _)
      (post := waitStatus worldBus sn .udp fuel) ((readOnly_waitStatus _ _ _).keepsFresh _) w () w' h1 h2 h3 h4 ?_
    simp only [bind_assoc]; exact h

/-- A chip after reset (2 KiB buffers), with the socket opened by `tcp_listen` and 5 bytes arriving later. -/
def sampleWorld : World :=
  { chip := { mem := fun b a => if b % 4 = 1 ∧ (a = 0x1E ∨ a = 0x1F) then 2 else 0, sent := [], received := fun _ => [] }
    sched := [[], [], [], [], [], [], [], [.status 3 0x17, .arrive 3 [1, 2, 3]], [], [.arrive 3 [4, 5]]] }

example : (OpenCall.exec false 3 .sn3 (.listen 80) sampleWorld).1 = .ok () ∧
    (runTcp false 0 .sn3 [.read 2, .write [9, 8], .other .sn1 (.udpSend [7]), .read 100]
      (OpenCall.exec false 3 .sn3 (.listen 80) sampleWorld).2).1.reads = [[1, 2], [3, 4, 5]] := by
  decide +kernel

/-- `sampleWorld` after `tcp_listen`. -/
def opened : World := (OpenCall.exec false 3 .sn3 (.listen 80) sampleWorld).2

/-- The hypotheses of C10 to C13 hold of it. -/
theorem opened_state : RxState opened.chip 3 0 ∧ TxState opened.chip 3 := by
  have e : OpenCall.exec false 3 .sn3 (.listen 80) sampleWorld = (.ok (), opened) := by
    have : (OpenCall.exec false 3 .sn3 (.listen 80) sampleWorld).1 = .ok () := by decide +kernel
    exact Prod.ext this rfl
  exact C12_open_establishes false 3 .sn3 (.listen 80) sampleWorld opened (by decide +kernel) (by decide +kernel)
    (by decide +kernel) (by decide +kernel) e

example : (tcpReader false worldBus .sn3 opened).1.toOption.isSome ∧
    ((tcpReader false worldBus .sn3 opened).2.chip.unread 3 = [1, 2, 3]) := by decide +kernel
example : (socketWriter worldBus .sn3 opened).1.toOption.isSome := by decide +kernel
example : (tcpRead false worldBus .sn3 2 ⟨opened.tick.chip, []⟩).1 = .ok (2, [1, 2]) := by decide +kernel
example : (tcpWrite false worldBus .sn3 [9, 8, 7] opened).1 = .ok 3 := by decide +kernel

end Verif.Thm

import Verif.Proof.UdpRx
import Verif.Proof.ClosedProg
import Verif.Proof.Prog
import Verif.Proof.Datagrams
/-!
# Using one UDP reader for several programs
-/
namespace Verif
open Hl Spec

/-- The reader `u` on socket `sn` is at position `pos` of the datagram with payload `d`, which is the first one in the
queue, `p` bytes having been consumed before. -/
structure UR (w : World) (u : UdpReader) (sn : Sn) (d : Bytes) (pos base p : Nat) : Prop where
  rel : RdRel (w, u.inner) ⟨d, pos⟩ base p (p + 8)
  sn_eq : u.inner.sn = sn
  len : u.header.len.toNat = d.length

/-- `w'` is `w` some bus accesses later, without any write. -/
def Later (w w' : World) : Prop := ∃ j, w' = World.ticks j w

theorem Later.refl (w : World) : Later w w := ⟨0, rfl⟩
theorem Later.trans {a b c : World} (h1 : Later a b) (h2 : Later b c) : Later a c := by
  obtain ⟨i, rfl⟩ := h1
  obtain ⟨j, rfl⟩ := h2
  exact ⟨i + j, ticks_add i j a⟩
theorem Later.tick (w : World) : Later w w.tick := ⟨1, rfl⟩
theorem Later.of_or {w w' : World} (h : w' = w ∨ w' = w.tick) : Later w w' := ticks_or h

theorem later_snRxBuf (sn : Sn) (p : UInt16) (n : Nat) (w : World) : Later w (worldBus.snRxBuf sn p n w).2 := ⟨1, rfl⟩

theorem later_rprog {α : Type} (prog : RProg α) (w : World) (r : Ptrs) : Later w (prog.run (tcpReaderOps worldBus) (w, r)).2.1 :=
  rprog_rel Later.refl (fun _ _ _ => Later.trans) later_snRxBuf prog w r

theorem UR.later {w w' : World} {u : UdpReader} {sn : Sn} {d : Bytes} {pos base p : Nat} (h : UR w u sn d pos base p)
    (hl : Later w w') : UR w' u sn d pos base p := by
  obtain ⟨j, rfl⟩ := hl
  induction j generalizing w with
  | zero => exact h
  | succ j ih => exact ih ⟨h.rel.tick, h.sn_eq, h.len⟩

/-- A program run on the reader is the program run on the payload. -/
theorem UR.run {α : Type} {w : World} {u : UdpReader} {sn : Sn} {d : Bytes} {pos base p : Nat} (h : UR w u sn d pos base p)
    (prog : RProg α) :
    match prog.run cursorOps ⟨d, pos⟩ with
    | (.ok a, c) => ∃ w' u', onUdpReader worldBus u prog w = (.ok (a, u'), w') ∧ Later w w' ∧ UR w' u' sn d c.pos base p
    | (.error e, _) => ∃ w', onUdpReader worldBus u prog w = (.error e, w') ∧ Later w w' := by
  obtain ⟨g1, g2⟩ := prog_sim prog h.rel
  have hl := later_rprog prog w u.inner
  have hsn := prog_sn (b := worldBus) prog w u.inner
  have hcd := prog_cursor_data prog ⟨d, pos⟩
  have hr := udpReader_run_any (b := worldBus) prog w u
  rcases hc : prog.run cursorOps ⟨d, pos⟩ with ⟨e | a, c⟩ <;> rw [hc] at g1 g2 hcd <;> unfold onUdpReader <;> rw [hr] <;>
    rcases ht : prog.run (tcpReaderOps worldBus) (w, u.inner) with ⟨r, w', p'⟩ <;> rw [ht] at g1 g2 hl hsn <;>
    simp only at g1 hsn <;> rw [g1]
  · exact ⟨w', rfl, hl⟩
  · refine ⟨w', _, rfl, hl, ⟨?_, hsn.trans h.sn_eq, h.len⟩⟩
    have : c = ⟨d, c.pos⟩ := by cases c; simp only at hcd; rw [hcd]
    rw [this] at g2; exact g2

theorem UR.run_ok {α : Type} {w : World} {u : UdpReader} {sn : Sn} {d : Bytes} {pos base p : Nat} (h : UR w u sn d pos base p)
    {prog : RProg α} {a : α} {pos' : Nat} (hp : prog.run cursorOps ⟨d, pos⟩ = (.ok a, ⟨d, pos'⟩)) :
    ∃ w' u', onUdpReader worldBus u prog w = (.ok (a, u'), w') ∧ Later w w' ∧ UR w' u' sn d pos' base p := by
  have := h.run prog
  rw [hp] at this
  exact this

theorem UR.run_error {α : Type} {w : World} {u : UdpReader} {sn : Sn} {d : Bytes} {pos base p : Nat} (h : UR w u sn d pos base p)
    {prog : RProg α} {e : Err} {c : Cursor} (hp : prog.run cursorOps ⟨d, pos⟩ = (.error e, c)) :
    ∃ w', onUdpReader worldBus u prog w = (.error e, w') ∧ Later w w' := by
  have := h.run prog
  rw [hp] at this
  exact this

theorem UR.pos_le {w : World} {u : UdpReader} {sn : Sn} {d : Bytes} {pos base p : Nat} (h : UR w u sn d pos base p) : pos ≤ d.length := h.rel.pos

theorem UR.rx {w : World} {u : UdpReader} {sn : Sn} {d : Bytes} {pos base p : Nat} (h : UR w u sn d pos base p) :
    RxAt w.chip sn.idx base p := by
  have := h.rel.rx
  simp only at this
  rw [h.sn_eq] at this
  exact this

/-- `done` consumes the datagram. -/
theorem UR.done {w : World} {u : UdpReader} {sn : Sn} {d : Bytes} {pos base p : Nat} (h : UR w u sn d pos base p) :
    ∃ w', udpReaderDone worldBus u w = (.ok (), w') ∧ RxAt w'.chip sn.idx base (p + (8 + d.length)) ∧
      w.chip.received sn.idx <+: w'.chip.received sn.idx := by
  have hl := h.rel.len
  have ht := h.rel.tail
  simp only at hl ht
  rw [h.sn_eq] at hl
  obtain ⟨w2, e2, h2, h3⟩ := RxAt.consume (w := w) (sn := sn) h.rx.rx u.inner.tail (q := p + (8 + d.length))
    (by rw [ht]; congr 1; omega) (by omega) (by omega)
  refine ⟨w2, ?_, h2, h3⟩
  unfold udpReaderDone
  rw [h.sn_eq]; exact e2

/-- What `udp_reader` does after its assertion. -/
def udpReaderBody (sn : Sn) : M World UdpReader :=
  worldBus.snRxRsr sn >>= fun rsr =>
    if rsr < UdpHeader.LEN then M.throw .wouldBlock
    else worldBus.snRxRd sn >>= fun rd => worldBus.snRxBuf sn rd 8 >>= fun buf =>
      pure ⟨{ sn := sn, head := rd + UdpHeader.LEN, tail := rd + UdpHeader.LEN + min16 (UdpHeader.deser buf).len (rsr - UdpHeader.LEN), ptr := rd + UdpHeader.LEN }, UdpHeader.deser buf⟩

theorem udpReader_body (dbg : Bool) (sn : Sn) :
    udpReader dbg worldBus sn = debugAssert dbg (srIsUdp worldBus sn) >>= fun _ => udpReaderBody sn := rfl

/-- Making a reader when a complete datagram is the first in the queue. -/
theorem udpReaderBody_UR' (sn : Sn) (base p : Nat) (w0 : World) (g : Datagram)
    (hb : RxAt w0.chip sn.idx base p) (hg : g.payload.length < 65536)
    (hpre : udpFrame g.src g.payload <+: (w0.tick.chip.received sn.idx).drop p) :
    ∃ u w1, udpReaderBody sn w0 = (.ok u, w1) ∧ Later w0.tick w1 ∧ UR w1 u sn g.payload 0 base p ∧ u.header.origin = g.src := by
  have hl : (UInt16.ofNat g.payload.length).toNat = g.payload.length := ofNat16_toNat (by omega)
  unfold udpReaderBody
  have h0 := hb.tick
  have hrsr := h0.rsr_toNat
  have hlen := hpre.length_le
  rw [udpFrame_length, List.length_drop] at hlen
  have hfit := h0.rx.fits
  have hsz := h0.rx.size_lt
  rw [M.bind_ok (run_snRxRsr sn w0),
    if_neg (fun hlt => by rw [u16_lt_LEN, hrsr] at hlt; omega), M.bind_ok (run_snRxRd sn w0.tick)]
  obtain ⟨_, hrd, hbuf⟩ := run_header h0 (by omega)
  obtain ⟨t0, ht0⟩ := hpre
  have hpre : udpFrame g.src g.payload <+: (w0.tick.chip.received sn.idx).drop p := ⟨t0, ht0⟩
  rw [← ht0] at hbuf
  rw [M.bind_ok hbuf]
  refine ⟨_, _, rfl, (Later.tick _).trans (.tick _), ?_⟩
  have h1 := h0.tick.tick
  have pre1 := (tick_received_prefix w0.tick sn.idx).trans (tick_received_prefix w0.tick.tick sn.idx)
  obtain ⟨t, ht⟩ := hpre.trans (prefix_drop pre1 p)
  have hdes := deser_frame g.src g.payload t0 hg
  have hhead : (UInt16.ofNat (w0.tick.tick.chip.rxRd sn.idx) + UdpHeader.LEN).toNat = (base + (p + 8)) % 65536 := by
    rw [UInt16.toNat_add, hrd]
    show (_ + 8) % 65536 = _
    omega
  have hlim : min16 (UInt16.ofNat g.payload.length) (UInt16.ofNat (w0.tick.chip.rxRsr sn.idx) - UdpHeader.LEN)
      = UInt16.ofNat g.payload.length := by
    apply u16_ext
    rw [min16_toNat, u16_sub_toNat, hrsr, hl]
    show min _ ((_ + 65536 - 8) % 65536) = _
    omega
  have hdat : ((w0.tick.tick.tick.chip.received sn.idx).drop (p + 8)).take g.payload.length = g.payload := by
    rw [← List.drop_drop, ← ht, udpFrame_drop, List.take_left]
  rw [hdes]
  simp only
  rw [hlim]
  refine ⟨⟨?_, rfl, hl⟩, trivial⟩
  constructor
  · exact h1
  · omega
  · have := congrArg List.length ht
    rw [List.length_append, udpFrame_length, List.length_drop] at this
    have := pre1.length_le
    simp only; omega
  · exact hdat.symm
  · exact Nat.zero_le _
  · exact hhead
  · simp only; rw [UInt16.toNat_add, hhead, hl]; omega
  · exact hhead

theorem udpReaderBody_UR (sn : Sn) (base p : Nat) (w0 : World) (g : Datagram)
    (hb : RxAt w0.chip sn.idx base p) (hg : g.payload.length < 65536)
    (hpre : udpFrame g.src g.payload <+: (w0.tick.chip.received sn.idx).drop p) :
    ∃ u w1, udpReaderBody sn w0 = (.ok u, w1) ∧ Later w0 w1 ∧ UR w1 u sn g.payload 0 base p ∧ u.header.origin = g.src := by
  obtain ⟨u, w1, h1, h2, h3⟩ := udpReaderBody_UR' sn base p w0 g hb hg hpre
  exact ⟨u, w1, h1, (Later.tick w0).trans h2, h3⟩

theorem udpReader_UR (dbg : Bool) (sn : Sn) (base p : Nat) (w : World) (g : Datagram) (rest : Bytes)
    (hb : RxAt w.chip sn.idx base p) (hg : g.payload.length < 65536)
    (hq : w.chip.unread sn.idx = udpFrame g.src g.payload ++ rest) :
    (∃ u w1, udpReader dbg worldBus sn w = (.ok u, w1) ∧ Later w w1 ∧ UR w1 u sn g.payload 0 base p ∧ u.header.origin = g.src) ∨
    (dbg = true ∧ ∃ w1, udpReader dbg worldBus sn w = (.error .panic, w1) ∧ Later w w1) := by
  obtain ⟨w0, hw0, hd⟩ := run_debugAssert dbg _ w (run_srIsUdp sn w)
  rw [udpReader_body]
  rcases hd.symm with ⟨hdbg, hd⟩ | hd
  · right
    rw [M.bind_error hd]
    exact ⟨hdbg, _, rfl, .of_or hw0⟩
  · left
    have hpre : udpFrame g.src g.payload <+: (w0.tick.chip.received sn.idx).drop p := by
      have : udpFrame g.src g.payload <+: w.chip.unread sn.idx := by rw [hq]; exact List.prefix_append _ _
      rw [hb.state.data] at this
      exact this.trans (prefix_drop ((recv_prefix_of_or sn.idx hw0).trans (tick_received_prefix w0 sn.idx)) p)
    obtain ⟨u, w1, h1, h2, h3⟩ := udpReaderBody_UR sn base p w0 g (hb.of_or hw0) hg hpre
    rw [M.bind_ok hd]
    exact ⟨u, w1, h1, (Later.of_or hw0).trans h2, h3⟩

/-! ## All datagrams that are in the queue or will arrive -/

theorem foldl_queue (P : Datagram → Prop) (k p : Nat) (es : List EnvStep) (c : Chip) (hp : p ≤ (c.received k).length)
    (h : ∃ gs, Fit gs ∧ (c.received k).drop p = frames gs ∧ ∀ g ∈ gs, P g)
    (hf : ∀ bs, EnvStep.arrive k bs ∈ es → ∃ gs, Fit gs ∧ bs = frames gs ∧ ∀ g ∈ gs, P g) :
    p ≤ ((es.foldl Chip.envStep c).received k).length ∧
    ∃ gs, Fit gs ∧ ((es.foldl Chip.envStep c).received k).drop p = frames gs ∧ ∀ g ∈ gs, P g := by
  induction es generalizing c with
  | nil => exact ⟨hp, h⟩
  | cons e es ih =>
    have : p ≤ ((c.envStep e).received k).length ∧
        ∃ gs, Fit gs ∧ ((c.envStep e).received k).drop p = frames gs ∧ ∀ g ∈ gs, P g := by
      rcases envStep_received c k e with he | ⟨bs, rfl, he⟩
      · rw [he]; exact ⟨hp, h⟩
      · rw [he]
        obtain ⟨gs, h1, h2, h3⟩ := h
        obtain ⟨gs', h1', h2', h3'⟩ := hf bs List.mem_cons_self
        refine ⟨by rw [List.length_append]; omega, gs ++ gs', Fit_append h1 h1', ?_, ?_⟩
        · rw [List.drop_append_of_le_length hp, h2, h2', frames_append]
        · intro g hg
          rcases List.mem_append.mp hg with hg | hg
          · exact h3 g hg
          · exact h3' g hg
    exact ih (c.envStep e) this.1 this.2 fun bs hb => hf bs (List.mem_cons_of_mem _ hb)

theorem Spec.Pending.tick {P : Datagram → Prop} {k p : Nat} {w : World} (h : Pending P k p w) : Pending P k p w.tick := by
  unfold World.tick
  split
  · exact h
  · rename_i es rest hs
    have := foldl_queue P k p es w.chip h.le h.now (h.future es (by rw [hs]; exact List.mem_cons_self))
    exact ⟨this.1, this.2, fun es' he => h.future es' (by rw [hs]; exact List.mem_cons_of_mem _ he)⟩

theorem Spec.Pending.later {P : Datagram → Prop} {k p : Nat} {w w' : World} (h : Pending P k p w) (hl : Later w w') : Pending P k p w' := by
  obtain ⟨j, rfl⟩ := hl
  induction j generalizing w with
  | zero => exact h
  | succ j ih => exact ih h.tick

/-- Making a reader, whatever is in the queue. -/
theorem udpReader_pending {P : Datagram → Prop} (dbg : Bool) (sn : Sn) (base p : Nat) (w : World)
    (hb : RxAt w.chip sn.idx base p) (hp : Pending P sn.idx p w) :
    (∃ u w1 g, udpReader dbg worldBus sn w = (.ok u, w1) ∧ Later w w1 ∧ P g ∧ UR w1 u sn g.payload 0 base p ∧ u.header.origin = g.src) ∨
    (∃ w1, udpReader dbg worldBus sn w = (.error .wouldBlock, w1) ∧ Later w w1) ∨
    (dbg = true ∧ ∃ w1, udpReader dbg worldBus sn w = (.error .panic, w1) ∧ Later w w1) := by
  obtain ⟨w0, hw0, hd⟩ := run_debugAssert dbg _ w (run_srIsUdp sn w)
  rw [udpReader_body]
  rcases hd.symm with ⟨hdbg, hd⟩ | hd
  · right; right
    rw [M.bind_error hd]
    exact ⟨hdbg, _, rfl, .of_or hw0⟩
  · rw [M.bind_ok hd]
    have h0 := hb.of_or hw0
    have hp1 := hp.later ((Later.of_or hw0).trans (.tick w0))
    obtain ⟨gs, h1, h2, h3⟩ := hp1.now
    cases gs with
    | nil =>
      right; left
      have : ((w0.tick.chip.received sn.idx).drop p).length = 0 := by rw [h2]; rfl
      rw [List.length_drop] at this
      unfold udpReaderBody
      rw [M.bind_ok (run_snRxRsr sn w0), if_pos (by rw [u16_lt_LEN, h0.tick.rsr_toNat]; omega)]
      exact ⟨_, rfl, (Later.of_or hw0).trans (.tick w0)⟩
    | cons g gs =>
      left
      obtain ⟨u, w1, e1, e2, e3⟩ := udpReaderBody_UR sn base p w0 g h0 (h1 g List.mem_cons_self)
        (by rw [h2, frames_cons]; exact List.prefix_append _ _)
      exact ⟨u, w1, g, e1, (Later.of_or hw0).trans e2, h3 g List.mem_cons_self, e3⟩

end Verif

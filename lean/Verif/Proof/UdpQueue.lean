import Verif.Proof.DhcpAck
import Verif.Proof.MqttRun
import Verif.Spec.SntpSession
/-!
# A socket as a queue of datagrams
-/
namespace Verif
open Hl Spec

/-- What arrives stays whole datagrams. -/
def KeepsWhole {α : Type} (k : Nat) (m : M World α) : Prop := ∀ s, WholeDatagrams k s → WholeDatagrams k (m s).2

/-- No access spoils the queue. -/
theorem closedWhole' (k : Nat) : Closed worldBus (fun _ => True) (fun m => KeepsWhole k m) :=
  closed_of_rel (fun s t => WholeDatagrams k s → WholeDatagrams k t) (fun _ h => h) (fun _ _ _ h1 h2 h => h2 (h1 h))
    (fun _ _ _ _ h => h.tick) (fun a blk bs w _ h => by
      refine ⟨?_, h.tick.future⟩
      rcases writeBytes_received bs w.tick.chip blk.toNat a.toNat k with e | e
      · rw [show ((worldBus.write a blk bs w).2).chip.received k = _ from e]; exact h.tick.past
      · rw [show ((worldBus.write a blk bs w).2).chip.received k = _ from e]; exact ⟨[], nofun, rfl⟩)

theorem closedWhole (sn : Sn) (k : Nat) : Closed worldBus (OwnBlock sn) (fun m => KeepsWhole k m) :=
  ⟨(closedWhole' k).pure, (closedWhole' k).throw, (closedWhole' k).bind, (closedWhole' k).read, fun a b c _ => (closedWhole' k).write a b c trivial⟩

theorem KeepsWhole.bind {k : Nat} {α β : Type} {m : M World α} {f : α → M World β} (h : KeepsWhole k m) (hf : ∀ a, KeepsWhole k (f a)) :
    KeepsWhole k (m >>= f) := (closedWhole' k).bind m f h hf

theorem Spec.WholeDatagrams.later {k : Nat} {w w' : World} (h : WholeDatagrams k w) (hl : Later w w') : WholeDatagrams k w' := by
  obtain ⟨j, rfl⟩ := hl
  induction j generalizing w with
  | zero => exact h
  | succ j ih => exact ih h.tick

/-- Socket `k` has received the datagrams `gs`, and the first `n` have been consumed. -/
structure Queue (k : Nat) (w : World) (gs : List Datagram) (n base : Nat) : Prop where
  whole : WholeDatagrams k w
  fit : Fit gs
  recv : w.chip.received k = frames gs
  le : n ≤ gs.length
  rx : RxAt w.chip k base (frames (gs.take n)).length

theorem take_of_prefix {α : Type} {a b : List α} (h : a <+: b) {n : Nat} (hn : n ≤ a.length) : b.take n = a.take n := by
  obtain ⟨t, rfl⟩ := h
  exact List.take_append_of_le_length hn

/-- More may have been received. -/
theorem Queue.grow {k : Nat} {w w' : World} {gs : List Datagram} {n base : Nat} (h : Queue k w gs n base) (hw : WholeDatagrams k w')
    (hp : w.chip.received k <+: w'.chip.received k) (hr : ∀ p, RxAt w.chip k base p → RxAt w'.chip k base p) :
    ∃ gs', gs <+: gs' ∧ Queue k w' gs' n base := by
  obtain ⟨gs', h1, h2⟩ := hw.past
  rw [h.recv, h2] at hp
  have hg := frames_prefix h.fit h1 hp
  refine ⟨gs', hg, hw, h1, h2, Nat.le_trans h.le hg.length_le, ?_⟩
  rw [take_of_prefix hg h.le]
  exact hr _ h.rx

theorem Queue.later {k : Nat} {w w' : World} {gs : List Datagram} {n base : Nat} (h : Queue k w gs n base) (hl : Later w w') :
    ∃ gs', gs <+: gs' ∧ Queue k w' gs' n base :=
  h.grow (h.whole.later hl) (hl.calm k).recvd (fun p => (hl.calm k).rx _ p)

theorem Queue.pause {k : Nat} {w : World} {gs : List Datagram} {n base : Nat} (h : Queue k w gs n base) {before : List EnvStep}
    {during : List (List EnvStep)} (hw : WholeSteps k (before :: during)) :
    ∃ gs', gs <+: gs' ∧ Queue k (w.pause before during) gs' n base := by
  have h1 : Queue k ({ w with sched := before :: during } : World) gs n base := ⟨⟨h.whole.past, hw⟩, h.fit, h.recv, h.le, h.rx⟩
  exact h1.later (.tick _)

theorem frames_take_succ {gs : List Datagram} {n : Nat} {g : Datagram} (h : gs[n]? = some g) :
    (frames (gs.take (n + 1))).length = (frames (gs.take n)).length + (8 + g.payload.length) := by
  rw [List.take_add_one, h, frames_append, List.length_append]
  simp [frames, udpFrame_length]

theorem frames_drop {gs : List Datagram} {n : Nat} : (frames gs).drop (frames (gs.take n)).length = frames (gs.drop n) := by
  conv => lhs; rw [← List.take_append_drop n gs, frames_append]
  rw [List.take_append_drop, List.drop_left]

/-- Making a reader: it is for the first datagram that has not been consumed, if there is one. -/
theorem Queue.reader {sn : Sn} {w : World} {gs : List Datagram} {n base : Nat} (h : Queue sn.idx w gs n base) :
    (∃ u w1 gs1 g, udpReader false worldBus sn w = (.ok u, w1) ∧ gs <+: gs1 ∧ Queue sn.idx w1 gs1 n base ∧ gs1[n]? = some g ∧
      UR w1 u sn g.payload 0 base (frames (gs1.take n)).length ∧ u.header.origin = g.src ∧ Later w w1) ∨
    (∃ w1 gs1, udpReader false worldBus sn w = (.error .wouldBlock, w1) ∧ gs <+: gs1 ∧ Queue sn.idx w1 gs1 n base ∧ n = gs.length ∧ Later w w1) := by
  rw [udpReader_body, M.bind_ok (show debugAssert false (srIsUdp worldBus sn) w = (.ok (), w) from rfl)]
  obtain ⟨gs1, hg1, q1⟩ := h.later (.tick w)
  have hrsr := q1.rx.rsr_toNat
  rw [q1.recv] at hrsr
  rcases hd : gs1.drop n with _ | ⟨g, rest⟩
  · right
    have hn : gs1.length ≤ n := by rw [List.drop_eq_nil_iff] at hd; exact hd
    have : n = gs.length := by have := hg1.length_le; have := h.le; omega
    refine ⟨w.tick, gs1, ?_, hg1, q1, this, .tick w⟩
    unfold udpReaderBody
    rw [M.bind_ok (run_snRxRsr sn w), if_pos (by rw [u16_lt_LEN, hrsr, List.take_of_length_le hn]; omega)]
    rfl
  · left
    have hg : gs1[n]? = some g := by rw [← List.head?_drop, hd]; rfl
    have hmem : g ∈ gs1 := List.mem_of_getElem? hg
    obtain ⟨u, w1, e1, e2, e3, e4⟩ := udpReaderBody_UR' sn base (frames (gs1.take n)).length w g
      (by rw [take_of_prefix hg1 h.le]; exact h.rx) (q1.fit g hmem)
      (by rw [q1.recv, frames_drop, hd, frames_cons]; exact List.prefix_append _ _)
    obtain ⟨gs2, hg2, q2⟩ := q1.later e2
    have hlt : n < gs1.length := by
      rcases List.getElem?_eq_some_iff.mp hg with ⟨hh, _⟩; exact hh
    refine ⟨u, w1, gs2, g, e1, hg1.trans hg2, q2, ?_, ?_, e4, (Later.tick w).trans e2⟩
    · obtain ⟨t, rfl⟩ := hg2
      rw [List.getElem?_append_left hlt, hg]
    · rw [take_of_prefix hg2 (Nat.le_of_lt hlt)]; exact e3

theorem Queue.stay {k : Nat} {w w' : World} {gs : List Datagram} {n base : Nat} (h : Queue k w gs n base) (hw : WholeDatagrams k w')
    (hp : w.chip.received k <+: w'.chip.received k) (hr : RxAt w'.chip k base (frames (gs.take n)).length) :
    ∃ gs', gs <+: gs' ∧ Queue k w' gs' n base := by
  obtain ⟨gs', h1, h2⟩ := hw.past
  rw [h.recv, h2] at hp
  have hg := frames_prefix h.fit h1 hp
  refine ⟨gs', hg, hw, h1, h2, Nat.le_trans h.le hg.length_le, ?_⟩
  rw [take_of_prefix hg h.le]
  exact hr

/-- Having consumed a datagram. -/
theorem Queue.next {k : Nat} {w w' : World} {gs : List Datagram} {n base : Nat} {g : Datagram} (h : Queue k w gs n base)
    (hg : gs[n]? = some g) (hw : WholeDatagrams k w') (hp : w.chip.received k <+: w'.chip.received k)
    (hr : RxAt w'.chip k base ((frames (gs.take n)).length + (8 + g.payload.length))) :
    ∃ gs', gs <+: gs' ∧ Queue k w' gs' (n + 1) base := by
  obtain ⟨gs', h1, h2⟩ := hw.past
  rw [h.recv, h2] at hp
  have hp := frames_prefix h.fit h1 hp
  have hlt : n < gs.length := by
    rcases List.getElem?_eq_some_iff.mp hg with ⟨hh, _⟩; exact hh
  refine ⟨gs', hp, hw, h1, h2, Nat.lt_of_lt_of_le hlt hp.length_le, ?_⟩
  rw [take_of_prefix hp hlt, frames_take_succ hg]
  exact hr

theorem keepsWhole_onUdpReader {α : Type} (k : Nat) (u : UdpReader) (p : RProg α) : KeepsWhole k (onUdpReader worldBus u p) := by
  intro w h
  have hl := later_rprog p w u.inner
  unfold onUdpReader
  rw [udpReader_run_any]
  rcases hx : p.run (tcpReaderOps worldBus) (w, u.inner) with ⟨e | x, w', r'⟩ <;> rw [hx] at hl <;> exact h.later hl

/-- Writing a message does not spoil the queue. -/
theorem wprog_whole {α : Type} (k : Nat) (prog : WProg α) : ∀ (w : World) (r : Ptrs), WholeDatagrams k w →
    WholeDatagrams k (prog.run (writerOps worldBus) (w, r)).2.1 := by
  induction prog with
  | ret x => intro w r h; exact h
  | write n f ih =>
    intro w r h
    refine ih _ ((writerOps worldBus).write n (w, r)).2.1 ((writerOps worldBus).write n (w, r)).2.2 ?_
    have := closed_writerWrite (closedWhole r.sn k) r rfl n w h
    simp only [writerOps]
    rcases hx : writerWrite worldBus r n w with ⟨e | x, w'⟩ <;> rw [hx] at this <;> exact this
  | writeAll n f ih =>
    intro w r h
    refine ih _ ((writerOps worldBus).writeAll n (w, r)).2.1 ((writerOps worldBus).writeAll n (w, r)).2.2 ?_
    have := closed_writerWriteAll (closedWhole r.sn k) r rfl n w h
    simp only [writerOps]
    rcases hx : writerWriteAll worldBus r n w with ⟨e | x, w'⟩ <;> rw [hx] at this <;> exact this
  | seek pos f ih =>
    intro w r h
    refine ih _ ((writerOps worldBus).seek pos (w, r)).2.1 ((writerOps worldBus).seek pos (w, r)).2.2 ?_
    simp only [writerOps]
    split <;> exact h
  | rewind f ih => intro w r h; exact ih w r.rewind h
  | streamLen f ih => intro w r h; exact ih _ w r h
  | streamPosition f ih => intro w r h; exact ih _ w r h
  | remain f ih => intro w r h; exact ih _ w r h

theorem emitSend_whole (k : Nat) (sn : Sn) (p : WProg Unit) (w : World) (h : WholeDatagrams k w) :
    WholeDatagrams k (emitSend sn p w).2 := by
  unfold emitSend
  rw [M.bind_run]
  have h1 := closed_socketWriter (closedWhole sn k) w h
  rcases hs : socketWriter worldBus sn w with ⟨e | r, w1⟩ <;> rw [hs] at h1
  · exact h1
  dsimp only
  rw [M.bind_run]
  have h2 := wprog_whole k p w1 r h1
  have h3 : WholeDatagrams k (onWriter worldBus r p w1).2 := by
    unfold onWriter
    rcases hx : p.run (writerOps worldBus) (w1, r) with ⟨x, w2, r2⟩
    rw [hx] at h2
    cases x <;> exact h2
  rcases hs : onWriter worldBus r p w1 with ⟨e | x, w2⟩ <;> rw [hs] at h3
  · exact h3
  · exact closed_writerSend (closedWhole x.2.sn k) x.2 rfl w2 h3

/-- Sending a message from a socket: its queue is as before, and the socket can send again. -/
theorem Queue.emitSend {sn : Sn} {w : World} {gs : List Datagram} {n base : Nat} (h : Queue sn.idx w gs n base)
    (ht : TxState w.chip sn.idx) {p : WProg Unit} {bs : Bytes} (hp : EmitsAt 0 p bs) :
    ∃ r w' gs', emitSend sn p w = (r, w') ∧ gs <+: gs' ∧ Queue sn.idx w' gs' n base ∧ TxState w'.chip sn.idx ∧
      w'.chip.destIp sn.idx = w.chip.destIp sn.idx ∧ w'.chip.destPort sn.idx = w.chip.destPort sn.idx ∧
      ((r = .ok () ∧ w'.chip.sent = w.chip.sent ++ [⟨sn.idx, w.chip.destIp sn.idx, w.chip.destPort sn.idx, bs⟩]) ∨
        (r = .error .outOfMemory ∧ w'.chip.sent = w.chip.sent ∧ w.chip.txFsr sn.idx < bs.length)) := by
  have hw := emitSend_whole sn.idx sn p w h.whole
  obtain ⟨r, e, hh⟩ := packet_run ht hp
  have e0 : ∀ x, Mqtt.sendPacket worldBus r p w.tick = x → Verif.emitSend sn p w = x := by
    intro x hx
    unfold Verif.emitSend
    rw [M.bind_ok e]
    exact hx
  rcases hh with ⟨w', k1, k2, -, k3, k4⟩ | ⟨w', k1, k2, k3, k4⟩
  · have k1 := e0 _ k1
    rw [k1] at hw
    obtain ⟨gs', g1, g2⟩ := h.grow hw k4.recvd (k4.rx base)
    exact ⟨_, w', gs', k1, g1, g2, k2, k4.destIp, k4.destPort, .inl ⟨rfl, k3⟩⟩
  · have k1 := e0 _ k1
    rw [k1] at hw
    obtain ⟨gs', g1, g2⟩ := h.grow hw k4.recvd (k4.rx base)
    exact ⟨_, w', gs', k1, g1, g2, k4.idle ht, k4.destIp, k4.destPort, .inr ⟨rfl, k2, k3⟩⟩

end Verif

import Verif.Thm.HlTcp
import Verif.Proof.Datagrams
/-!
# C15 to C19, C25 and the UDP half of C10
-/
namespace Verif.Thm
open Verif Hl Spec

/-- The unread bytes when the first access of a call is made extend those before the call. -/
theorem unread_tick {w : World} {sn : Sn} {base p : Nat} (hb : RxAt w.chip sn.idx base p) {X : Bytes}
    (hq : X <+: w.chip.unread sn.idx) : X <+: (w.tick.chip.received sn.idx).drop p := by
  rw [hb.state.data] at hq
  exact hq.trans (prefix_drop (tick_received_prefix w sn.idx) p)

theorem take_append_le {α : Type} (a b : List α) (n m : Nat) (h : m = min a.length n) : (a ++ b).take m = a.take n := by
  subst h
  rw [List.take_append_of_le_length (Nat.min_le_left _ _)]
  rw [List.take_eq_take_iff]; omega

/-- C15: if the oldest datagram in the queue is complete, `udp_recv_from` with a buffer of `n` bytes
returns its source, the first `min len n` bytes of its payload and that count, and then exactly the
`8 + len` bytes of this datagram have been consumed.  (A debug build may panic instead, on its status
check, and then nothing has been consumed.) -/
theorem C15_udp_recv_from (dbg : Bool) (sn : Sn) (n p : Nat) (w : World) (g : Datagram) (rest : Bytes)
    (h : RxState w.chip sn.toU8.toNat p) (hg : g.payload.length < 65536)
    (hq : w.chip.unread sn.toU8.toNat = udpFrame g.src g.payload ++ rest) :
    let out := udpRecvFrom dbg worldBus sn n w
    (dbg = true ∧ out.1 = .error .panic ∧ RxState out.2.chip sn.toU8.toNat p) ∨
    (out.1 = .ok (UInt16.ofNat (min g.payload.length n), g.src, g.payload.take n) ∧
      RxState out.2.chip sn.toU8.toNat (p + (8 + g.payload.length)) ∧
      w.chip.received sn.toU8.toNat <+: out.2.chip.received sn.toU8.toNat) := by
  change RxState w.chip sn.idx p at h
  change w.chip.unread sn.idx = _ at hq
  obtain ⟨base, hb⟩ := h.at
  obtain ⟨t, ht⟩ := unread_tick hb (X := udpFrame g.src g.payload) (by rw [hq]; exact List.prefix_append _ _)
  have hrun := udpRecvFrom_run dbg sn n w base p hb
  simp only at hrun
  have hlen := congrArg List.length ht
  rw [List.length_append, udpFrame_length] at hlen
  rw [← ht, deser_frame _ _ _ hg, udpFrame_drop] at hrun
  have hl : (UInt16.ofNat g.payload.length).toNat = g.payload.length := ofNat16_toNat (by omega)
  simp only [hl] at hrun
  rw [List.length_append, udpFrame_length, if_neg (by omega)] at hrun
  intro out
  rcases hrun with ⟨j, hd, e⟩ | ⟨w', e, hr, hp⟩
  · left
    simp only [out, e]
    exact ⟨hd, trivial, (hb.tick.ticks j).state⟩
  · right
    simp only [out, e]
    refine ⟨?_, hr.state, (tick_received_prefix w sn.idx).trans hp⟩
    rw [take_append_le g.payload t n _ rfl]

/-- C15: on a queue that is empty when the call looks at it (with no environment activity: empty when
the call is made), or holds less than a datagram header, `udp_recv_from` reports `WouldBlock` and only
the environment has acted. -/
theorem C15_empty_would_block (dbg : Bool) (sn : Sn) (n p : Nat) (w : World)
    (h : RxState w.chip sn.toU8.toNat p) (hq : (w.tick.chip.unread sn.toU8.toNat).length < 8) :
    (udpRecvFrom dbg worldBus sn n w) = (.error .wouldBlock, w.tick) := by
  change RxState w.chip sn.idx p at h
  change (w.tick.chip.unread sn.idx).length < 8 at hq
  obtain ⟨base, hb⟩ := h.at
  rw [hb.tick.state.data, List.length_drop] at hq
  unfold udpRecvFrom
  rw [M.bind_ok (run_snRxRsr sn w)]
  rw [if_pos ((u16_lt_LEN _).mpr (by rw [hb.tick.rsr_toNat]; exact hq))]
  rfl

/-- One `udp_send_to`, as far as the receive side is concerned. -/
theorem udpSendTo_rx (dbg : Bool) (sn : Sn) (buf : Bytes) (addr : SockAddr) (w : World) (h : TxState w.chip sn.idx) :
    (∀ base p, RxAt w.chip sn.idx base p → RxAt (udpSendTo dbg worldBus sn buf addr w).2.chip sn.idx base p) ∧
    TxState (udpSendTo dbg worldBus sn buf addr w).2.chip sn.idx ∧
    w.chip.received sn.idx <+: (udpSendTo dbg worldBus sn buf addr w).2.chip.received sn.idx := by
  unfold udpSendTo
  rw [M.bind_ok (run_setSnDest sn addr w)]
  have ht := setDest_tx addr h.tick
  rcases udpSend_run dbg sn buf { w.tick with chip := setDest w.tick.chip sn.idx addr } ht
    with ⟨w', hw', _, e⟩ | ⟨w1, w', n, _, e, t⟩
  · rw [e]
    have k := Kept.of_or sn.idx hw'
    exact ⟨fun base p hr => k.rx base p (setDest_rx addr hr.tick), k.tx ht, (tick_received_prefix w sn.idx).trans k.pre⟩
  · rw [e]
    exact ⟨fun base p hr => t.rx base p (setDest_rx addr hr.tick), t.tx, (tick_received_prefix w sn.idx).trans t.pre⟩

theorem udpRecvFrom_tx (dbg : Bool) (sn : Sn) (n : Nat) : KeepsTx sn.idx (udpRecvFrom dbg worldBus sn n) := by
  have thr : ∀ {α : Type} (e : Err), KeepsTx sn.idx (M.throw e : M World α) := fun _ _ h => ⟨h, rfl⟩
  have tail : ∀ (x : Bytes) (r : UInt16) (o : SockAddr) (q : UInt16),
      KeepsTx sn.idx (worldBus.setSnRxRd sn q >>= fun _ => worldBus.setSnCr sn .recv >>= fun _ =>
        (Pure.pure (r, o, x) : M World (UInt16 × SockAddr × Bytes))) := fun x r o q =>
    .bind (.setSnRxRd _ _) fun _ => .bind (.recv _) fun _ => .pure _
  unfold udpRecvFrom
  refine .bind (.of_tick fun w => .inr (by rw [run_snRxRsr])) fun rsr => ?_
  show KeepsTx _ (if _ then _ else _ : M World _)
  split
  · exact thr _
  · refine .bind (.of_tick fun w => ?_) fun _ => .bind (.of_tick fun w => .inr (by rw [run_snRxRd])) fun _ =>
      .bind (.of_tick fun w => .inr rfl) fun _ => ?_
    · obtain ⟨w', hw, h | ⟨_, h⟩⟩ := run_debugAssert dbg _ w (run_srIsUdp sn w)
      · rw [h]; exact hw
      · rw [h]; exact hw
    · show KeepsTx _ (if _ then _ else _ : M World _)
      split
      · exact thr _
      · show KeepsTx _ (if _ then _ else _ : M World _)
        split
        · exact .bind (.of_tick fun w => .inr rfl) fun _ => tail _ _ _ _
        · exact .bind (.pure _) fun _ => tail _ _ _ _

theorem udpPeekFrom_ticks (dbg : Bool) (sn : Sn) (n : Nat) (w : World) (base p : Nat) (h : RxAt w.chip sn.idx base p) :
    ∃ j, (udpPeekFrom dbg worldBus sn n w).2 = World.ticks j w := by
  obtain ⟨j, ⟨_, e⟩ | e⟩ := udpPeekFrom_run dbg sn n w base p h <;> exact ⟨j + 1, by rw [e]; rfl⟩

theorem udpPeekFromHeader_ticks (dbg : Bool) (sn : Sn) (w : World) (base p : Nat) (h : RxAt w.chip sn.idx base p) :
    ∃ j, (udpPeekFromHeader dbg worldBus sn w).2 = World.ticks j w := by
  obtain ⟨j, ⟨_, e⟩ | e⟩ := udpPeekFromHeader_run dbg sn w base p h <;> exact ⟨j + 1, by rw [e]; rfl⟩

theorem udp_history (dbg : Bool) (fuel : Nat) (sn : Sn) (steps : List UdpStep)
    (hother : ∀ sn' c, UdpStep.other sn' c ∈ steps → sn' ≠ sn) (w : World) (base : Nat) (done todo : List Datagram)
    (hfit : Fit (done ++ todo)) (hrec : w.chip.received sn.idx = frames (done ++ todo))
    (hr : RxAt w.chip sn.idx base (frames done).length) (ht : TxState w.chip sn.idx) (hw : WholeDatagrams sn.idx w) :
    ∃ gs, Fit gs ∧ (runUdp dbg fuel sn steps w).2.chip.received sn.idx = frames (done ++ gs) ∧ todo <+: gs ∧
      (runUdp dbg fuel sn steps w).1.length ≤ gs.length ∧
      RxAt (runUdp dbg fuel sn steps w).2.chip sn.idx base
        (frames (done ++ gs.take (runUdp dbg fuel sn steps w).1.length)).length ∧
      (runUdp dbg fuel sn steps w).1
        = List.zipWith Datagram.given gs ((runUdp dbg fuel sn steps w).1.map (·.bufLen)) := by
  induction steps generalizing w done todo with
  | nil => exact ⟨todo, fun g hg => hfit g (List.mem_append_right _ hg), hrec, List.prefix_refl _, Nat.zero_le _,
      by simpa [runUdp] using hr, by simp [runUdp]⟩
  | cons s rest ih =>
    have hother' : ∀ sn' c, UdpStep.other sn' c ∈ rest → sn' ≠ sn := fun sn' c hm => hother sn' c (List.mem_cons_of_mem _ hm)
    have fd : Fit done := fun g hg => hfit g (List.mem_append_left _ hg)
    -- a step after which nothing of the queue has been consumed
    have keep : ∀ w' : World, WholeDatagrams sn.idx w' → RxAt w'.chip sn.idx base (frames done).length →
        TxState w'.chip sn.idx → w.chip.received sn.idx <+: w'.chip.received sn.idx →
        ∃ gs, Fit gs ∧ (runUdp dbg fuel sn rest w').2.chip.received sn.idx = frames (done ++ gs) ∧ todo <+: gs ∧
          (runUdp dbg fuel sn rest w').1.length ≤ gs.length ∧
          RxAt (runUdp dbg fuel sn rest w').2.chip sn.idx base
            (frames (done ++ gs.take (runUdp dbg fuel sn rest w').1.length)).length ∧
          (runUdp dbg fuel sn rest w').1
            = List.zipWith Datagram.given gs ((runUdp dbg fuel sn rest w').1.map (·.bufLen)) := by
      intro w' hw' hr' ht' hp
      obtain ⟨all, f1, f2⟩ := hw'.past
      rw [hrec, f2] at hp
      obtain ⟨more, rfl⟩ := frames_prefix hfit f1 hp
      obtain ⟨gs, g1, g2, g3, g4⟩ := ih hother' w' done (todo ++ more) (by rw [← List.append_assoc]; exact f1)
        (by rw [← List.append_assoc]; exact f2) hr' ht' hw'
      exact ⟨gs, g1, g2, (List.prefix_append _ _).trans g3, g4⟩
    cases s with
    | recvFrom n =>
      have whole := whole_call dbg fuel sn.idx sn (.udpRecvFrom n) w hw
      have ex : (Call.exec dbg fuel worldBus sn (.udpRecvFrom n) w).2 = (udpRecvFrom dbg worldBus sn n w).2 := by
        show ((udpRecvFrom dbg worldBus sn n >>= _) w).2 = _
        rw [M.bind_run]
        rcases udpRecvFrom dbg worldBus sn n w with ⟨e | x, s'⟩ <;> rfl
      rw [ex] at whole
      have htx : TxState (udpRecvFrom dbg worldBus sn n w).2.chip sn.idx := (udpRecvFrom_tx dbg sn n w ht).1
      have hrun := udpRecvFrom_run dbg sn n w base _ hr
      simp only at hrun
      -- the queue when the call looks at it
      obtain ⟨all, f1, f2⟩ := hw.tick.past
      have hp0 := tick_received_prefix w sn.idx
      rw [hrec, f2] at hp0
      obtain ⟨more, rfl⟩ := frames_prefix hfit f1 hp0
      have hD : (w.tick.chip.received sn.idx).drop (frames done).length = frames (todo ++ more) := by
        rw [f2, List.append_assoc, frames_append done]; simp
      rw [hD] at hrun
      have keepErr : ∀ j e, udpRecvFrom dbg worldBus sn n w = (.error e, World.ticks j w.tick) → _ := fun j e he =>
        keep (World.ticks j w.tick) (by rw [he] at whole; exact whole) (hr.tick.ticks j) (by rw [he] at htx; exact htx)
          ((tick_received_prefix w sn.idx).trans (ticks_prefix j w.tick sn.idx))
      rcases hq : todo ++ more with _ | ⟨g, gs'⟩
      · rw [hq] at hrun
        rw [if_pos (by left; show 0 < 8; omega)] at hrun
        obtain ⟨j, e | ⟨_, e⟩⟩ := hrun
        all_goals
          simp only [runUdp]
          rw [e]
          exact keepErr j _ e
      · have fg : g.payload.length < 65536 :=
          f1 g (by rw [List.append_assoc, hq]; exact List.mem_append_right _ List.mem_cons_self)
        have hl : (UInt16.ofNat g.payload.length).toNat = g.payload.length := ofNat16_toNat (by omega)
        rw [hq, frames_cons, deser_frame _ _ _ fg, udpFrame_drop] at hrun
        simp only [hl] at hrun
        rw [List.length_append, udpFrame_length, if_neg (by omega)] at hrun
        rcases hrun with ⟨j, _, e⟩ | ⟨w', e, hr', hp'⟩
        · simp only [runUdp]
          rw [e]
          exact keepErr j _ e
        · rw [take_append_le g.payload (frames gs') n _ rfl] at e
          rw [e] at whole htx
          have hdone : frames (done ++ [g]) = frames done ++ udpFrame g.src g.payload := by
            rw [frames_append]; simp [frames]
          obtain ⟨all', f3, f4⟩ := whole.past
          rw [f2, f4] at hp'
          obtain ⟨more', hm'⟩ := frames_prefix f1 f3 hp'
          have hall : all' = (done ++ [g]) ++ (gs' ++ more') := by
            rw [← hm', List.append_assoc done, hq]; simp
          obtain ⟨gs, g1, g2, g3, g4, g5, g6⟩ := ih hother' w' (done ++ [g]) (gs' ++ more') (by rw [← hall]; exact f3)
            (by rw [← hall]; exact f4)
            (by rw [hdone, List.length_append, udpFrame_length]; exact hr') htx whole
          refine ⟨g :: gs, ?_, ?_, ?_, ?_, ?_, ?_⟩
          · intro x hx
            rcases List.mem_cons.mp hx with rfl | hx
            · exact fg
            · exact g1 x hx
          · simp only [runUdp]; rw [e]; rw [show done ++ g :: gs = (done ++ [g]) ++ gs by simp]; exact g2
          · have : todo <+: g :: gs' := by rw [← hq]; exact List.prefix_append _ _
            refine this.trans ?_
            obtain ⟨t, ht'⟩ := g3
            exact ⟨more' ++ t, by rw [← ht']; simp⟩
          · simp only [runUdp]; rw [e]; simp only [List.length_cons]; omega
          · simp only [runUdp]; rw [e]; simp only [List.length_cons, List.take_succ_cons]
            rw [show done ++ g :: gs.take _ = (done ++ [g]) ++ gs.take (runUdp dbg fuel sn rest w').1.length by simp]
            exact g5
          · simp only [runUdp]; rw [e]; simp only [List.map_cons, List.zipWith_cons_cons]
            rw [← g6]; rfl
    | peekFrom n =>
      obtain ⟨j, hj⟩ := (udpPeekFrom_ticks dbg sn n w base _ hr)
      simp only [runUdp]
      have whole := whole_call dbg fuel sn.idx sn (.udpPeekFrom n) w hw
      have ex : (Call.exec dbg fuel worldBus sn (.udpPeekFrom n) w).2 = (udpPeekFrom dbg worldBus sn n w).2 := by
        show ((udpPeekFrom dbg worldBus sn n >>= _) w).2 = _
        rw [M.bind_run]
        rcases udpPeekFrom dbg worldBus sn n w with ⟨e | x, s'⟩ <;> rfl
      rw [ex, hj] at whole
      rw [hj]
      exact keep _ whole (hr.ticks j) (txState_ticks ht j) (ticks_prefix j w sn.idx)
    | peekFromHeader =>
      obtain ⟨j, hj⟩ := (udpPeekFromHeader_ticks dbg sn w base _ hr)
      simp only [runUdp]
      have whole := whole_call dbg fuel sn.idx sn .udpPeekFromHeader w hw
      have ex : (Call.exec dbg fuel worldBus sn .udpPeekFromHeader w).2 = (udpPeekFromHeader dbg worldBus sn w).2 := by
        show ((udpPeekFromHeader dbg worldBus sn >>= _) w).2 = _
        rw [M.bind_run]
        rcases udpPeekFromHeader dbg worldBus sn w with ⟨e | x, s'⟩ <;> rfl
      rw [ex, hj] at whole
      rw [hj]
      exact keep _ whole (hr.ticks j) (txState_ticks ht j) (ticks_prefix j w sn.idx)
    | sendTo buf addr =>
      have whole := whole_call dbg fuel sn.idx sn (.udpSendTo buf addr) w hw
      have ex : (Call.exec dbg fuel worldBus sn (.udpSendTo buf addr) w).2 = (udpSendTo dbg worldBus sn buf addr w).2 := by
        show ((udpSendTo dbg worldBus sn buf addr >>= _) w).2 = _
        rw [M.bind_run]
        rcases udpSendTo dbg worldBus sn buf addr w with ⟨e | x, s'⟩ <;> rfl
      rw [ex] at whole
      obtain ⟨h1, h2, h3⟩ := udpSendTo_rx dbg sn buf addr w ht
      simp only [runUdp]
      exact keep _ whole (h1 _ _ hr) h2 h3
    | other sn' c =>
      have k := kept_other dbg fuel sn sn' (hother sn' c List.mem_cons_self) c w
      simp only [runUdp]
      exact keep _ (whole_call dbg fuel sn.idx sn' c w hw) (k.rx _ _ hr) (k.tx ht) k.pre

/-- C15: take a socket on which the datagrams `old ++ gs0` have been received, of which the `old` ones have
been consumed (a freshly bound socket has neither).  For every history of receive, peek and send calls on
it and of calls on other sockets, with datagrams arriving at any point: what the `udp_recv_from` calls
returned is, in order and one for one, the datagrams after `old` (each cut to the size of the caller's
buffer), and the queue holds exactly the remaining ones. -/
theorem C15_datagrams_in_order (dbg : Bool) (fuel : Nat) (sn : Sn) (steps : List UdpStep)
    (hother : ∀ sn' c, UdpStep.other sn' c ∈ steps → sn' ≠ sn) (w : World) (old gs0 : List Datagram)
    (hfit : Fit (old ++ gs0)) (hrec : w.chip.received sn.toU8.toNat = frames (old ++ gs0))
    (hfuture : ∀ es ∈ w.sched, ∀ bs, EnvStep.arrive sn.toU8.toNat bs ∈ es → ∃ gs, Fit gs ∧ bs = frames gs)
    (hr : RxState w.chip sn.toU8.toNat (frames old).length) (ht : TxState w.chip sn.toU8.toNat) :
    let out := runUdp dbg fuel sn steps w
    ∃ gs, gs0 <+: gs ∧ out.1.length ≤ gs.length ∧
      out.1 = List.zipWith Datagram.given gs (out.1.map (·.bufLen)) ∧
      out.2.chip.received sn.toU8.toNat = frames (old ++ gs) ∧
      out.2.chip.unread sn.toU8.toNat = frames (gs.drop out.1.length) := by
  change RxState w.chip sn.idx _ at hr
  change w.chip.received sn.idx = _ at hrec
  obtain ⟨base, hb⟩ := hr.at
  obtain ⟨gs, g1, g2, g3, g4, g5, g6⟩ := udp_history dbg fuel sn steps hother w base old gs0 hfit hrec hb ht
    ⟨⟨_, hfit, hrec⟩, hfuture⟩
  intro out
  refine ⟨gs, g3, g4, g6, g2, ?_⟩
  show out.2.chip.unread sn.idx = _
  rw [g5.state.data, g2]
  conv => lhs; arg 2; rw [← List.take_append_drop out.1.length gs, ← List.append_assoc, frames_append]
  simp [out]

/-! ## C16 -/

/-- C16: peeking consumes nothing — only the environment has acted — and in a release build
`udp_peek_from` returns what `udp_recv_from` would return at that moment (count, source, data or error). -/
theorem C16_peek_from (dbg : Bool) (sn : Sn) (n p : Nat) (w : World) (h : RxState w.chip sn.toU8.toNat p) :
    (∃ j, (udpPeekFrom dbg worldBus sn n w).2 = World.ticks j w) ∧
    RxState (udpPeekFrom dbg worldBus sn n w).2.chip sn.toU8.toNat p ∧
    (udpPeekFrom false worldBus sn n w).1.map (fun r => (r.1, r.2.1.origin, r.2.2))
      = (udpRecvFrom false worldBus sn n w).1 := by
  change RxState w.chip sn.idx p at h
  obtain ⟨base, hb⟩ := h.at
  obtain ⟨j, hj⟩ := udpPeekFrom_ticks dbg sn n w base p hb
  refine ⟨⟨j, hj⟩, by rw [hj]; exact (hb.ticks j).state, ?_⟩
  obtain ⟨i, ⟨hf, _⟩ | e1⟩ := udpPeekFrom_run false sn n w base p hb
  · exact absurd hf (by simp)
  · have e2 := udpRecvFrom_run false sn n w base p hb
    simp only at e1 e2
    rw [e1]
    split at e2
    · rename_i hc
      rw [if_pos hc]
      obtain ⟨k, e | ⟨hf, _⟩⟩ := e2
      · rw [e]; rfl
      · exact absurd hf (by simp)
    · rename_i hc
      rw [if_neg hc]
      rcases e2 with ⟨_, hf, _⟩ | ⟨w', e, _⟩
      · exact absurd hf (by simp)
      · rw [e]; rfl

/-- C16: with the oldest datagram complete, the header returned by the peek functions is its source and
length, and `udp_peek_from` also gives the start of the payload. -/
theorem C16_peek_contents (sn : Sn) (n p : Nat) (w : World) (g : Datagram) (rest : Bytes)
    (h : RxState w.chip sn.toU8.toNat p) (hg : g.payload.length < 65536)
    (hq : w.chip.unread sn.toU8.toNat = udpFrame g.src g.payload ++ rest) :
    (udpPeekFrom false worldBus sn n w).1
      = .ok (UInt16.ofNat (min g.payload.length n), ⟨g.src, UInt16.ofNat g.payload.length⟩, g.payload.take n) ∧
    (udpPeekFromHeader false worldBus sn w).1 = .ok ⟨g.src, UInt16.ofNat g.payload.length⟩ := by
  change RxState w.chip sn.idx p at h
  change w.chip.unread sn.idx = _ at hq
  obtain ⟨base, hb⟩ := h.at
  obtain ⟨t, ht⟩ := unread_tick hb (X := udpFrame g.src g.payload) (by rw [hq]; exact List.prefix_append _ _)
  have hl : (UInt16.ofNat g.payload.length).toNat = g.payload.length := ofNat16_toNat (by omega)
  constructor
  · obtain ⟨i, ⟨hf, _⟩ | e1⟩ := udpPeekFrom_run false sn n w base p hb
    · exact absurd hf (by simp)
    · rw [e1, ← ht, deser_frame _ _ _ hg, udpFrame_drop]
      simp only [hl]
      rw [List.length_append, udpFrame_length, if_neg (by omega), take_append_le g.payload t n _ rfl]
  · obtain ⟨i, ⟨hf, _⟩ | e1⟩ := udpPeekFromHeader_run false sn w base p hb
    · exact absurd hf (by simp)
    · rw [e1, ← ht, deser_frame _ _ _ hg, List.length_append, udpFrame_length, if_neg (by omega)]

/-- C16: `udp_peek_from_header` consumes nothing and blocks only when there is no header. -/
theorem C16_peek_header (dbg : Bool) (sn : Sn) (p : Nat) (w : World) (h : RxState w.chip sn.toU8.toNat p) :
    (∃ j, (udpPeekFromHeader dbg worldBus sn w).2 = World.ticks j w) ∧
    RxState (udpPeekFromHeader dbg worldBus sn w).2.chip sn.toU8.toNat p ∧
    ((udpPeekFromHeader false worldBus sn w).1 = .error .wouldBlock ↔ (w.tick.chip.unread sn.toU8.toNat).length < 8) := by
  change RxState w.chip sn.idx p at h
  obtain ⟨base, hb⟩ := h.at
  obtain ⟨j, hj⟩ := udpPeekFromHeader_ticks dbg sn w base p hb
  refine ⟨⟨j, hj⟩, by rw [hj]; exact (hb.ticks j).state, ?_⟩
  show _ ↔ (w.tick.chip.unread sn.idx).length < 8
  rw [hb.tick.state.data]
  obtain ⟨i, ⟨hf, _⟩ | e1⟩ := udpPeekFromHeader_run false sn w base p hb
  · exact absurd hf (by simp)
  · rw [e1]
    split
    · simp_all
    · simp_all

/-! ## C10 (UDP) and C17 -/

/-- A program on a UDP reader is the same program on the reader inside it. -/
theorem udpReader_run {α : Type} (prog : RProg α) (w : World) (u : UdpReader) :
    prog.run (udpReaderOps worldBus) (w, u) =
      ((prog.run (tcpReaderOps worldBus) (w, u.inner)).1, ((prog.run (tcpReaderOps worldBus) (w, u.inner)).2.1,
        { u with inner := (prog.run (tcpReaderOps worldBus) (w, u.inner)).2.2 })) := by
  induction prog generalizing w u with
  | ret r => rfl
  | read n k ih =>
    simp only [RProg.run]
    have : (udpReaderOps worldBus).read n (w, u) = (((tcpReaderOps worldBus).read n (w, u.inner)).1,
      (((tcpReaderOps worldBus).read n (w, u.inner)).2.1, { u with inner := ((tcpReaderOps worldBus).read n (w, u.inner)).2.2 })) := rfl
    rw [this]
    exact ih _ _ _
  | readExact n k ih =>
    simp only [RProg.run]
    have : (udpReaderOps worldBus).readExact n (w, u) = (((tcpReaderOps worldBus).readExact n (w, u.inner)).1,
      (((tcpReaderOps worldBus).readExact n (w, u.inner)).2.1, { u with inner := ((tcpReaderOps worldBus).readExact n (w, u.inner)).2.2 })) := rfl
    rw [this]
    exact ih _ _ _
  | seek pos k ih =>
    simp only [RProg.run]
    have : (udpReaderOps worldBus).seek pos (w, u) = (((tcpReaderOps worldBus).seek pos (w, u.inner)).1,
      (((tcpReaderOps worldBus).seek pos (w, u.inner)).2.1, { u with inner := ((tcpReaderOps worldBus).seek pos (w, u.inner)).2.2 })) := rfl
    rw [this]
    exact ih _ _ _
  | rewind k ih =>
    simp only [RProg.run]
    exact ih _ _
  | streamLen k ih => exact ih _ _ _
  | streamPosition k ih => exact ih _ _ _
  | remain k ih => exact ih _ _ _

/-- C17 and C10 (UDP): if the oldest datagram `g` in the queue is complete and `udp_reader` succeeds, then
every program using the reader gets the same results as on an in-memory cursor over exactly the payload of
`g`, whatever arrives in the meantime; nothing is consumed by it; the header is that of `g`; and `done`,
wherever the cursor is, consumes exactly the `8 + len` bytes of `g`. -/
theorem C17_udp_reader (dbg : Bool) (sn : Sn) (p : Nat) (w w1 : World) (u : UdpReader) (g : Datagram) (rest : Bytes)
    (h : RxState w.chip sn.toU8.toNat p) (hg : g.payload.length < 65536)
    (hq : w.chip.unread sn.toU8.toNat = udpFrame g.src g.payload ++ rest)
    (hu : udpReader dbg worldBus sn w = (.ok u, w1)) :
    u.header = ⟨g.src, UInt16.ofNat g.payload.length⟩ ∧
    ∀ {α : Type} (prog : RProg α),
      let real := prog.run (udpReaderOps worldBus) (w1, u)
      let spec := prog.run cursorOps ⟨g.payload, 0⟩
      real.1 = spec.1 ∧ real.2.2.inner.streamPosition.toNat = spec.2.pos ∧ spec.2.pos ≤ g.payload.length ∧
      RxState real.2.1.chip sn.toU8.toNat p ∧
      ∃ w2, udpReaderDone worldBus real.2.2 real.2.1 = (.ok (), w2) ∧
        RxState w2.chip sn.toU8.toNat (p + (8 + g.payload.length)) := by
  change RxState w.chip sn.idx p at h
  change w.chip.unread sn.idx = _ at hq
  obtain ⟨base, hb⟩ := h.at
  obtain ⟨w0, hw0, hd⟩ := run_debugAssert dbg _ w (run_srIsUdp sn w)
  have hl : (UInt16.ofNat g.payload.length).toNat = g.payload.length := ofNat16_toNat (by omega)
  unfold udpReader at hu
  rcases hd.symm with ⟨hdbg, hd⟩ | hd
  · rw [M.bind_error hd] at hu
    simp at hu
  · have h0 := (hb.of_or hw0).tick
    have hrsr := h0.rsr_toNat
    have hpre : udpFrame g.src g.payload <+: (w0.tick.chip.received sn.idx).drop p := by
      have : udpFrame g.src g.payload <+: w.chip.unread sn.idx := by rw [hq]; exact List.prefix_append _ _
      rw [h.data] at this
      exact this.trans (prefix_drop ((recv_prefix_of_or sn.idx hw0).trans (tick_received_prefix w0 sn.idx)) p)
    have hlen := hpre.length_le
    rw [udpFrame_length, List.length_drop] at hlen
    have hfit := h0.rx.fits
    have hsz := h0.rx.size_lt
    rw [M.bind_ok hd, M.bind_ok (run_snRxRsr sn w0),
      if_neg (fun hlt => by rw [u16_lt_LEN, hrsr] at hlt; omega), M.bind_ok (run_snRxRd sn w0.tick)] at hu
    obtain ⟨_, hrd, hbuf⟩ := run_header h0 (by omega)
    obtain ⟨t0, ht0⟩ := hpre
    have hpre : udpFrame g.src g.payload <+: (w0.tick.chip.received sn.idx).drop p := ⟨t0, ht0⟩
    rw [← ht0] at hbuf
    rw [M.bind_ok hbuf] at hu
    have hu' : (Except.ok ({ inner := { sn := sn, head := _, tail := _, ptr := _ }, header := _ } : UdpReader),
      w0.tick.tick.tick) = ((Except.ok u : Except Err UdpReader), w1) := hu
    injection hu' with e1 e2
    injection e1 with e1
    have h1 := h0.tick.tick
    have pre1 := (tick_received_prefix w0.tick sn.idx).trans (tick_received_prefix w0.tick.tick sn.idx)
    obtain ⟨t, ht⟩ := hpre.trans (prefix_drop pre1 p)
    have hdes := deser_frame g.src g.payload t0 hg
    have hhead : (UInt16.ofNat (w0.tick.tick.chip.rxRd sn.idx) + UdpHeader.LEN).toNat = (base + (p + 8)) % 65536 := by
      rw [UInt16.toNat_add, hrd]
      show (_ + 8) % 65536 = _
      omega
    have hlim : min16 (UInt16.ofNat g.payload.length) (UInt16.ofNat (w0.tick.chip.rxRsr sn.idx) - UdpHeader.LEN)
        = UInt16.ofNat g.payload.length := by
      apply u16_ext
      rw [min16_toNat, u16_sub_toNat, hrsr, hl]
      show min _ ((_ + 65536 - 8) % 65536) = _
      omega
    rw [hdes] at e1
    simp only at e1
    rw [hlim] at e1
    subst e2
    refine ⟨by rw [← e1], ?_⟩
    intro α prog
    have hdat : ((w0.tick.tick.tick.chip.received sn.idx).drop (p + 8)).take g.payload.length = g.payload := by
      rw [← List.drop_drop, ← ht, udpFrame_drop, List.take_left]
    have rel : RdRel (w0.tick.tick.tick, u.inner) ⟨g.payload, 0⟩ base p (p + 8) := by
      rw [← e1]
      constructor
      · exact h1
      · omega
      · have := congrArg List.length ht
        rw [List.length_append, udpFrame_length, List.length_drop] at this
        have := pre1.length_le
        simp only; omega
      · exact hdat.symm
      · exact Nat.zero_le _
      · exact hhead
      · simp only; rw [UInt16.toNat_add, hhead, hl]; omega
      · exact hhead
    obtain ⟨g1, g2⟩ := prog_sim prog rel
    have hsn : (prog.run (tcpReaderOps worldBus) (w0.tick.tick.tick, u.inner)).2.2.sn = sn := by
      rw [prog_sn prog _ _]; rw [← e1]
    have hcd := prog_cursor_data prog ⟨g.payload, 0⟩
    intro real spec
    have hreal : real = _ := udpReader_run prog _ _
    rw [hreal]
    have hpos := g2.pos
    have hrx := g2.rx
    have hglen := g2.len
    have htail := g2.tail
    rw [hcd] at hpos hglen htail
    rw [hsn] at hrx hglen
    refine ⟨g1, g2.streamPosition, hpos, hrx.state, ?_⟩
    obtain ⟨w2, e2, h2, _⟩ := RxAt.consume (w := (prog.run (tcpReaderOps worldBus) (w0.tick.tick.tick, u.inner)).2.1)
      (sn := sn) hrx.rx (prog.run (tcpReaderOps worldBus) (w0.tick.tick.tick, u.inner)).2.2.tail
      (q := p + (8 + g.payload.length))
      (by rw [htail]; show (base + (p + 8) + g.payload.length) % 65536 = _; omega) (by omega)
      (by simp only at hglen; omega)
    refine ⟨w2, ?_, h2.state⟩
    unfold udpReaderDone
    simp only
    rw [hsn]; exact e2

/-- C10 (UDP): the same read as a statement about cursors alone. -/
theorem C10_udp_reader_is_cursor (dbg : Bool) (sn : Sn) (p : Nat) (w w1 : World) (u : UdpReader) (g : Datagram)
    (rest : Bytes) (h : RxState w.chip sn.toU8.toNat p) (hg : g.payload.length < 65536)
    (hq : w.chip.unread sn.toU8.toNat = udpFrame g.src g.payload ++ rest)
    (hu : udpReader dbg worldBus sn w = (.ok u, w1)) {α : Type} (prog : RProg α) :
    (prog.run (udpReaderOps worldBus) (w1, u)).1 = (prog.run cursorOps ⟨g.payload, 0⟩).1 :=
  ((C17_udp_reader dbg sn p w w1 u g rest h hg hq hu).2 prog).1

/-- C17: in a release build `udp_reader` succeeds whenever a complete datagram is queued. -/
theorem C17_udp_reader_succeeds (sn : Sn) (p : Nat) (w : World) (g : Datagram) (rest : Bytes)
    (h : RxState w.chip sn.toU8.toNat p) (hq : w.chip.unread sn.toU8.toNat = udpFrame g.src g.payload ++ rest) :
    ∃ u w1, udpReader false worldBus sn w = (.ok u, w1) := by
  change RxState w.chip sn.idx p at h
  change w.chip.unread sn.idx = _ at hq
  obtain ⟨base, hb⟩ := h.at
  have hpre := unread_tick hb (X := udpFrame g.src g.payload) (by rw [hq]; exact List.prefix_append _ _)
  have hlen := hpre.length_le
  rw [udpFrame_length, List.length_drop] at hlen
  unfold udpReader
  rw [M.bind_ok (show debugAssert false (srIsUdp worldBus sn) w = (.ok (), w) from rfl), M.bind_ok (run_snRxRsr sn w),
    if_neg (fun hlt => by rw [u16_lt_LEN, hb.tick.rsr_toNat] at hlt; omega)]
  obtain ⟨h1, _, h3⟩ := run_header hb.tick (by omega)
  rw [M.bind_ok h1, M.bind_ok h3]
  exact ⟨_, _, rfl⟩

/-! ## C19 -/

/-- Equal but for the destination registers of socket `k`. -/
def ButDest (k : Nat) (c d : Mem) : Prop := ∀ b x, b ≠ 4 * k + 1 ∨ x < 0x0C ∨ 0x12 ≤ x → c b x = d b x

theorem ButDest.store {k : Nat} {c d : Mem} (h : ButDest k c d) (b x : Nat) (v v' : UInt8) (hv : v = v') :
    ButDest k (c.store b x v) (d.store b x v') := by
  subst hv
  intro b' x' hb
  unfold Mem.store
  split
  · rfl
  · exact h b' x' hb

theorem ButDest.setWord {k : Nat} {c d : Mem} (h : ButDest k c d) (b x v v' : Nat) (hv : v = v') :
    ButDest k (c.setWord b x v) (d.setWord b x v') := by
  subst hv
  exact (h.store _ _ _ _ rfl).store _ _ _ _ rfl

theorem ButDest.ringWrite {k : Nat} {c d : Mem} (h : ButDest k c d) (b s p : Nat) (bs : Bytes) :
    ButDest k (c.ringWrite b s p bs) (d.ringWrite b s p bs) := by
  induction bs generalizing c d p with
  | nil => exact h
  | cons x xs ih => exact ih (h.store _ _ _ _ rfl) _

theorem ButDest.word {k : Nat} {c d : Mem} (h : ButDest k c d) (b x : Nat) (hx : 0x12 ≤ x) : c.word b x = d.word b x := by
  unfold Mem.word
  rw [h b x (by omega), h b (x + 1) (by omega)]

theorem butDest_envStep {k : Nat} {c d : Chip} (h : ButDest k c.mem d.mem) (e : EnvStep) :
    ButDest k (c.envStep e).mem (d.envStep e).mem := by
  have hr : ∀ j, c.rxRsr j = d.rxRsr j := fun j => h.word _ _ (by omega)
  have hw : ∀ j, c.rxWr j = d.rxWr j := fun j => h.word _ _ (by omega)
  have hf : ∀ j, c.txFsr j = d.txFsr j := fun j => h.word _ _ (by omega)
  have hs : ∀ j, c.rxSize j = d.rxSize j := fun j => by unfold Chip.rxSize; rw [h _ _ (by omega)]
  have ht : ∀ j, c.txSize j = d.txSize j := fun j => by unfold Chip.txSize; rw [h _ _ (by omega)]
  cases e with
  | arrive j bs =>
    unfold Chip.envStep
    simp only [hr, hw, hs]
    split
    · exact (((h.setWord _ _ _ _ rfl).setWord _ _ _ _ rfl).ringWrite _ _ _ _)
    · exact h
  | status j s => exact h.store _ _ _ _ rfl
  | free j n => exact h.setWord _ _ _ _ (by rw [hf, ht])
  | raise j b => exact h.store _ _ _ _ (by rw [h _ _ (by omega)])

theorem butDest_ticks {k : Nat} (j : Nat) (c d : Chip) (sched : List (List EnvStep)) (h : ButDest k c.mem d.mem) :
    ButDest k (World.ticks j ⟨c, sched⟩).chip.mem (World.ticks j ⟨d, sched⟩).chip.mem := by
  induction j generalizing c d sched with
  | zero => exact h
  | succ n ih =>
    cases sched with
    | nil => exact ih c d [] h
    | cons es rest =>
      refine ih _ _ rest ?_
      clear ih
      induction es generalizing c d with
      | nil => exact h
      | cons e es ih => exact ih _ _ (butDest_envStep h e)

/-- Changing the destination registers does not change what the environment does to the free size. -/
theorem setDest_ticks_fsr (k : Nat) (a : SockAddr) (j : Nat) (w : World) :
    (World.ticks j { w with chip := setDest w.chip k a }).chip.txFsr k = (World.ticks j w).chip.txFsr k := by
  obtain ⟨c, sched⟩ := w
  exact (butDest_ticks j (setDest c k a) c sched (fun b x hb => setDest_same c k a b x hb)).word _ _ (by omega)


/-- C19: `udp_send_to` hands to the network nothing, or one datagram, addressed to `addr`, whose payload is
the first `n` bytes of the data, `n` the count returned: the smaller of the length of the data and the free
space when the call looked.  The transmit side is ready for the next send.  (A debug build may panic
instead, on its status check, and then nothing has been sent.) -/
theorem C19_udp_send_to (dbg : Bool) (sn : Sn) (buf : Bytes) (addr : SockAddr) (w : World)
    (h : TxState w.chip sn.toU8.toNat) :
    let k := sn.toU8.toNat
    let out := udpSendTo dbg worldBus sn buf addr w
    TxState out.2.chip k ∧
    ((dbg = true ∧ out.1 = .error .panic ∧ out.2.chip.sent = w.chip.sent) ∨
     ∃ j n, out.1 = .ok n ∧ n.toNat = min buf.length ((World.ticks (j + 2) w).chip.txFsr k) ∧
       out.2.chip.sent = w.chip.sent ++ if n = 0 then [] else [⟨k, addr.ip.octets, addr.port.toNat, buf.take n.toNat⟩]) := by
  change TxState w.chip sn.idx at h
  have ht := setDest_tx addr h.tick
  -- setting the destination commutes with the environment as far as the free size goes
  have hfsr : ∀ j, (World.ticks j { w.tick with chip := setDest w.tick.chip sn.idx addr }).chip.txFsr sn.idx
      = (World.ticks (j + 1) w).chip.txFsr sn.idx := fun j => setDest_ticks_fsr sn.idx addr j w.tick
  intro k out
  have hout : out = udpSend dbg worldBus sn buf { w.tick with chip := setDest w.tick.chip sn.idx addr } := by
    show udpSendTo dbg worldBus sn buf addr w = _
    unfold udpSendTo
    rw [M.bind_ok (run_setSnDest sn addr w)]
  refine ⟨(udpSendTo_rx dbg sn buf addr w h).2.1, ?_⟩
  rw [hout]
  rcases udpSend_run dbg sn buf { w.tick with chip := setDest w.tick.chip sn.idx addr } ht
    with ⟨w', hw', hd, e⟩ | ⟨w1, w', n, hw1, e, t⟩
  · left
    rw [e]
    refine ⟨hd, rfl, ?_⟩
    rcases hw' with rfl | rfl
    · exact tick_sent w
    · exact (tick_sent _).trans (tick_sent w)
  · right
    rw [e]
    have hs := t.sent
    have hc := t.count
    simp only [setDest_ip, setDest_port] at hs
    have hsent : (setDest w.tick.chip sn.idx addr).sent = w.chip.sent := tick_sent w
    rw [hsent] at hs
    rcases hw1 with rfl | rfl
    · exact ⟨0, n, rfl, hc.trans (by rw [show World.tick _ = World.ticks 1 _ from rfl, hfsr 1]), hs⟩
    · exact ⟨1, n, rfl, hc.trans (by rw [show World.tick (World.tick _) = World.ticks 2 _ from rfl, hfsr 2]), hs⟩

/-! ## C18 -/

/-- C18, the part that holds: data that fits is sent whole and its length returned, data longer than
65535 bytes is not sent and 0 is returned.  The case in between — up to 65535 bytes but more than the free
space — is the one where the property fails, below. -/
theorem C18_send_if_free_partial (dbg : Bool) (sn : Sn) (buf : Bytes) (w : World) (h : TxState w.chip sn.toU8.toNat)
    (hf : ∀ j, buf.length ≤ (World.ticks j w).chip.txFsr sn.toU8.toNat ∨ 65535 < buf.length) :
    let k := sn.toU8.toNat
    let out := udpSendIfFree dbg worldBus sn buf w
    (dbg = true ∧ out.1 = .error .panic ∧ out.2.chip.sent = w.chip.sent) ∨
    (buf.length ≤ 65535 ∧ out.1 = .ok (UInt16.ofNat buf.length) ∧
      out.2.chip.sent = w.chip.sent ++ [⟨k, w.chip.destIp k, w.chip.destPort k, buf⟩]) ∨
    (65535 < buf.length ∧ out.1 = .ok 0 ∧ out.2.chip.sent = w.chip.sent) := by
  change TxState w.chip sn.idx at h
  intro k out
  have sentOr : ∀ {w' : World}, w' = w ∨ w' = w.tick → w'.chip.sent = w.chip.sent := by
    rintro w' (rfl | rfl)
    · rfl
    · exact tick_sent w
  rcases udpSendIfFree_run dbg sn buf w h with ⟨w', hw', hd, e⟩ | ⟨w0, hw0, ⟨hl, e⟩ | ⟨hl, hlt, e⟩ | ⟨hle, w', e, hs, _⟩⟩
  · left; simp only [out, e]; exact ⟨hd, trivial, sentOr hw'⟩
  · right; right; simp only [out, e]; exact ⟨by omega, trivial, sentOr hw0⟩
  · exfalso
    have : ∃ j, w0.tick = World.ticks j w := by
      rcases hw0 with rfl | rfl
      · exact ⟨1, rfl⟩
      · exact ⟨2, rfl⟩
    obtain ⟨j, hj⟩ := this
    rw [hj] at hlt
    have := hf j
    change buf.length ≤ (World.ticks j w).chip.txFsr sn.idx ∨ _ at this
    omega
  · right; left; simp only [out, e]
    refine ⟨?_, trivial, hs⟩
    have h0 : TxState w0.tick.chip sn.idx := by
      rcases hw0 with rfl | rfl
      · exact h.tick
      · exact h.tick.tick
    have := h0.fsr_le; have := h0.size_lt; omega

/-- A chip with an idle socket 0, in UDP mode, and 1 byte free in its transmit buffer. -/
def almostFull : Chip :=
  { mem := fun b a => if b = 1 then (if a = 3 then 0x22 else if a = 0x1E then 2 else if a = 0x1F then 2 else if a = 0x21 then 1 else 0) else 0
    sent := [], received := fun _ => [] }

theorem almostFull_tx : TxState almostFull 0 := ⟨by decide +kernel, by decide +kernel, by decide +kernel, by decide +kernel⟩

/-- C18 does not hold: with 1 byte free, sending 2 bytes reports 2 although nothing is sent. -/
theorem C18_send_if_free_wrong_count_partial :
    ∃ (w : World) (sn : Sn) (buf : Bytes) (addr : SockAddr), TxState w.chip sn.toU8.toNat ∧
      (udpSendIfFree true worldBus sn buf w).1 = .ok 2 ∧ (udpSendIfFree true worldBus sn buf w).2.chip.sent = w.chip.sent ∧
      (udpSendToIfFree true worldBus sn buf addr w).1 = .ok 2 ∧
      (udpSendToIfFree true worldBus sn buf addr w).2.chip.sent = w.chip.sent := by
  exact ⟨⟨almostFull, []⟩, .sn0, [1, 2], ⟨⟨10, 0, 0, 1⟩, 53⟩, almostFull_tx, by decide +kernel, by decide +kernel,
    by decide +kernel, by decide +kernel⟩

/-- C18, in general: whatever the free space, `udp_send_if_free` sends the data whole or not at all. -/
theorem C18_all_or_nothing_partial (dbg : Bool) (sn : Sn) (buf : Bytes) (w : World) (h : TxState w.chip sn.toU8.toNat) :
    let k := sn.toU8.toNat
    let out := udpSendIfFree dbg worldBus sn buf w
    out.2.chip.sent = w.chip.sent ∨
      out.2.chip.sent = w.chip.sent ++ [⟨k, w.chip.destIp k, w.chip.destPort k, buf⟩] ∧ out.1 = .ok (UInt16.ofNat buf.length) := by
  change TxState w.chip sn.idx at h
  intro k out
  have sentOr : ∀ {w' : World}, w' = w ∨ w' = w.tick → w'.chip.sent = w.chip.sent := by
    rintro w' (rfl | rfl)
    · rfl
    · exact tick_sent w
  rcases udpSendIfFree_run dbg sn buf w h with ⟨w', hw', hd, e⟩ | ⟨w0, hw0, ⟨hl, e⟩ | ⟨hl, hlt, e⟩ | ⟨hle, w', e, hs, _⟩⟩
  · left; simp only [out, e]; exact sentOr hw'
  · left; simp only [out, e]; exact sentOr hw0
  · left; simp only [out, e]; exact (tick_sent w0).trans (sentOr hw0)
  · right; simp only [out, e]; exact ⟨hs, trivial⟩

/-- C18, for `udp_send_to_if_free`: data that fits is sent whole, to the address that was given, and its length returned; data longer than
65535 bytes is not sent and 0 is returned. -/
theorem C18_send_to_if_free_partial (dbg : Bool) (sn : Sn) (buf : Bytes) (addr : SockAddr) (w : World) (h : TxState w.chip sn.toU8.toNat)
    (hf : ∀ j, buf.length ≤ (World.ticks j w).chip.txFsr sn.toU8.toNat ∨ 65535 < buf.length) :
    let out := udpSendToIfFree dbg worldBus sn buf addr w
    (dbg = true ∧ out.1 = .error .panic ∧ out.2.chip.sent = w.chip.sent) ∨
    (buf.length ≤ 65535 ∧ out.1 = .ok (UInt16.ofNat buf.length) ∧
      out.2.chip.sent = w.chip.sent ++ [⟨sn.toU8.toNat, addr.ip.octets, addr.port.toNat, buf⟩]) ∨
    (65535 < buf.length ∧ out.1 = .ok 0 ∧ out.2.chip.sent = w.chip.sent) := by
  change TxState w.chip sn.idx at h
  intro out
  have hout : out = udpSendIfFree dbg worldBus sn buf { w.tick with chip := setDest w.tick.chip sn.idx addr } := by
    show udpSendToIfFree dbg worldBus sn buf addr w = _
    unfold udpSendToIfFree
    rw [M.bind_ok (run_setSnDest sn addr w)]
  have := C18_send_if_free_partial dbg sn buf { w.tick with chip := setDest w.tick.chip sn.idx addr } (setDest_tx addr h.tick) fun j => by
    rw [show (World.ticks j { w.tick with chip := setDest w.tick.chip sn.idx addr }).chip.txFsr sn.toU8.toNat
      = (World.ticks (j + 1) w).chip.txFsr sn.idx from setDest_ticks_fsr sn.idx addr j w.tick]
    exact hf (j + 1)
  have hsent : (setDest w.tick.chip sn.idx addr).sent = w.chip.sent := tick_sent w
  rw [hout]
  simp only [show sn.toU8.toNat = sn.idx from rfl, setDest_ip, setDest_port, hsent] at this ⊢
  exact this

/-- C18, in general, for `udp_send_to_if_free`: all or nothing, to the address that was given. -/
theorem C18_send_to_all_or_nothing_partial (dbg : Bool) (sn : Sn) (buf : Bytes) (addr : SockAddr) (w : World) (h : TxState w.chip sn.toU8.toNat) :
    let out := udpSendToIfFree dbg worldBus sn buf addr w
    out.2.chip.sent = w.chip.sent ∨
      out.2.chip.sent = w.chip.sent ++ [⟨sn.toU8.toNat, addr.ip.octets, addr.port.toNat, buf⟩] ∧ out.1 = .ok (UInt16.ofNat buf.length) := by
  change TxState w.chip sn.idx at h
  intro out
  have hout : out = udpSendIfFree dbg worldBus sn buf { w.tick with chip := setDest w.tick.chip sn.idx addr } := by
    show udpSendToIfFree dbg worldBus sn buf addr w = _
    unfold udpSendToIfFree
    rw [M.bind_ok (run_setSnDest sn addr w)]
  have := C18_all_or_nothing_partial dbg sn buf { w.tick with chip := setDest w.tick.chip sn.idx addr } (setDest_tx addr h.tick)
  have hsent : (setDest w.tick.chip sn.idx addr).sent = w.chip.sent := tick_sent w
  rw [hout]
  simp only [show sn.toU8.toNat = sn.idx from rfl, setDest_ip, setDest_port, hsent] at this ⊢
  exact this

example : (udpSendToIfFree true worldBus .sn0 [7] ⟨⟨10, 0, 0, 1⟩, 53⟩ ⟨almostFull, []⟩).2.chip.sent = [⟨0, [10, 0, 0, 1], 53, [7]⟩] := by
  decide +kernel

/-! ## C25 -/

/-- Reports `WouldBlock` only after having done nothing itself. -/
def BlocksCleanly {α : Type} (m : M World α) : Prop :=
  ∀ w w', m w = (.error .wouldBlock, w') → ∃ j, w' = World.ticks j w

theorem ReadOnly.blocksCleanly {α : Type} {m : M World α} (h : ReadOnly m) : BlocksCleanly m := by
  intro w w' e
  obtain ⟨j, hj⟩ := h w
  exact ⟨j, by rw [e] at hj; exact hj⟩

theorem BlocksCleanly.bind {α β : Type} {m : M World α} {f : α → M World β} (hm : ReadOnly m)
    (hf : ∀ a, BlocksCleanly (f a)) : BlocksCleanly (m >>= f) := by
  intro w w' e
  rw [M.bind_run] at e
  obtain ⟨j, hj⟩ := hm w
  rcases e1 : m w with ⟨e2 | a, w1⟩
  · rw [e1] at e hj
    simp only [Prod.mk.injEq] at e
    exact ⟨j, by rw [← e.2]; exact hj⟩
  · rw [e1] at e hj
    obtain ⟨i, hi⟩ := hf a w1 w' e
    refine ⟨j + i, ?_⟩
    rw [hi, ← ticks_add]
    exact congrArg _ hj

theorem BlocksCleanly.ite {α : Type} {c : Prop} [Decidable c] {m n : M World α} (hm : BlocksCleanly m)
    (hn : BlocksCleanly n) : BlocksCleanly (if c then m else n) := by split <;> assumption

/-- Never reports `WouldBlock`. -/
def NeverBlocks {α : Type} (m : M World α) : Prop := ∀ w, (m w).1 ≠ .error .wouldBlock

theorem NeverBlocks.cleanly {α : Type} {m : M World α} (h : NeverBlocks m) : BlocksCleanly m :=
  fun w w' e => absurd (by rw [e]) (h w)

theorem NeverBlocks.bind {α β : Type} {m : M World α} {f : α → M World β} (hm : NeverBlocks m)
    (hf : ∀ a, NeverBlocks (f a)) : NeverBlocks (m >>= f) := by
  intro w
  rw [M.bind_run]
  have := hm w
  rcases e : m w with ⟨e1 | a, w'⟩
  · rw [e] at this
    simpa using this
  · exact hf a w'

theorem readOnly_snSr (sn : Sn) : ReadOnly (worldBus.snSr sn) := .tick fun w => by rw [run_snSr]
theorem readOnly_srIsUdp (sn : Sn) : ReadOnly (srIsUdp worldBus sn) := .bind (readOnly_snSr sn) fun _ => .pure _
theorem readOnly_notUdp (sn : Sn) : ReadOnly (notUdpInitMacraw worldBus sn) := .bind (readOnly_snSr sn) fun _ => .pure _
theorem readOnly_snRxRsr (sn : Sn) : ReadOnly (worldBus.snRxRsr sn) := .tick fun w => by rw [run_snRxRsr]
theorem readOnly_snRxRd (sn : Sn) : ReadOnly (worldBus.snRxRd sn) := .tick fun w => by rw [run_snRxRd]
theorem readOnly_snRxBuf (sn : Sn) (p : UInt16) (n : Nat) : ReadOnly (worldBus.snRxBuf sn p n) := .tick fun _ => rfl

theorem consume_neverBlocks {α : Type} (sn : Sn) (p : UInt16) (x : α) :
    NeverBlocks (worldBus.setSnRxRd sn p >>= fun _ => worldBus.setSnCr sn .recv >>= fun _ => (pure x : M World α)) :=
  .bind (fun w => by rw [run_setSnRxRd]; nofun) fun _ => .bind (fun w => by rw [run_setSnCr]; nofun) fun _ => fun _ => nofun

/-- C25: for every chip state (not only consistent ones), if one of the calls that receive reports
`WouldBlock`, then only the environment has acted; in particular, without environment activity the chip is
exactly as it was. -/
theorem C25_would_block (dbg : Bool) (sn : Sn) (n : Nat) :
    BlocksCleanly (tcpReader dbg worldBus sn) ∧ BlocksCleanly (tcpRead dbg worldBus sn n) ∧
    BlocksCleanly (udpRecvFrom dbg worldBus sn n) ∧ BlocksCleanly (udpPeekFrom dbg worldBus sn n) ∧
    BlocksCleanly (udpPeekFromHeader dbg worldBus sn) ∧ BlocksCleanly (udpReader dbg worldBus sn) := by
  have dU := readOnly_debugAssert dbg (readOnly_srIsUdp sn)
  have dT := readOnly_debugAssert dbg (readOnly_notUdp sn)
  refine ⟨?_, ?_, ?_, ?_, ?_, ?_⟩
  · exact .bind dT fun _ => .bind (readOnly_snRxRsr sn) fun _ => .ite (ReadOnly.throw _).blocksCleanly
      (.bind (readOnly_snRxRd sn) fun _ => (ReadOnly.pure _).blocksCleanly)
  · refine .bind dT fun _ => .bind (readOnly_snRxRsr sn) fun _ => ?_
    show BlocksCleanly (if _ then _ else _)
    exact .ite (.bind (readOnly_snRxRd sn) fun _ => .bind (readOnly_snRxBuf sn _ _) fun _ =>
      (consume_neverBlocks sn _ _).cleanly) (ReadOnly.pure _).blocksCleanly
  · refine .bind (readOnly_snRxRsr sn) fun _ => .ite (ReadOnly.throw _).blocksCleanly (.bind dU fun _ =>
      .bind (readOnly_snRxRd sn) fun _ => .bind (readOnly_snRxBuf sn _ _) fun _ => ?_)
    show BlocksCleanly (if _ then _ else _)
    refine .ite (ReadOnly.throw _).blocksCleanly ?_
    show BlocksCleanly (if _ then _ else _)
    exact .ite (.bind (readOnly_snRxBuf sn _ _) fun _ => (consume_neverBlocks sn _ _).cleanly)
      (.bind (.pure _) fun _ => (consume_neverBlocks sn _ _).cleanly)
  · refine .bind (readOnly_snRxRsr sn) fun _ => .ite (ReadOnly.throw _).blocksCleanly (.bind dU fun _ =>
      .bind (readOnly_snRxRd sn) fun _ => .bind (readOnly_snRxBuf sn _ _) fun _ => ?_)
    show BlocksCleanly (if _ then _ else _)
    refine .ite (ReadOnly.throw _).blocksCleanly ?_
    show BlocksCleanly (if _ then _ else _)
    exact .ite (.bind (readOnly_snRxBuf sn _ _) fun _ => (ReadOnly.pure _).blocksCleanly)
      (.bind (.pure _) fun _ => (ReadOnly.pure _).blocksCleanly)
  · exact .bind (readOnly_snRxRsr sn) fun _ => .ite (ReadOnly.throw _).blocksCleanly (.bind dU fun _ =>
      .bind (readOnly_snRxRd sn) fun _ => .bind (readOnly_snRxBuf sn _ _) fun _ => (ReadOnly.pure _).blocksCleanly)
  · exact .bind dU fun _ => .bind (readOnly_snRxRsr sn) fun _ => .ite (ReadOnly.throw _).blocksCleanly
      (.bind (readOnly_snRxRd sn) fun _ => .bind (readOnly_snRxBuf sn _ _) fun _ => (ReadOnly.pure _).blocksCleanly)

/-- C25: without environment activity, `WouldBlock` from a receive call means that the chip is unchanged. -/
theorem C25_would_block_unchanged {α : Type} (m : M World α) (hm : BlocksCleanly m) (chip chip' : Chip) (sched') :
    m ⟨chip, []⟩ = (.error .wouldBlock, ⟨chip', sched'⟩) → chip' = chip := by
  intro e
  obtain ⟨j, hj⟩ := hm _ _ e
  rw [ticks_nil] at hj
  injection hj

/-! ## The hypotheses are met -/

/-- Two datagrams, the second arriving while the first is being handled. -/
def g1 : Datagram := ⟨⟨⟨10, 0, 0, 1⟩, 53⟩, [1, 2, 3, 4]⟩
def g2 : Datagram := ⟨⟨⟨10, 0, 0, 2⟩, 54⟩, []⟩

def udpWorld : World :=
  { chip := { mem := fun b a => if b % 4 = 1 ∧ (a = 0x1E ∨ a = 0x1F) then 2 else 0, sent := [], received := fun _ => [] }
    sched := [[], [], [], [], [], [.arrive 5 (frames [g1])], [], [], [.arrive 5 (frames [g2])]] }

def bound : World := (OpenCall.exec false 3 .sn5 (.bind 1234) udpWorld).2

theorem bound_state : RxState bound.chip 5 0 ∧ TxState bound.chip 5 := by
  have e : OpenCall.exec false 3 .sn5 (.bind 1234) udpWorld = (.ok (), bound) := by
    have : (OpenCall.exec false 3 .sn5 (.bind 1234) udpWorld).1 = .ok () := by decide +kernel
    exact Prod.ext this rfl
  exact C12_open_establishes false 3 .sn5 (.bind 1234) udpWorld bound (by decide +kernel) (by decide +kernel)
    (by decide +kernel) (by decide +kernel) e

example : bound.chip.unread 5 = udpFrame g1.src g1.payload ++ [] ∧ bound.chip.received 5 = frames ([] ++ [g1]) ∧
    (∀ es ∈ bound.sched, ∀ bs, EnvStep.arrive 5 bs ∈ es → bs = frames [g2]) := by
  refine ⟨by decide +kernel, by decide +kernel, ?_⟩
  have : bound.sched = [[], [], [.arrive 5 (frames [g2])]] := by decide +kernel
  rw [this]
  intro es he bs hb
  simp only [List.mem_cons, List.not_mem_nil, or_false] at he
  rcases he with rfl | rfl | rfl <;> simp at hb
  exact hb

example : (runUdp true 0 .sn5 [.peekFrom 2, .recvFrom 3, .sendTo [7] g1.src, .recvFrom 10, .recvFrom 10] bound).1
    = [g1.given 3, g2.given 10] := by decide +kernel
example : (udpReader true worldBus .sn5 bound).1.toOption.isSome := by decide +kernel
example : (udpSendTo true worldBus .sn5 [7, 8] g2.src bound).2.chip.sent = [⟨5, [10, 0, 0, 2], 54, [7, 8]⟩] := by decide +kernel
example : (udpRecvFrom true worldBus .sn5 3 ⟨almostFull, []⟩).1 = .error .wouldBlock := by decide +kernel
example : (udpSendIfFree true worldBus .sn0 [7] ⟨almostFull, []⟩).2.chip.sent = [⟨0, [0, 0, 0, 0], 0, [7]⟩] := by decide +kernel

end Verif.Thm

import Verif.Proof.TlsGrows
import Verif.Thm.TlsWaits
/-!
# A call of the TLS client while the records of a stream arrive
-/
namespace Verif.Tls
open Verif Hl
open _root_.Verif.Spec (World worldBus TxState RxState Queue Chip Mem)

variable {x : Crypto}

/-- The device after the next access, and nothing before the access after it. -/
def ahead (w : World) : World := ⟨w.tick.chip, [] :: w.tick.sched⟩

theorem ahead_tick (w : World) : (ahead w).tick = w.tick := rfl

theorem tcpReader_ahead (sn : Sn) (w : World) : tcpReader false worldBus sn w = tcpReader false worldBus sn (ahead w) := by
  unfold tcpReader
  rw [show (debugAssert false (notUdpInitMacraw worldBus sn) : M World Unit) = pure () from rfl, pure_bind,
    M.bind_ok (run_snRxRsr sn w), M.bind_ok (run_snRxRsr sn (ahead w)), ahead_tick]

theorem recvHeader_ahead (w : World) (c : Client x) : recvHeader false worldBus (w, c) = recvHeader false worldBus (ahead w, c) := by
  unfold recvHeader
  rw [X.bind_ok (getC_run (w, c)), X.bind_ok (getC_run (ahead w, c)), X.bind_run, X.bind_run]
  have : (onHl (tcpReader false worldBus c.sn) : X AlertDescription (World × Client x) Ptrs) (w, c)
      = onHl (tcpReader false worldBus c.sn) (ahead w, c) := by
    unfold onHl X.onFst X.mapErr X.ofM
    dsimp only
    rw [tcpReader_ahead]
  dsimp only
  rw [this]

theorem recv_ahead (fuel : Nat) (secs : UInt32) (w : World) (c : Client x) :
    recv false fuel worldBus secs (w, c) = recv false fuel worldBus secs (ahead w, c) := by
  unfold recv
  rw [X.bind_run, X.bind_run]
  have : orFatal worldBus secs (recvHeader false worldBus) (w, c) = orFatal worldBus secs (recvHeader false worldBus) (ahead w, c) := by
    unfold orFatal
    rw [X.bind_run, X.bind_run]
    have h' : (X.attempt (recvHeader false worldBus) : X TErr (World × Client x) _) (w, c) = X.attempt (recvHeader false worldBus) (ahead w, c) := by
      unfold X.attempt
      rw [recvHeader_ahead]
    rw [h']
  rw [this]

/-- A header whose record has not arrived completely when the client looks is left. -/
theorem recvHeader_short {w : World} {base p m : Nat} (c : Client x) (hb : Bytes) (ct : ContentType)
    (hrx : RxAt w.chip c.sn.idx base p) (htx : TxState w.chip c.sn.idx)
    (hbytes : ((w.tick.chip.received c.sn.idx).drop p).take 5 = hb)
    (hct : ContentType.tryFrom (hb.getD 0 0) = .ok ct) (hm : (be16 (hb.getD 3 0) (hb.getD 4 0)).toNat = m)
    (hlim : m ≤ c.recordSizeLimit.toNat) (hlen : p + 5 ≤ (w.tick.chip.received c.sn.idx).length)
    (hinc : (w.tick.chip.received c.sn.idx).length < p + 5 + m) (hm5 : m + 5 < 65536) :
    recvHeader false worldBus (w, c) = (.ok none, (w.tick.tick.tick, c)) := by
  unfold recvHeader
  rw [X.bind_ok (getC_run (w, c))]
  have h2 : RxAt w.tick.chip c.sn.idx base p := hrx.tick
  have h3 : RxAt w.tick.tick.chip c.sn.idx base p := h2.tick
  have hs3 : Sock w.tick w.tick.tick c.sn.idx base p :=
    Sock.tick ⟨h2.rx, htx.tick, rfl, List.prefix_rfl, id, Nat.le_refl _, fun e => ⟨e, rfl⟩, List.suffix_rfl, rfl⟩
  have hrsr := h2.rsr_toNat
  have hb' := u16_lt (UInt16.ofNat (w.tick.chip.rxRsr c.sn.idx))
  have hne : UInt16.ofNat (w.tick.chip.rxRsr c.sn.idx) ≠ 0 := by rw [u16_ne_zero, hrsr]; omega
  have hptr : (UInt16.ofNat (w.tick.tick.chip.rxRd c.sn.idx)).toNat = (base + p) % 65536 := by
    rw [ofNat16_toNat (by rw [h3.rd]; omega), h3.rd]
  have hsub : ∀ a b : UInt16, a + b - a = b := by
    intro a b
    apply u16_ext
    have := u16_lt a; have := u16_lt b
    rw [u16_sub_toNat, UInt16.toNat_add]
    omega
  obtain ⟨r, e1, hsn, hp0, hsl, hrem⟩ : ∃ r, tcpReader false worldBus c.sn w = (.ok r, w.tick.tick) ∧ r.sn = c.sn ∧
      r.ptr.toNat = (base + p) % 65536 ∧ r.streamLen.toNat = (w.tick.chip.received c.sn.idx).length - p ∧
      r.remain.toNat = (w.tick.chip.received c.sn.idx).length - p := by
    unfold tcpReader
    rw [show (debugAssert false (notUdpInitMacraw worldBus c.sn) : M World Unit) = pure () from rfl, pure_bind,
      M.bind_ok (run_snRxRsr c.sn w), if_neg hne, M.bind_ok (run_snRxRd c.sn w.tick)]
    refine ⟨_, rfl, rfl, hptr, ?_, ?_⟩
    · show (_ + _ - _ : UInt16).toNat = _
      rw [hsub, hrsr]
    · show (_ + _ - _ : UInt16).toNat = _
      rw [hsub, hrsr]
  have hmin : min16 r.remain (lenU16 5) = 5 := by
    apply u16_ext
    rw [min16_toNat, hrem, lenU16_toNat]
    show _ = 5
    omega
  have e2 : tcpReaderReadExact worldBus r 5 w.tick.tick = (.ok (hb, { r with ptr := r.ptr + 5 }), w.tick.tick.tick) := by
    unfold tcpReaderReadExact
    simp only [hmin]
    rw [if_neg (by decide), hsn, M.bind_ok (hs3.read r.ptr p 5 hp0 (Nat.le_refl _) (by omega)), hbytes]
    rfl
  have hlenEq : RecordHeader.length (toHeader hb) = be16 (hb.getD 3 0) (hb.getD 4 0) := rfl
  have hdes : RecordHeader.deser (toHeader hb) = .ok (toHeader hb) := by
    unfold RecordHeader.deser
    have : (toHeader hb)[0] = hb.getD 0 0 := rfl
    rw [this, hct]
  have hm' := u16_lt (be16 (hb.getD 3 0) (hb.getD 4 0))
  have hcl := u16_lt c.recordSizeLimit
  rw [X.bind_ok (onHl_ok' e1 c), X.bind_ok (onHl_ok' e2 c)]
  dsimp only
  rw [hdes, show (X.ofExcept (Except.ok (toHeader hb)) : X AlertDescription (World × Client x) _) = pure (toHeader hb) from rfl, pure_bind,
    if_neg (by rw [GT.gt, UInt16.lt_iff_toNat_lt, hlenEq, hm]; omega),
    if_pos (by
      rw [show ({ r with ptr := r.ptr + 5 } : Ptrs).streamLen = r.streamLen from rfl, hsl, hlenEq, hm]
      omega)]
  rfl

/-- Nothing happened to the client. -/
structure Waited (w : World) (c : Client x) (t : Bytes) (p : Nat) (unread : Bytes) (r : Except (Fail TErr) TEvent × (World × Client x)) : Prop where
  event : r.1 = .ok .none
  same : r.2.2 = c
  ready : Ready r.2.1 c t p unread
  sent : r.2.1.chip.sent = w.chip.sent
  received : w.chip.received c.sn.toU8.toNat <+: r.2.1.chip.received c.sn.toU8.toNat
  peace : Peace c.sn.toU8.toNat r.2.1

theorem process_onward (dbg : Bool) (fuel : Nat) (rng : Rng x) (secs : UInt32) {w : World} {c : Client x} {t : Bytes} {p : Nat} {unread : Bytes}
    (hr : Ready w c t p unread) (hpc : Peace c.sn.toU8.toNat w) : Onward c.sn.toU8.toNat w (process dbg fuel worldBus rng secs (w, c)).2.1 := by
  obtain ⟨base, hat⟩ := hr.rx.at
  have hcon := connected_state hr.connected
  obtain ⟨w1, hs1, -, hproc⟩ := process_quiet dbg fuel rng secs c (by rw [hcon]; rfl) hat hr.tx (Peace.quiet (c := c) hpc)
  rw [hproc]
  refine (show Onward c.sn.idx w w1 from ⟨hs1.pre, hs1.still⟩).trans ?_
  have h : Grows c.sn.idx (receiveRecords dbg fuel worldBus secs : X _ (World × Client x) _) := by
    refine Grows.getC.bind fun c => .ite (.checkTimeout _ _) ((Grows.orFatal _ (.onBus (.snRxRsr _))).bind fun _ => .ite ((Grows.recv _ _ _).bind fun ev => ?_) (.afterRecv _ _))
    cases ev with
    | some ev => exact Grows.pure _
    | none => exact Grows.afterRecv _ _
  exact h (w1, c)

theorem afterRecv_idle (secs : UInt32) (w : World) (c : Client x) (h : c.state = .connected) (ht : c.timeout = none) :
    afterRecv false worldBus secs (w, c) = (.ok .none, (w, c)) := by
  unfold afterRecv
  rw [X.bind_ok (getC_run (w, c))]
  dsimp only
  rw [if_neg (by rw [h]; simp)]
  unfold checkTimeout Client.elapsedSecs
  rw [X.bind_ok (getC_run (w, c))]
  dsimp only
  rw [ht]
  rfl

/-- A call while the records of a stream arrive (in a release build): if what has arrived is consistent with the stream, the call takes
the next record or, if that has not arrived completely, nothing. -/
theorem take_cases (hx : x.Standard) (fuel : Nat) (rng : Rng x) (secs : UInt32) {w : World} {c : Client x} {t : Bytes} {p : Nat}
    {unread : Bytes} (hr : Ready w c t p unread) (hto : c.timeout = none) (hpc : Peace c.sn.toU8.toNat w) (next : Option (Bytes × Bytes))
    (hst : ((process false fuel worldBus rng secs (w, c)).2.1.chip.received c.sn.toU8.toNat).drop p <+:
      next.elim [] (fun y => Spec.Tls.protect t c.ks.readSeq.toNat 23 y.1 ++ y.2))
    (hnext : ∀ y, next = some y → y.1.length + 17 ≤ c.recordSizeLimit.toNat ∧ unread.length + y.1.length + 2 ≤ c.rx.n) :
    let r := process false fuel worldBus rng secs (w, c)
    (Waited w c t p unread r ∧ ∀ y, next = some y →
      ¬ Spec.Tls.protect t c.ks.readSeq.toNat 23 y.1 <+: (w.chip.received c.sn.toU8.toNat).drop p) ∨
    ∃ y, next = some y ∧ Delivered w c t p unread y.1 (y.1.length + 17) r := by
  intro r
  obtain ⟨base, hat⟩ := hr.rx.at
  have hcon := connected_state hr.connected
  obtain ⟨w1, hs1, hrd1, hproc⟩ := process_quiet false fuel rng secs c (by rw [hcon]; rfl) hat hr.tx (Peace.quiet (c := c) hpc)
  change r = _ at hproc
  change (r.2.1.chip.received c.sn.toU8.toNat).drop p <+: _ at hst
  have h2 : RxAt w1.tick.chip c.sn.idx base p := ⟨hs1.tick.rx, by rw [tick_rxRd]; exact hrd1⟩
  have hs2 := hs1.tick
  unfold receiveRecords at hproc
  rw [X.bind_ok (getC_run (w1, c))] at hproc
  dsimp only at hproc
  rw [if_neg (by rw [hcon]; simp), X.bind_ok (orFatal_ok (onBus_ok' (run_snRxRsr c.sn w1) c))] at hproc
  have waited : ∀ w', Sock w w' c.sn.idx base p → w'.chip.rxRd c.sn.idx = (base + p) % 65536 → r = (.ok .none, (w', c)) →
      Waited w c t p unread r := by
    intro w' hs hrd e
    rw [e]
    exact ⟨rfl, rfl, ⟨hr.connected, hr.traffic, hr.client, hr.seq, hr.holds, RxAt.state ⟨hs.rx, hrd⟩, hs.tx⟩, hs.sent, hs.pre, hs.peace hpc⟩
  by_cases h5 : (w1.tick.chip.received c.sn.idx).length < p + 5
  · left
    rw [if_neg (by rw [GE.ge, UInt16.le_iff_toNat_le, h2.rsr_toNat]; show ¬ 5 ≤ _; omega), afterRecv_idle secs _ c hcon hto] at hproc
    refine ⟨waited _ hs2 h2.rd hproc, fun y _ hpre => ?_⟩
    have l1 := (hpre.trans (prefix_drop hs2.pre p)).length_le
    rw [protect_length, List.length_drop] at l1
    have l2 : (w1.tick.chip.received c.sn.toU8.toNat).length < p + 5 := h5
    change _ ≤ (w1.tick.chip.received c.sn.toU8.toNat).length - p at l1
    omega
  · rw [if_pos (by rw [GE.ge, UInt16.le_iff_toNat_le, h2.rsr_toNat]; show 5 ≤ _; omega)] at hproc
    generalize hw2 : w1.tick = w2 at *
    have h3 : RxAt w2.tick.chip c.sn.idx base p := h2.tick
    have hs3 := hs2.tick
    have hle3 := (tick_received_prefix w2 c.sn.idx).length_le
    rw [X.bind_run, recv_ahead, ← X.bind_run] at hproc
    have hgrow : w2.tick.chip.received c.sn.idx <+: r.2.1.chip.received c.sn.idx := by
      rw [hproc]
      refine (Grows.bind (k := c.sn.idx) (Grows.recv (x := x) false fuel secs) (fun ev => ?_) (ahead w2, c)).pre
      cases ev with
      | some ev => exact Grows.pure _
      | none => exact Grows.afterRecv _ _
    have hS : (w2.tick.chip.received c.sn.idx).drop p <+: _ := (prefix_drop hgrow p).trans hst
    have hSl := List.length_drop (i := p) (l := w2.tick.chip.received c.sn.idx)
    cases next with
    | none =>
      have := hS.length_le
      rw [List.length_drop] at this
      change _ ≤ 0 at this
      omega
    | some y =>
    obtain ⟨content, more⟩ := y
    obtain ⟨hlim, hfit⟩ := hnext _ rfl
    change _ <+: Spec.Tls.protect t c.ks.readSeq.toNat 23 content ++ more at hS
    dsimp only at hlim hfit
    obtain ⟨header, record, e1, e2, e3, e4⟩ := protect_opens t c.ks.readSeq.toNat 23 content
    have e2' := e2
    obtain ⟨v1, v2, hh⟩ := e2'
    have hl5 : header.length = 5 := by rw [hh]; rfl
    have hlt := u16_lt c.recordSizeLimit
    have hsm : c.rx.n ≤ 32768 := hr.holds.small
    have hct : header.getD 0 0 = 23 := by rw [hh]; rfl
    have hm : (be16 (header.getD 3 0) (header.getD 4 0)).toNat = record.length := by
      rw [hh]; exact u16_value record.length (by omega)
    have hprl := protect_length t c.ks.readSeq.toNat 23 content
    rw [e1] at hS
    by_cases hc : header ++ record <+: (w2.tick.chip.received c.sn.idx).drop p
    · -- complete
      right
      refine ⟨_, rfl, ?_⟩
      dsimp only
      have hpl := hc.length_le
      rw [List.length_append, hl5] at hpl
      have htake : (((ahead w2).chip.received c.sn.idx).drop p).take (5 + record.length) = header ++ record := by
        have := List.prefix_iff_eq_take.mp hc
        rw [List.length_append, hl5] at this
        exact this.symm
      have hsA : Sock (ahead w2) (ahead w2) c.sn.idx base p :=
        ⟨h3.rx, hs3.tx, rfl, List.prefix_rfl, id, Nat.le_refl _, fun e => ⟨e, rfl⟩, List.suffix_rfl, rfl⟩
      have hrun := recv_run hx false fuel secs (cap := c.rx.n - 1) (app := unread) c header record t hsA h3.rd hl5 htake hct hm
        (by omega) (by omega) hr.holds (by omega) hr.traffic hr.seq
      rcases hrun with ⟨_, hd, -⟩ | ⟨w3, rx1, pend, g1, g2, -, -, -, g5⟩
      · cases hd
      obtain ⟨rx2, hq, er⟩ := (g5 _ e4).2.2.1 (by simp) hcon
      rw [X.bind_ok er] at hproc
      have hn : rx2.n = c.rx.n := by
        have h1 := hq.cap; have h2 := hr.holds.cap
        dsimp only at h1 h2
        show rx2.buf.length = c.rx.buf.length
        omega
      rw [List.dropLast_concat] at hq
      have hh : Holds { c with rx := rx2, ks := { c.ks with readSeq := c.ks.readSeq + 1 } } (unread ++ content) := by
        unfold Holds
        dsimp only
        rw [hn]
        exact hq
      have hproc' : r = (.ok .applicationData, (w3, { c with rx := rx2, ks := { c.ks with readSeq := c.ks.readSeq + 1 } })) := hproc
      rw [hproc', ← e3]
      refine ⟨rfl, hh.reads, hh, rfl, rfl, hn, RxAt.state ⟨g1.rx, g2⟩, g1.tx, g1.sent.trans hs3.sent, hs3.pre.trans g1.pre, fun hp => g1.peace ?_⟩
      have hp3 := hs3.peace hp
      exact ⟨hp3.now, fun es he => by
        rcases List.mem_cons.mp he with rfl | he
        · intro bits hb; cases hb
        · exact hp3.later es he⟩
    · -- incomplete
      left
      have hlS : ((w2.tick.chip.received c.sn.idx).drop p).length < (header ++ record).length := by
        rcases Nat.lt_or_ge ((w2.tick.chip.received c.sn.idx).drop p).length (header ++ record).length with h | h
        · exact h
        · exact absurd (List.prefix_of_prefix_length_le (List.prefix_append _ _) hS h) hc
      have hSp := List.prefix_of_prefix_length_le hS (List.prefix_append (header ++ record) more) (Nat.le_of_lt hlS)
      rw [List.length_append, hl5] at hlS
      have hbytes : ((w2.tick.chip.received c.sn.idx).drop p).take 5 = header := by
        obtain ⟨u, hu⟩ := hSp
        have := congrArg (List.take 5) hu
        rw [List.take_append_of_le_length (by omega), ← hl5, List.take_left] at this
        rw [← hl5]; exact this
      have hrec : recv false fuel worldBus secs (w2, c) = (.ok none, (w2.tick.tick.tick, c)) := by
        unfold recv
        rw [X.bind_ok (orFatal_ok (recvHeader_short c header .applicationData h2 hs2.tx hbytes (by rw [hct]; rfl) hm (by omega) (by omega) (by omega)
          (by omega)))]
        rfl
      rw [X.bind_run, ← recv_ahead, ← X.bind_run, X.bind_ok hrec] at hproc
      dsimp only at hproc
      rw [afterRecv_idle secs _ c hcon hto] at hproc
      refine ⟨waited _ hs3.tick.tick h3.tick.tick.rd hproc, fun y hy hpre => ?_⟩
      cases hy
      have l1 := (hpre.trans (prefix_drop hs3.pre p)).length_le
      dsimp only at l1
      rw [e1, List.length_append, hl5] at l1
      change _ ≤ ((w2.tick.chip.received c.sn.idx).drop p).length at l1
      omega

end Verif.Tls

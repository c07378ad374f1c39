import Verif.Proof.TlsTake
/-!
# A call while the bytes of a record arrive

If the record is complete when the client reads its header, the call is the same as one that begins with the complete record.
-/
namespace Verif.Tls
open Verif Hl
open _root_.Verif.Spec (World worldBus TxState RxState Queue Chip Mem EnvStep)

variable {x : Crypto}

theorem recv_tick (fuel : Nat) (secs : UInt32) {u v : World} (c : Client x) (h : u.tick = v.tick) :
    recv false fuel worldBus secs (u, c) = recv false fuel worldBus secs (v, c) := by
  rw [recv_ahead fuel secs u, recv_ahead fuel secs v]
  unfold ahead
  rw [h]

/-- The device `u`, without interrupts of socket `k`, which are raised again before the third access from now. -/
def rewound (k : Nat) (u : World) : World :=
  ⟨{ u.chip with mem := u.chip.mem.store (4 * k + 1) 2 0 }, [] :: [] :: [.raise k (u.chip.mem (4 * k + 1) 2)] :: u.sched⟩

theorem rewound_ticks (k : Nat) (u : World) : (rewound k u).tick.tick.tick = u := by
  have h : ∀ c : Chip, ({ c with mem := c.mem.store (4 * k + 1) 2 0 } : Chip).envStep (.raise k (c.mem (4 * k + 1) 2)) = c := by
    intro c
    unfold Chip.envStep
    dsimp only
    have : ((c.mem.store (4 * k + 1) 2 0).store (4 * k + 1) 2 ((c.mem.store (4 * k + 1) 2 0) (4 * k + 1) 2 ||| c.mem (4 * k + 1) 2)) = c.mem := by
      funext b a
      unfold Mem.store
      by_cases hba : b = 4 * k + 1 ∧ a = 2
      · rw [if_pos hba, if_pos ⟨rfl, rfl⟩, UInt8.zero_or, hba.1, hba.2]
      · rw [if_neg hba, if_neg hba]
    rw [this]
  obtain ⟨c, sched⟩ := u
  show (⟨Chip.envStep { c with mem := c.mem.store (4 * k + 1) 2 0 } (.raise k (c.mem (4 * k + 1) 2)), sched⟩ : World) = _
  rw [h]

theorem rewound_sock (sn : Sn) {w u : World} {base p : Nat} (h : Sock w u sn.idx base p) (hrd : u.chip.rxRd sn.idx = (base + p) % 65536)
    (hpc : Peace sn.idx w) :
    RxAt (rewound sn.idx u).chip sn.idx base p ∧ TxState (rewound sn.idx u).chip sn.idx ∧ (rewound sn.idx u).chip.sent = w.chip.sent ∧
    (rewound sn.idx u).chip.received sn.idx = u.chip.received sn.idx ∧ Peace sn.idx (rewound sn.idx u) ∧
    w.chip.txFsr sn.idx ≤ (rewound sn.idx u).chip.txFsr sn.idx := by
  obtain ⟨v, e, g1, g2⟩ := Sock.setIr (w0 := ⟨u.chip, []⟩) (w := ⟨u.chip, []⟩) (sn := sn)
    ⟨h.rx, h.tx, rfl, List.prefix_rfl, id, Nat.le_refl _, fun e => ⟨e, rfl⟩, List.suffix_rfl, rfl⟩ 0xFF hrd
  rw [run_setSnIr] at e
  injection e with _ e
  have hc : v.chip = (rewound sn.idx u).chip := by
    rw [← e]
    show ({ u.chip with mem := u.chip.mem.store (4 * sn.idx + 1) 2 (u.chip.mem (4 * sn.idx + 1) 2 &&& ~~~(0xFF : UInt8)) } : Chip) = _
    rw [show ~~~(0xFF : UInt8) = 0 from rfl, UInt8.and_zero]
    rfl
  rw [hc] at g2
  have hr := g1.rx
  have ht := g1.tx
  have hf := g1.free
  rw [hc] at hr ht hf
  have hp := h.peace hpc
  refine ⟨⟨hr, g2⟩, ht, h.sent, rfl, ⟨?_, ?_⟩, Nat.le_trans h.free hf⟩
  · show Spec.Mqtt.quiet (Mem.store _ _ _ _ _ _) = true
    unfold Mem.store
    rw [if_pos ⟨rfl, rfl⟩]
    decide
  · intro es he bits hb
    change es ∈ [] :: [] :: [.raise sn.idx (u.chip.mem (4 * sn.idx + 1) 2)] :: u.sched at he
    simp only [List.mem_cons] at he
    rcases he with rfl | rfl | rfl | he
    · cases hb
    · cases hb
    · simp only [List.mem_cons, List.not_mem_nil, or_false, EnvStep.raise.injEq] at hb
      rw [hb.2]
      exact hp.now
    · exact hp.later es he bits hb

/-- The handling of a call from the state of the client on. -/
theorem process_calm (fuel : Nat) (rng : Rng x) (secs : UInt32) (w : World) (c : Client x) (hcon : c.state.receives = true)
    (hir : w.tick.chip.mem (4 * c.sn.idx + 1) 2 = 0) :
    process false fuel worldBus rng secs (w, c) = receiveRecords false fuel worldBus secs (w.tick, c) := by
  unfold process
  rw [X.bind_ok (getC_run (w, c)), X.bind_ok (X.attempt_ok (onBus_ok' (Mqtt.run_snIr c.sn w) c))]
  dsimp only
  rw [hir, if_neg (by decide)]
  unfold onState
  rw [X.bind_ok (getC_run (w.tick, c))]
  have hrr : (match c.state with
    | .reset => orFatal worldBus secs (tlsTcpConnect false fuel worldBus secs) >>= fun after => pure (.callAfter after)
    | .sendDiscon => orFatal worldBus secs (onBus (tcpDisconnect false worldBus c.sn)) >>= fun _ =>
        modC (Client.setStateWithTimeout .waitDiscon secs) >>= fun _ => pure (.callAfter timeoutSecs)
    | _ => receiveRecords false fuel worldBus secs : X TErr (World × Client x) TEvent) = receiveRecords false fuel worldBus secs := by
    cases hst : c.state <;> rw [hst] at hcon <;> first | rfl | exact absurd hcon (by decide)
  exact congrFun hrr (w.tick, c)

theorem receiveRecords_eq (fuel : Nat) (secs : UInt32) (w : World) (c : Client x) (hcon : c.state.receives = true) :
    receiveRecords false fuel worldBus secs (w, c) = (if UInt16.ofNat (w.tick.chip.rxRsr c.sn.idx) ≥ 5 then
      recv false fuel worldBus secs >>= fun event =>
      match event with
      | some event => pure event
      | none => afterRecv false worldBus secs
    else afterRecv false worldBus secs) (w.tick, c) := by
  unfold receiveRecords
  rw [X.bind_ok (getC_run (w, c))]
  dsimp only
  rw [if_neg (by rcases hst : c.state <;> rw [hst] at hcon <;> first | exact absurd hcon (by decide) | simp),
    X.bind_ok (orFatal_ok (onBus_ok' (run_snRxRsr c.sn w) c))]
  rfl

/-- A record: its header and its body. -/
structure Framed (R : Bytes) (m : Nat) : Prop where
  small : m < 65531
  parts : ∃ ct header body, R = header ++ body ∧ header.length = 5 ∧ body.length = m ∧ ContentType.tryFrom (header.getD 0 0) = .ok ct ∧
    (be16 (header.getD 3 0) (header.getD 4 0)).toNat = m

/-- A call while a record arrives (in a release build): either the record is not complete when the client looks, and the call does nothing
but check the time; or the call is the same as one on a device which has the complete record. -/
theorem arrive_cases (fuel : Nat) (rng : Rng x) (secs : UInt32) {w : World} {c : Client x} {p m : Nat} (hcon : c.state.receives = true)
    (hrx : RxState w.chip c.sn.idx p) (htx : TxState w.chip c.sn.idx) (hpc : Peace c.sn.idx w) (R more : Bytes) (hR : Framed R m)
    (hlim : m ≤ c.recordSizeLimit.toNat)
    (hst : ((process false fuel worldBus rng secs (w, c)).2.1.chip.received c.sn.idx).drop p <+: R ++ more) :
    (∃ w', process false fuel worldBus rng secs (w, c) = afterRecv false worldBus secs (w', c) ∧ RxState w'.chip c.sn.idx p ∧
      TxState w'.chip c.sn.idx ∧ w'.chip.sent = w.chip.sent ∧ w.chip.received c.sn.idx <+: w'.chip.received c.sn.idx ∧
      Peace c.sn.idx w' ∧ w.chip.txFsr c.sn.idx ≤ w'.chip.txFsr c.sn.idx ∧ ¬ R <+: (w.chip.received c.sn.idx).drop p) ∨
    (∃ w', process false fuel worldBus rng secs (w, c) = process false fuel worldBus rng secs (w', c) ∧ RxState w'.chip c.sn.idx p ∧
      TxState w'.chip c.sn.idx ∧ w'.chip.sent = w.chip.sent ∧ w.chip.received c.sn.idx <+: w'.chip.received c.sn.idx ∧
      Peace c.sn.idx w' ∧ w.chip.txFsr c.sn.idx ≤ w'.chip.txFsr c.sn.idx ∧ R <+: (w'.chip.received c.sn.idx).drop p) := by
  obtain ⟨base, hat⟩ := hrx.at
  obtain ⟨w1, hs1, hrd1, hproc⟩ := process_quiet false fuel rng secs c hcon hat htx (Peace.quiet (c := c) hpc)
  obtain ⟨hsm, ct, header, body, hRe, hl5, hbl, hct, hm⟩ := hR
  have hRl : R.length = 5 + m := by rw [hRe, List.length_append]; omega
  have hs2 := hs1.tick
  have h2 : RxAt w1.tick.chip c.sn.idx base p := ⟨hs2.rx, by rw [tick_rxRd]; exact hrd1⟩
  rw [receiveRecords_eq fuel secs w1 c hcon] at hproc
  generalize hw2 : w1.tick = w2 at *
  have h3 : RxAt w2.tick.chip c.sn.idx base p := h2.tick
  have hs3 := hs2.tick
  have hle3 := (tick_received_prefix w2 c.sn.idx).length_le
  have short : ∀ w', Sock w w' c.sn.idx base p → w'.chip.rxRd c.sn.idx = (base + p) % 65536 →
      process false fuel worldBus rng secs (w, c) = afterRecv false worldBus secs (w', c) →
      (w'.chip.received c.sn.idx).length < p + 5 + m ∨ (∃ u, Sock w u c.sn.idx base p ∧ (u.chip.received c.sn.idx).length < p + 5 + m) →
      ∃ w', process false fuel worldBus rng secs (w, c) = afterRecv false worldBus secs (w', c) ∧ RxState w'.chip c.sn.idx p ∧
      TxState w'.chip c.sn.idx ∧ w'.chip.sent = w.chip.sent ∧ w.chip.received c.sn.idx <+: w'.chip.received c.sn.idx ∧
      Peace c.sn.idx w' ∧ w.chip.txFsr c.sn.idx ≤ w'.chip.txFsr c.sn.idx ∧ ¬ R <+: (w.chip.received c.sn.idx).drop p := by
    intro w' hs hrd e hlen
    refine ⟨w', e, RxAt.state ⟨hs.rx, hrd⟩, hs.tx, hs.sent, hs.pre, hs.peace hpc, hs.free, fun hpre => ?_⟩
    have l1 := hpre.length_le
    rw [List.length_drop, hRl] at l1
    rcases hlen with hlen | ⟨u, hu, hlen⟩
    · have := hs.pre.length_le
      omega
    · have := hu.pre.length_le
      omega
  by_cases h5 : (w2.chip.received c.sn.idx).length < p + 5
  · left
    rw [if_neg (by rw [GE.ge, UInt16.le_iff_toNat_le, h2.rsr_toNat]; show ¬ 5 ≤ _; omega)] at hproc
    exact short _ hs2 h2.rd hproc (.inl (by omega))
  · rw [if_pos (by rw [GE.ge, UInt16.le_iff_toNat_le, h2.rsr_toNat]; show 5 ≤ _; omega)] at hproc
    have hgrow : w2.tick.chip.received c.sn.idx <+: (process false fuel worldBus rng secs (w, c)).2.1.chip.received c.sn.idx := by
      rw [hproc, X.bind_run, recv_ahead, ← X.bind_run]
      refine (Grows.bind (k := c.sn.idx) (Grows.recv (x := x) false fuel secs) (fun ev => ?_) (ahead w2, c)).pre
      cases ev with
      | some ev => exact Grows.pure _
      | none => exact Grows.afterRecv _ _
    have hS : (w2.tick.chip.received c.sn.idx).drop p <+: R ++ more := (prefix_drop hgrow p).trans hst
    by_cases hc : R <+: (w2.tick.chip.received c.sn.idx).drop p
    · right
      obtain ⟨k1, k2, k3, k4, k5, k6⟩ := rewound_sock c.sn hs3 h3.rd hpc
      refine ⟨rewound c.sn.idx w2.tick, ?_, k1.state, k2, k3, by rw [k4]; exact hs3.pre, k5, k6, by rw [k4]; exact hc⟩
      have hlR := hc.length_le
      rw [List.length_drop, hRl] at hlR
      have hq : process false fuel worldBus rng secs (rewound c.sn.idx w2.tick, c) =
          receiveRecords false fuel worldBus secs ((rewound c.sn.idx w2.tick).tick, c) := by
        apply process_calm fuel rng secs _ c hcon
        show Mem.store _ _ _ _ _ _ = _
        unfold Mem.store
        rw [if_pos ⟨rfl, rfl⟩]
      rw [receiveRecords_eq fuel secs _ c hcon] at hq
      have k1' : RxAt (rewound c.sn.idx w2.tick).tick.tick.chip c.sn.idx base p := k1
      have k4' : (rewound c.sn.idx w2.tick).tick.tick.chip.received c.sn.idx = w2.tick.chip.received c.sn.idx := k4
      rw [if_pos (by rw [GE.ge, UInt16.le_iff_toNat_le, k1'.rsr_toNat, k4']; show 5 ≤ _; omega)] at hq
      rw [hproc, hq, X.bind_run, X.bind_run, recv_tick fuel secs c (u := w2) (v := (rewound c.sn.idx w2.tick).tick.tick)
        (rewound_ticks _ _).symm]
    · left
      have hlS : ((w2.tick.chip.received c.sn.idx).drop p).length < R.length := by
        rcases Nat.lt_or_ge ((w2.tick.chip.received c.sn.idx).drop p).length R.length with h | h
        · exact h
        · exact absurd (List.prefix_of_prefix_length_le (List.prefix_append _ _) hS h) hc
      have hSp := List.prefix_of_prefix_length_le hS (List.prefix_append R more) (Nat.le_of_lt hlS)
      rw [hRl, List.length_drop] at hlS
      have hbytes : ((w2.tick.chip.received c.sn.idx).drop p).take 5 = header := by
        obtain ⟨u, hu⟩ := hSp
        rw [hRe] at hu
        have := congrArg (List.take 5) hu
        rw [List.take_append_of_le_length (by rw [List.length_drop]; omega), ← hl5, List.take_left] at this
        rw [← hl5]; exact this
      have hrec : recv false fuel worldBus secs (w2, c) = (.ok none, (w2.tick.tick.tick, c)) := by
        unfold recv
        rw [X.bind_ok (orFatal_ok (recvHeader_short c header ct h2 hs2.tx hbytes hct hm hlim (by omega) (by omega) (by omega)))]
        rfl
      rw [X.bind_ok hrec] at hproc
      exact short _ hs3.tick.tick h3.tick.tick.rd hproc (.inr ⟨_, hs3, by omega⟩)

/-! ## The records of a handshake -/

theorem protect_framed (t : Bytes) (n : Nat) (ty : UInt8) (d : Bytes) (h : d.length + 17 < 65531) : Framed (Spec.Tls.protect t n ty d) (d.length + 17) := by
  obtain ⟨header, record, e1, ⟨v1, v2, hh⟩, e3, -⟩ := protect_opens t n ty d
  refine ⟨h, .applicationData, header, record, e1, by rw [hh]; rfl, e3, by rw [hh]; rfl, ?_⟩
  rw [hh, ← e3]
  exact u16_value record.length (by omega)

theorem plaintextHandshake_framed (d : Bytes) (h : d.length < 65531) : Framed (Spec.Tls.plaintextHandshake d) d.length :=
  ⟨h, .handshake, [22, 3, 3] ++ Spec.Tls.u16 d.length, d, rfl, rfl, rfl, rfl, u16_value d.length (by omega)⟩

end Verif.Tls

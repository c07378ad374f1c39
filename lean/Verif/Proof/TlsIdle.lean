import Verif.Proof.TlsOffer
import Verif.Thm.TlsReceive
/-!
# A connected TLS client to which nothing happens
-/
namespace Verif.Tls
open Verif Hl
open _root_.Verif.Spec (World worldBus TxState RxState Queue Chip Mem)

variable {x : Crypto}

/-- The client is connected, no record header has arrived, and the schedule of the environment contains no data for the socket and no CON,
DISCON or TIMEOUT interrupt. -/
structure Undisturbed (w : World) (c : Client x) (t : Bytes) (p : Nat) (unread : Bytes) : Prop where
  ready : Ready w c t p unread
  peace : Peace c.sn.toU8.toNat w
  still : Still c.sn.toU8.toNat w
  few : (w.chip.received c.sn.toU8.toNat).length < p + 5
  timeout : c.timeout = none

theorem process_idle (dbg : Bool) (fuel : Nat) (rng : Rng x) (secs : UInt32) {w : World} {c : Client x} {t : Bytes} {p : Nat} {unread : Bytes}
    (h : Undisturbed w c t p unread) :
    ∃ w', process dbg fuel worldBus rng secs (w, c) = (.ok .none, (w', c)) ∧ Undisturbed w' c t p unread ∧ w'.chip.sent = w.chip.sent ∧
      w.chip.txFsr c.sn.toU8.toNat ≤ w'.chip.txFsr c.sn.toU8.toNat := by
  obtain ⟨base, hat⟩ := h.ready.rx.at
  have hcon := connected_state h.ready.connected
  have hs0 : Sock w w c.sn.idx base p := ⟨hat.rx, h.ready.tx, rfl, List.prefix_rfl, id, Nat.le_refl _, fun e => ⟨e, rfl⟩, List.suffix_rfl, rfl⟩
  have hs1 := hs0.tick
  have hrd1 : w.tick.chip.rxRd c.sn.idx = (base + p) % 65536 := by rw [tick_rxRd]; exact hat.rd
  have hst1 := h.still.tick
  obtain ⟨h1, h2, h3⟩ := ir_quiet _ h.peace.tick.now
  have tail : ∀ w2 : World, Sock w w2 c.sn.idx base p → w2.chip.rxRd c.sn.idx = (base + p) % 65536 → Still c.sn.idx w2 →
      w2.chip.received c.sn.idx = w.chip.received c.sn.idx →
      onState dbg fuel worldBus secs (w2, c) = (.ok .none, (w2.tick, c)) ∧ Undisturbed w2.tick c t p unread ∧ w2.tick.chip.sent = w.chip.sent ∧
        w.chip.txFsr c.sn.idx ≤ w2.tick.chip.txFsr c.sn.idx := by
    intro w2 hs2 hrd2 hst2 hrc2
    have h2 : RxAt w2.tick.chip c.sn.idx base p := ⟨hs2.tick.rx, by rw [tick_rxRd]; exact hrd2⟩
    have hrc3 : w2.tick.chip.received c.sn.idx = w.chip.received c.sn.idx := hst2.tick.2.trans hrc2
    have hfew : (w.chip.received c.sn.idx).length < p + 5 := h.few
    refine ⟨?_, ⟨⟨h.ready.connected, h.ready.traffic, h.ready.client, h.ready.seq, h.ready.holds, h2.state, hs2.tick.tx⟩, hs2.tick.peace h.peace,
      hst2.tick.1, ?_, h.timeout⟩, hs2.tick.sent, hs2.tick.free⟩
    · unfold onState
      rw [X.bind_ok (getC_run (w2, c))]
      dsimp only
      rw [hcon]
      dsimp only
      unfold receiveRecords
      rw [X.bind_ok (getC_run (w2, c))]
      dsimp only
      rw [if_neg (by rw [hcon]; simp), X.bind_ok (orFatal_ok (onBus_ok' (run_snRxRsr c.sn w2) c)), if_neg]
      · unfold afterRecv
        rw [X.bind_ok (getC_run (w2.tick, c))]
        dsimp only
        rw [if_neg (by rw [hcon]; simp)]
        unfold checkTimeout Client.elapsedSecs
        rw [X.bind_ok (getC_run (w2.tick, c))]
        dsimp only
        rw [h.timeout]
        rfl
      · rw [GE.ge, UInt16.le_iff_toNat_le, h2.rsr_toNat, hrc3]
        show ¬ 5 ≤ _
        omega
    · show (w2.tick.chip.received c.sn.idx).length < _
      rw [hrc3]
      exact hfew
  unfold process
  rw [X.bind_ok (getC_run (w, c)), X.bind_ok (X.attempt_ok (onBus_ok' (Mqtt.run_snIr c.sn w) c))]
  dsimp only
  by_cases hany : (⟨w.tick.chip.mem (4 * c.sn.idx + 1) 2⟩ : SocketInterrupt).anyRaised = true
  · rw [if_pos hany]
    unfold onInterrupts
    obtain ⟨w2, e2, hs2, hrd2⟩ := hs1.setIr (⟨w.tick.chip.mem (4 * c.sn.idx + 1) 2⟩ : SocketInterrupt).raw hrd1
    have hst2 : Still c.sn.idx w2 ∧ w2.chip.received c.sn.idx = w.chip.received c.sn.idx := by
      have := run_setSnIr c.sn (⟨w.tick.chip.mem (4 * c.sn.idx + 1) 2⟩ : SocketInterrupt).raw w.tick
      rw [e2] at this
      injection this with _ this
      rw [this]
      exact ⟨hst1.1.tick.1, hst1.1.tick.2.trans hst1.2⟩
    rw [X.bind_ok (getC_run (w.tick, c)), X.bind_ok (orFatal_ok (onBus_ok' e2 c)), if_neg (by rw [h1]; decide)]
    unfold onInterrupt
    rw [X.bind_ok (getC_run (w2, c)), if_neg (by rw [h2]; decide), if_neg (by rw [h3]; decide), if_neg (by dsimp only; rw [hcon]; simp)]
    exact ⟨_, tail w2 hs2 hrd2 hst2.1 hst2.2⟩
  · rw [if_neg hany]
    exact ⟨_, tail w.tick hs1 hrd1 hst1.1 hst1.2⟩

end Verif.Tls

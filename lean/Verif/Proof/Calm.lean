import Verif.Proof.UdpReaderRel
import Verif.Proof.Open
import Verif.Thm.HlUdp
import Verif.Proof.Peace
/-!
# Parts of a call that leave the transmit side, or a socket as a whole, as it is
-/
namespace Verif
open Hl Spec

/-- From `w` to `w'` nothing was sent and the transmit side of socket `k` stayed as it is, but for space becoming free. -/
structure TxSame (k : Nat) (w w' : World) : Prop where
  tx : TxState w.chip k → TxState w'.chip k
  free : TxState w.chip k → w.chip.txFsr k ≤ w'.chip.txFsr k
  sent : w'.chip.sent = w.chip.sent
  rxs : w'.chip.rxSize k = w.chip.rxSize k
  txs : w'.chip.txSize k = w.chip.txSize k
  dip : w'.chip.destIp k = w.chip.destIp k
  dport : w'.chip.destPort k = w.chip.destPort k

theorem TxSame.refl (k : Nat) (w : World) : TxSame k w w := ⟨id, fun _ => Nat.le_refl _, rfl, rfl, rfl, rfl, rfl⟩
theorem TxSame.trans {k : Nat} {a b c : World} (h1 : TxSame k a b) (h2 : TxSame k b c) : TxSame k a c :=
  ⟨fun h => h2.tx (h1.tx h), fun h => Nat.le_trans (h1.free h) (h2.free (h1.tx h)), h2.sent.trans h1.sent, h2.rxs.trans h1.rxs,
    h2.txs.trans h1.txs, h2.dip.trans h1.dip, h2.dport.trans h1.dport⟩

/-- ... and no interrupt came up by itself. -/
structure TxCalm (k : Nat) (w w' : World) : Prop extends TxSame k w w' where
  peace : Peace k w → Peace k w'

/-- ... and nothing was consumed. -/
structure Calm (k : Nat) (w w' : World) : Prop extends TxCalm k w w' where
  rx : ∀ base p, RxAt w.chip k base p → RxAt w'.chip k base p
  pending : ∀ P p, Pending P k p w → Pending P k p w'
  recvd : w.chip.received k <+: w'.chip.received k

theorem TxCalm.refl (k : Nat) (w : World) : TxCalm k w w := ⟨⟨id, fun _ => Nat.le_refl _, rfl, rfl, rfl, rfl, rfl⟩, id⟩
theorem TxCalm.trans {k : Nat} {a b c : World} (h1 : TxCalm k a b) (h2 : TxCalm k b c) : TxCalm k a c :=
  ⟨⟨fun h => h2.tx (h1.tx h), fun h => Nat.le_trans (h1.free h) (h2.free (h1.tx h)), h2.sent.trans h1.sent, h2.rxs.trans h1.rxs,
    h2.txs.trans h1.txs, h2.dip.trans h1.dip, h2.dport.trans h1.dport⟩, fun h => h2.peace (h1.peace h)⟩
theorem Calm.refl (k : Nat) (w : World) : Calm k w w := ⟨.refl k w, fun _ _ h => h, fun _ _ h => h, List.prefix_refl _⟩
theorem Calm.trans {k : Nat} {a b c : World} (h1 : Calm k a b) (h2 : Calm k b c) : Calm k a c :=
  ⟨h1.toTxCalm.trans h2.toTxCalm, fun x y h => h2.rx x y (h1.rx x y h), fun x y h => h2.pending x y (h1.pending x y h),
    h1.recvd.trans h2.recvd⟩

theorem txCalm_tick (k : Nat) (w : World) : TxCalm k w w.tick :=
  ⟨⟨fun h => h.tick, fun h => tick_txFsr_ge h, tick_sent w, tick_rxSize w k, tick_txSize w k, tick_destIp w k, tick_destPort w k⟩, fun h => h.tick⟩

theorem calm_tick (k : Nat) (w : World) : Calm k w w.tick :=
  ⟨txCalm_tick k w, fun _ _ h => h.tick, fun _ _ h => h.tick, tick_received_prefix w k⟩

theorem Later.calm {w w' : World} (k : Nat) (h : Later w w') : Calm k w w' := by
  obtain ⟨j, rfl⟩ := h
  induction j generalizing w with
  | zero => exact .refl k w
  | succ j ih => exact (calm_tick k w).trans ih

/-- Writing a register of the socket that is not about its transmit side. -/
theorem txCalm_setReg (k a v : Nat) (w : World) (ha : 0x26 ≤ a) : TxCalm k w { w with chip := w.chip.setReg k a v } := by
  have hs : ∀ x, x < 0x26 → (w.chip.setReg k a v).mem (4 * k + 1) x = w.chip.mem (4 * k + 1) x :=
    fun x hx => Mem.setWord_ne _ _ _ _ _ _ (by omega)
  refine ⟨⟨fun h => Thm.setReg_tx ha h, fun _ => Nat.le_of_eq ?_, rfl, ?_, ?_, ?_, ?_⟩, fun h => h.setReg k a v (by omega)⟩
  · show w.chip.txFsr k = (w.chip.setReg k a v).txFsr k
    unfold Chip.txFsr Mem.word; rw [hs _ (by omega), hs _ (by omega)]
  · show (w.chip.setReg k a v).rxSize k = _
    unfold Chip.rxSize; rw [hs _ (by omega)]
  · show (w.chip.setReg k a v).txSize k = _
    unfold Chip.txSize; rw [hs _ (by omega)]
  · exact destIp_congr fun x h1 h2 => hs x (by omega)
  · show (w.chip.setReg k a v).destPort k = _
    unfold Chip.destPort Mem.word; rw [hs _ (by omega), hs _ (by omega)]

theorem txCalm_done (u : UdpReader) (w : World) : TxCalm u.inner.sn.idx w (udpReaderDone worldBus u w).2 := by
  unfold udpReaderDone
  rw [M.bind_ok (run_setSnRxRd u.inner.sn u.inner.tail w), run_setSnCr, command_recv]
  generalize hw1 : ({ w.tick with chip := w.tick.chip.setReg u.inner.sn.idx 0x28 u.inner.tail.toNat } : World) = w1
  have h1 : TxCalm u.inner.sn.idx w w1 := by
    rw [← hw1]
    exact (txCalm_tick _ w).trans (txCalm_setReg _ _ _ w.tick (by omega))
  exact (h1.trans (txCalm_tick _ w1)).trans (txCalm_setReg _ _ _ w1.tick (by omega))

theorem run_setSnIr (sn : Sn) (v : UInt8) (w : World) :
    worldBus.setSnIr sn v w = (.ok (), { w.tick with chip := { w.tick.chip with
      mem := w.tick.chip.mem.store (4 * sn.idx + 1) 0x02 (w.tick.chip.mem (4 * sn.idx + 1) 0x02 &&& ~~~v) } }) := by
  unfold Bus.setSnIr
  rw [worldBus_write, Sn.block_idx, show SnReg.IR.addr.toNat = 0x02 from rfl]
  simp only [Chip.writeBytes, Chip.writeByte]
  rw [if_pos (by omega), if_neg (by decide), if_pos (by decide)]

theorem calm_store (k a : Nat) (x : UInt8) (w : World) (ha : a < 0x0C) (hp : Peace k w → Peace k { w with chip := { w.chip with mem := w.chip.mem.store (4 * k + 1) a x } }) :
    Calm k w { w with chip := { w.chip with mem := w.chip.mem.store (4 * k + 1) a x } } := by
  have hs : ∀ y, 0x0C ≤ y → (w.chip.mem.store (4 * k + 1) a x) (4 * k + 1) y = w.chip.mem (4 * k + 1) y := by
    intro y hy; unfold Mem.store; rw [if_neg (by omega)]
  have e1 : ({ w.chip with mem := w.chip.mem.store (4 * k + 1) a x } : Chip).txSize k = w.chip.txSize k := by
    unfold Chip.txSize; simp only; rw [hs _ (by omega)]
  have e2 : ({ w.chip with mem := w.chip.mem.store (4 * k + 1) a x } : Chip).txRd k = w.chip.txRd k := by
    unfold Chip.txRd Mem.word; simp only; rw [hs _ (by omega), hs _ (by omega)]
  have e3 : ({ w.chip with mem := w.chip.mem.store (4 * k + 1) a x } : Chip).txWr k = w.chip.txWr k := by
    unfold Chip.txWr Mem.word; simp only; rw [hs _ (by omega), hs _ (by omega)]
  have e4 : ({ w.chip with mem := w.chip.mem.store (4 * k + 1) a x } : Chip).txFsr k = w.chip.txFsr k := by
    unfold Chip.txFsr Mem.word; simp only; rw [hs _ (by omega), hs _ (by omega)]
  have e5 : ({ w.chip with mem := w.chip.mem.store (4 * k + 1) a x } : Chip).rxRd k = w.chip.rxRd k := by
    unfold Chip.rxRd Mem.word; simp only; rw [hs _ (by omega), hs _ (by omega)]
  refine ⟨⟨⟨fun h => ⟨by rw [e1]; exact h.size_dvd, by rw [e1]; exact h.size_lt, by rw [e2, e3]; exact h.idle,
    by rw [e1, e4]; exact h.fsr_le⟩, fun _ => Nat.le_of_eq e4.symm, rfl, ?_, e1, ?_, ?_⟩, hp⟩, fun base p h => ⟨?_, ?_⟩, fun P p h => ⟨h.le, h.now, h.future⟩,
    List.prefix_refl _⟩
  · unfold Chip.rxSize; simp only; rw [hs _ (by omega)]
  · exact destIp_congr fun y h1 h2 => hs y h2
  · unfold Chip.destPort Mem.word; simp only; rw [hs _ (by omega), hs _ (by omega)]
  · exact (store_rxSame w.chip k _ a x (by omega) (.inr (by omega))).rxOk h.rx
  · exact e5.trans h.rd

theorem calm_setSnIr (sn : Sn) (v : UInt8) (w : World) : ∃ w', worldBus.setSnIr sn v w = (.ok (), w') ∧ Calm sn.idx w w' :=
  ⟨_, run_setSnIr sn v w, (calm_tick _ w).trans (calm_store _ _ _ w.tick (by omega) fun h => h.setIr _)⟩

end Verif

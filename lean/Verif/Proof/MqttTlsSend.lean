import Verif.Proof.TxOnly
import Verif.Proof.TlsSteps
import Verif.Thm.MqttTlsOut
/-!
# Sending MQTT packets over TLS leaves the receive side alone
-/
namespace Verif.MqttTls
open Verif Hl
open _root_.Verif.Spec (World worldBus TxState RxState Queue Chip Mem)
open Verif.Tls (X Crypto TErr TEvent Rng Fail Alert tlsWriter tlsSend Aes128Gcm ContentType)

variable {x : Crypto}

/-- The calls leave the receive side of socket `k` alone. -/
def SendsX {ε α : Type} (k : Nat) (m : X ε World α) : Prop := ∀ w, TxOnly k w (m w).2

namespace SendsX
variable {ε α β : Type} {k : Nat}

theorem pure (a : α) : SendsX k (Pure.pure a : X ε World α) := fun _ => .refl _ _

theorem bind {m : X ε World α} {f : α → X ε World β} (hm : SendsX k m) (hf : ∀ a, SendsX k (f a)) : SendsX k (m >>= f) := by
  intro w
  have h1 := hm w
  rw [X.bind_run]
  rcases hr : m w with ⟨e | a, w'⟩
  · rw [hr] at h1; exact h1
  · rw [hr] at h1; exact h1.trans (hf a w')

theorem ofM {m : M World α} (h : ∀ w, TxOnly k w (m w).2) : SendsX k (X.ofM m : X Err World α) := by
  intro w
  have h1 := h w
  unfold X.ofM
  rcases hr : m w with ⟨e | a, w'⟩
  · rw [hr] at h1
    cases e <;> exact h1
  · rw [hr] at h1; exact h1

theorem cipher (r : Except Err α) : SendsX k (Tls.ofCipher r : X ε World α) := by
  intro w
  cases r <;> exact .refl _ _

end SendsX

theorem txBuf_read (k : Nat) (sn : Sn) (ptr : UInt16) (n : Nat) (w : World) : TxOnly k w (worldBus.snTxBuf sn ptr n w).2 := by
  unfold Bus.snTxBuf
  rw [M.bind_ok (worldBus_read _ _ _ _)]
  exact .tick k w

theorem txWr_write (sn : Sn) (v : UInt16) (w : World) : TxOnly sn.idx w (worldBus.setSnTxWr sn v w).2 := by
  rw [run_setSnTxWr]
  have hs : ∀ (c : Chip) (a v b z : Nat), (b ≠ 4 * sn.idx + 1 ∨ (z ≠ a ∧ z ≠ a + 1)) → (c.setReg sn.idx a v).mem b z = c.mem b z :=
    fun c a v b z h => Mem.setWord_ne _ _ _ _ _ _ (by omega)
  exact (TxOnly.tick _ w).trans (TxOnly.of_mem (fun a ha => hs _ _ _ _ _ (by omega)) (fun a => hs _ _ _ _ _ (by omega)) rfl)

theorem cr_send (sn : Sn) (w : World) : TxOnly sn.idx w (worldBus.setSnCr sn .send w).2 := by
  rw [run_setSnCr, command_send]
  have hs : ∀ (c : Chip) (a v b z : Nat), (b ≠ 4 * sn.idx + 1 ∨ (z ≠ a ∧ z ≠ a + 1)) → (c.setReg sn.idx a v).mem b z = c.mem b z :=
    fun c a v b z h => Mem.setWord_ne _ _ _ _ _ _ (by omega)
  refine (TxOnly.tick _ w).trans (TxOnly.of_mem (fun a ha => ?_) (fun a => ?_) rfl)
  · show ((Chip.setReg _ _ _ _).setReg _ _ _).mem _ _ = _
    rw [hs _ _ _ _ _ (by omega), hs _ _ _ _ _ (by omega)]
  · show ((Chip.setReg _ _ _ _).setReg _ _ _).mem _ _ = _
    rw [hs _ _ _ _ _ (by omega), hs _ _ _ _ _ (by omega)]

theorem encryptBlocks_sends (sn : Sn) : ∀ (k : Nat) (g : Aes128Gcm) (head : UInt16),
    SendsX sn.idx (Tls.encryptBlocksInplace worldBus sn k g head) := by
  intro k
  induction k with
  | zero => intro g head; exact .pure _
  | succ k ih =>
    intro g head
    unfold Tls.encryptBlocksInplace
    refine .bind (.ofM (txBuf_read _ _ _ _)) fun bytes => .bind (.cipher _) fun y => ?_
    exact .bind (.ofM (txOnly_txBuf _ _ _)) fun _ => ih _ _

theorem encryptRecord_sends (sn : Sn) (key : Tls.Block) (nonce : Vector UInt8 12) (head tail : UInt16) (ct : ContentType) :
    SendsX sn.idx (Tls.encryptRecordInplace worldBus sn key nonce head tail ct) := by
  unfold Tls.encryptRecordInplace
  refine .bind (.ofM (txOnly_txBuf _ _ _)) fun _ => .bind (encryptBlocks_sends _ _ _ _) fun y => ?_
  refine .bind (.ofM (txBuf_read _ _ _ _)) fun _ => .bind (.cipher _) fun y => ?_
  refine .bind (.ofM (txOnly_txBuf _ _ _)) fun _ => .bind (.ofM (txOnly_txBuf _ _ _)) fun _ => ?_
  exact .bind (.ofM (txWr_write _ _)) fun _ => .ofM (cr_send _)

theorem tlsSend_sends (r : Ptrs) (w : World) (c : Tls.Client x) : TxOnly r.sn.idx w (tlsSend worldBus r (w, c)).2.1 := by
  unfold tlsSend
  dsimp only
  have key : TxOnly r.sn.idx w (Tls.tlsWriterSend worldBus r (w, c.ks)).2.1 := by
    unfold Tls.tlsWriterSend
    rw [X.bind_ok (show (X.get : X Err (World × Tls.KeySchedule x) _) (w, c.ks) = (.ok (w, c.ks), (w, c.ks)) from rfl)]
    dsimp only
    rcases c.ks.clientKeyAndNonce with _ | kn
    · exact .refl _ _
    · show TxOnly r.sn.idx w (((Tls.encryptRecordInplace worldBus r.sn kn.1 kn.2 r.head r.ptr .applicationData).onFst >>= fun _ => _) (w, c.ks)).2.1
      have h := encryptRecord_sends r.sn kn.1 kn.2 r.head r.ptr .applicationData w
      rcases hr : Tls.encryptRecordInplace worldBus r.sn kn.1 kn.2 r.head r.ptr .applicationData w with ⟨e | a, w'⟩
      · rw [hr] at h
        rw [X.bind_error (X.onFst_run hr c.ks)]
        exact h
      · rw [hr] at h
        rw [X.bind_ok (X.onFst_run hr c.ks)]
        rcases c.ks.incrementWriteSeq with e | ks
        · exact h
        · exact h
  exact key

theorem tlsWriter_sends (w : World) (c : Tls.Client x) (k : Nat) : TxOnly k w (tlsWriter worldBus (w, c)).2.1 ∧
    ∀ r, (tlsWriter worldBus (w, c)).1 = .ok r → r.sn = c.sn := by
  unfold tlsWriter
  rw [X.bind_ok (Tls.getC_run (w, c))]
  dsimp only
  by_cases hc : c.connected = true
  · rw [if_pos hc]
    have h1 : (Tls.writeErr (X.ofM (worldBus.snTxFsr c.sn))).onFst (w, c) =
        (.ok (UInt16.ofNat (w.tick.chip.txFsr c.sn.idx)), (w.tick, c)) :=
      X.onFst_run (X.mapErr_ok (X.ofM_ok (run_snTxFsr (sn := c.sn) (w := w)))) c
    rw [X.bind_ok h1]
    split
    · exact ⟨.tick _ _, fun r h => by cases h⟩
    · have h2 : (Tls.writeErr (X.ofM (worldBus.snTxWr c.sn))).onFst (w.tick, c) =
          (.ok (UInt16.ofNat (w.tick.tick.chip.txWr c.sn.idx)), (w.tick.tick, c)) :=
        X.onFst_run (X.mapErr_ok (X.ofM_ok (run_snTxWr (sn := c.sn) (w := w.tick)))) c
      rw [X.bind_ok h2]
      exact ⟨(TxOnly.tick _ _).trans (.tick _ _), fun r h => by cases h; rfl⟩
  · rw [if_neg hc]
    exact ⟨.refl _ _, fun r h => by cases h⟩

theorem sendPacket_sends (r : Ptrs) (p : WProg Unit) (w : World) (c : Tls.Client x) :
    TxOnly r.sn.idx w (sendPacket worldBus r p (w, c)).2.1 := by
  unfold sendPacket
  have h1 := txOnly_wprog p w r
  have h2 := wprog_sn (b := worldBus) p w r
  rcases hp : p.run (writerOps worldBus) (w, r) with ⟨e | a, w2, r2⟩
  · have ho : onWriter worldBus r p w = (.error e, w2) := by unfold onWriter; rw [hp]
    rw [hp] at h1
    have : ∃ e', (X.ofM (onWriter worldBus r p) : X Err World _) w = (.error e', w2) := by
      unfold X.ofM
      rw [ho]
      cases e <;> exact ⟨_, rfl⟩
    obtain ⟨e', he⟩ := this
    rw [X.bind_error (X.onFst_run he c)]
    exact h1
  · have ho : onWriter worldBus r p w = (.ok (a, r2), w2) := by unfold onWriter; rw [hp]
    rw [hp] at h1 h2
    rw [X.bind_ok (X.onFst_run (X.ofM_ok ho) c)]
    have h3 := tlsSend_sends r2 w2 c
    change r2.sn = r.sn at h2
    rw [h2] at h3
    exact h1.trans h3

theorem onTls_world {ε α : Type} (f : Fail ε → Fail Error) (m : X ε (World × Tls.Client x) α) (w : World) (c : Client x) :
    (onTls f m (w, c)).2.1 = (m (w, c.tls)).2.1 := by
  unfold onTls
  rcases m (w, c.tls) with ⟨e | a, t⟩ <;> rfl

/-- A writer and a packet, as in `publish`. -/
def emit (p : WProg Unit) : X Error (World × Client x) Unit :=
  onTls mapWriterErr (tlsWriter worldBus) >>= fun r => onTls mapW5500 (sendPacket worldBus r p)

theorem emit_sends (p : WProg Unit) (w : World) (c : Client x) : TxOnly c.tls.sn.idx w (emit p (w, c)).2.1 := by
  unfold emit
  obtain ⟨h1, h2⟩ := tlsWriter_sends w c.tls c.tls.sn.idx
  rcases hr : tlsWriter worldBus (w, c.tls) with ⟨e | r, w1, c1⟩
  · rw [hr] at h1
    rw [X.bind_error (onTls_error hr)]
    exact h1
  · rw [hr] at h1 h2
    rw [X.bind_ok (onTls_ok hr), onTls_world]
    have h3 := sendPacket_sends r p w1 c1
    rw [h2 r rfl] at h3
    exact h1.trans h3

/-- The transmit buffer is idle again, whatever happens. -/
theorem emit_idle (hx : x.Standard) (p : WProg Unit) (w : World) (c : Client x) (t : Bytes) (h : CanSend w c t) :
    TxState (emit p (w, c)).2.1.chip c.tls.sn.idx := by
  unfold emit
  rcases Tls.C81_writer hx w c.tls t h.tx h.traffic h.connected h.seq with ⟨-, h2⟩ | ⟨r, w1, img, e1, -, -, -, e5⟩
  · rw [X.bind_error (onTls_error h2)]
    exact TxState.tick h.tx
  · rw [X.bind_ok (onTls_ok e1), onTls_world]
    have := e5 p
    dsimp only at this
    obtain ⟨-, -, g3, w2, g4, g5, -⟩ := this
    unfold sendPacket
    rcases hp : p.run (writerOps worldBus) (w1, r) with ⟨e | a, w1', r1⟩
    · have ho : onWriter worldBus r p w1 = (.error e, w1') := by unfold onWriter; rw [hp]
      rw [hp] at g3
      have : ∃ e', (X.ofM (onWriter worldBus r p) : X Err World _) w1 = (.error e', w1') := by
        unfold X.ofM
        rw [ho]
        cases e <;> exact ⟨_, rfl⟩
      obtain ⟨e', he⟩ := this
      rw [X.bind_error (X.onFst_run he _)]
      exact g3
    · have ho : onWriter worldBus r p w1 = (.ok (a, r1), w1') := by unfold onWriter; rw [hp]
      rw [hp] at g4
      rw [X.bind_ok (X.onFst_run (X.ofM_ok ho) _)]
      show TxState (tlsSend worldBus r1 (w1', c.tls)).2.1.chip _
      rw [g4]
      exact g5

/-- The writer alone. -/
theorem writer_idle (w : World) (c : Client x) (h : TxState w.chip c.tls.sn.idx) :
    TxState (onTls mapWriterErr (tlsWriter worldBus) (w, c)).2.1.chip c.tls.sn.idx := by
  rw [onTls_world]
  unfold tlsWriter
  rw [X.bind_ok (Tls.getC_run (w, c.tls))]
  dsimp only
  by_cases hc : c.tls.connected = true
  · rw [if_pos hc]
    have h1 : (Tls.writeErr (X.ofM (worldBus.snTxFsr c.tls.sn))).onFst (w, c.tls) =
        (.ok (UInt16.ofNat (w.tick.chip.txFsr c.tls.sn.idx)), (w.tick, c.tls)) :=
      X.onFst_run (X.mapErr_ok (X.ofM_ok (run_snTxFsr (sn := c.tls.sn) (w := w)))) c.tls
    rw [X.bind_ok h1]
    split
    · exact h.tick
    · have h2 : (Tls.writeErr (X.ofM (worldBus.snTxWr c.tls.sn))).onFst (w.tick, c.tls) =
          (.ok (UInt16.ofNat (w.tick.tick.chip.txWr c.tls.sn.idx)), (w.tick.tick, c.tls)) :=
        X.onFst_run (X.mapErr_ok (X.ofM_ok (run_snTxWr (sn := c.tls.sn) (w := w.tick)))) c.tls
      rw [X.bind_ok h2]
      exact h.tick.tick
  · rw [if_neg hc]
    exact h

end Verif.MqttTls

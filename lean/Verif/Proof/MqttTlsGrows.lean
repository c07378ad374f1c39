import Verif.Proof.TlsGrows
import Verif.Spec.MqttTlsSession
/-!
# What an MQTT client over TLS does does not take back what was received
-/
namespace Verif.Tls
open Verif Hl
open _root_.Verif.Spec (World worldBus TxState RxState Queue Chip Mem)

namespace GrowsM
variable {α : Type} {k : Nat}

theorem snTxBuf (sn : Sn) (p n) : GrowsM k (worldBus.snTxBuf sn p n) := by unfold Bus.snTxBuf; exact (read _ _ _).bind fun _ => pure _
theorem snTxFsr (sn : Sn) : GrowsM k (worldBus.snTxFsr sn) := by unfold Bus.snTxFsr; exact (read _ _ _).bind fun _ => pure _
theorem snTxWr (sn : Sn) : GrowsM k (worldBus.snTxWr sn) := by unfold Bus.snTxWr; exact (read _ _ _).bind fun _ => pure _
theorem writerWrite (r : Ptrs) (bs : Bytes) : GrowsM k (Hl.writerWrite worldBus r bs) := by
  unfold Hl.writerWrite
  exact ite ((setSnTxBuf _ _ _).bind fun _ => pure _) (pure _)

theorem prog (p : WProg α) : ∀ s : World × Ptrs, Onward k s.1 (p.run (writerOps worldBus) s).2.1 := by
  induction p with
  | ret r => intro s; exact Tls.Onward.refl _ _
  | write bs f ih =>
    intro s
    refine Tls.Onward.trans ?_ (ih _ _)
    have h := writerWrite (k := k) s.2 bs s.1
    obtain ⟨w, r⟩ := s
    dsimp only [writerOps] at h ⊢
    rcases e : Hl.writerWrite worldBus r bs w with ⟨_ | a, w'⟩ <;> rw [e] at h <;> exact h
  | writeAll bs f ih =>
    intro s
    refine Tls.Onward.trans ?_ (ih _ _)
    have h := writeAll (k := k) s.2 bs s.1
    obtain ⟨w, r⟩ := s
    dsimp only [writerOps] at h ⊢
    rcases e : Hl.writerWriteAll worldBus r bs w with ⟨_ | a, w'⟩ <;> rw [e] at h <;> exact h
  | seek pos f ih =>
    intro s
    refine Tls.Onward.trans ?_ (ih _ _)
    show Onward k s.1 (match s.2.seek pos with
      | .ok r' => ((.ok (), (s.1, r')) : Except Err Unit × (World × Ptrs))
      | .error e => (.error e, (s.1, s.2))).2.1
    cases s.2.seek pos <;> exact Tls.Onward.refl _ _
  | rewind f ih => intro s; exact ih (s.1, s.2.rewind)
  | streamLen f ih => intro s; exact ih _ s
  | streamPosition f ih => intro s; exact ih _ s
  | remain f ih => intro s; exact ih _ s

theorem onWriter (r : Ptrs) (p : WProg α) : GrowsM k (Hl.onWriter worldBus r p) := by
  intro w
  have h := prog (k := k) p (w, r)
  unfold Hl.onWriter
  rcases e : p.run (writerOps worldBus) (w, r) with ⟨_ | a, w'⟩ <;> rw [e] at h <;> exact h

end GrowsM

namespace GrowsX
variable {k : Nat}

theorem encryptBlocks (sn : Sn) (n : Nat) : ∀ g head, GrowsX k (encryptBlocksInplace worldBus sn n g head) := by
  induction n with
  | zero => intro g head; exact pure _
  | succ n ih => intro g head; exact (ofM (.snTxBuf _ _ _)).bind fun _ => (ofCipher _).bind fun _ => (ofM (.setSnTxBuf _ _ _)).bind fun _ => ih _ _

theorem encryptRecord (sn : Sn) (key nonce head tail ct) : GrowsX k (encryptRecordInplace worldBus sn key nonce head tail ct) := by
  unfold encryptRecordInplace
  exact (ofM (.setSnTxBuf _ _ _)).bind fun _ => (encryptBlocks _ _ _ _).bind fun _ => (ofM (.snTxBuf _ _ _)).bind fun _ =>
    (ofCipher _).bind fun _ => (ofM (.setSnTxBuf _ _ _)).bind fun _ => (ofM (.setSnTxBuf _ _ _)).bind fun _ =>
    (ofM (.setSnTxWr _ _)).bind fun _ => ofM (.setSnCr _ _ (by decide))

end GrowsX

namespace Grows
variable {x : Crypto} {k : Nat}

theorem tlsSend (r : Ptrs) : Grows k (Tls.tlsSend worldBus r : X _ (World × Client x) _) := by
  intro s
  have h : Grows k (tlsWriterSend worldBus r : X _ (World × KeySchedule x) _) := by
    unfold tlsWriterSend
    exact get.bind fun _ => (unwrapKey _).bind fun _ => (onFst (.encryptRecord _ _ _ _ _ _)).bind fun _ => (ofCipher _).bind fun _ =>
      fun _ => Tls.Onward.refl _ _
  exact h (s.1, s.2.ks)

theorem tlsWriter : Grows k (Tls.tlsWriter worldBus : X _ (World × Client x) _) := by
  unfold Tls.tlsWriter
  exact getC.bind fun _ => ite ((onFst (.mapErr (.ofM (.snTxFsr _)))).bind fun _ => ite (throw _)
    ((onFst (.mapErr (.ofM (.snTxWr _)))).bind fun _ => pure _)) (throw _)

end Grows
end Verif.Tls

namespace Verif.MqttTls
open Verif Hl
open _root_.Verif.Spec (World worldBus)
open Verif.Tls (X Crypto TEvent Fail Grows GrowsM GrowsX Rng TlsReader)
open Verif.Mqtt (RecvOut PubInfo)

variable {x : Crypto} {k : Nat}

theorem grows_getC {ε : Type} : Grows k (getC : X ε (World × Client x) _) := fun _ => Tls.Onward.refl _ _
theorem grows_modC {ε : Type} (f) : Grows k (modC f : X ε (World × Client x) _) := fun _ => Tls.Onward.refl _ _
theorem grows_onTls {ε α : Type} {f : Fail ε → Fail Error} {m : X ε (World × Tls.Client x) α} (h : Grows k m) : Grows k (onTls f m) := by
  intro s
  have := h (s.1, s.2.tls)
  unfold onTls
  rcases e : m (s.1, s.2.tls) with ⟨_ | a, w'⟩ <;> rw [e] at this <;> exact this

theorem grows_sendConnect (secs) : Grows k (sendConnect worldBus secs : X _ (World × Client x) _) :=
  grows_getC.bind fun _ => (grows_onTls .tlsWriter).bind fun _ =>
    (grows_onTls ((Grows.onFst (.ofM (.onWriter _ _))).bind fun _ => .tlsSend _)).bind fun _ => (grows_modC _).bind fun _ => .pure _

theorem grows_recvFinish (r : TlsReader) (out : RecvOut) : Grows k (recvFinish r out : X _ (World × Client x) _) := by
  have hd : Grows k (readerDone r : X Error (World × Client x) _) := grows_modC _
  cases out with
  | pending => exact .pure _
  | bad e reset => cases reset; exact .throw _; exact (grows_modC _).bind fun _ => .throw _
  | connAck code =>
    refine hd.bind fun _ => ?_
    split
    · exact (grows_modC _).bind fun _ => .throw _
    · exact .ite ((grows_modC _).bind fun _ => .pure _) ((grows_modC _).bind fun _ => .throw _)
  | subAck id code => exact hd.bind fun _ => .pure _
  | unSubAck id code => exact hd.bind fun _ => .pure _
  | publish info => exact .pure _
  | ignored => exact hd.bind fun _ => .pure _

theorem grows_checkTimeout (dbg secs) : Grows k (checkTimeout dbg secs : X _ (World × Client x) _) := by
  unfold checkTimeout
  refine grows_getC.bind fun _ => (Grows.ofCipher _).bind fun e => ?_
  cases e with
  | none => exact .pure _
  | some e => exact .ite ((grows_modC _).bind fun _ => .throw _) (.pure _)

theorem grows_receive (dbg secs) : Grows k (receive dbg secs : X _ (World × Client x) _) := by
  unfold receive
  refine grows_getC.bind fun c => ?_
  cases c.tls.reader with
  | error e => cases e <;> first | exact grows_checkTimeout _ _ | exact .ofExcept _
  | ok r =>
    refine Grows.bind (grows_getC.bind fun c => ?_) fun ev => ?_
    · split
      · exact grows_recvFinish _ _
      · exact .ofExcept _
    · cases ev with
      | none => exact grows_checkTimeout _ _
      | some ev => exact .pure _

theorem grows_onEvent (dbg secs) (ev : TEvent) : Grows k (onEvent dbg worldBus secs ev : X _ (World × Client x) _) := by
  cases ev with
  | callAfter n => exact .pure _
  | applicationData => exact grows_receive _ _
  | handshakeFinished => exact (grows_sendConnect _).bind fun _ => .pure _
  | disconnect => exact .throw _
  | none => exact grows_receive _ _

theorem grows_publishDone (dbg : Bool) (r : TlsReader) (info : PubInfo) : Grows k (publishDone dbg r info : X _ (World × Client x) _) :=
  (Grows.ofExcept _).bind fun _ => grows_modC _

open _root_.Verif.Spec.MqttTlsSession (Turn turn) in
/-- What was received when the TLS client returned is still received after the turn. -/
theorem turn_received (fuel : Nat) (t : Turn x) (w : World) (c : Client x) :
    Tls.Onward k (Tls.process false fuel worldBus t.rng t.secs (w.pause t.before t.during, c.tls)).2.1 (turn fuel t (w, c)).2.1 := by
  have hp : Tls.Onward k (Tls.process false fuel worldBus t.rng t.secs (w.pause t.before t.during, c.tls)).2.1
      (process false fuel worldBus t.rng t.secs (w.pause t.before t.during, c)).2.1 := by
    unfold process
    rw [X.bind_run]
    unfold onTls
    dsimp only
    rcases Tls.process false fuel worldBus t.rng t.secs (w.pause t.before t.during, c.tls) with ⟨e | ev, s1⟩
    · exact Tls.Onward.refl _ _
    · exact grows_onEvent (x := x) (k := k) false t.secs ev (s1.1, { c with tls := s1.2 })
  refine hp.trans ?_
  unfold turn
  dsimp only
  rcases process false fuel worldBus t.rng t.secs (w.pause t.before t.during, c) with ⟨e | ev, s1⟩
  · exact Tls.Onward.refl _ _
  · cases ev with
    | publish rd info =>
      dsimp only
      have h := grows_publishDone (x := x) (k := k) false (Verif.MqttTls.useReader false info t.ops rd).2 info s1
      rcases e : publishDone false (useReader false info t.ops rd).2 info s1 with ⟨_ | _, s2⟩ <;> rw [e] at h <;> exact h
    | _ => exact Tls.Onward.refl _ _

end Verif.MqttTls

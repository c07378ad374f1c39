import Verif.Proof.TraceMqttTls
import Verif.Thm.Trace
import Verif.Thm.TlsWitness
/-!
# C123 and C125: what a TLS client writes, and when it reports success

As in `Thm/Trace.lean`, the accesses of a call are what it appends to the empty list on `traceBus b`, and `Device b` lets a device answer
anything at any time, and fail at any access.
-/
namespace Verif.Tls
open Verif Hl
open _root_.Verif.Spec (Device Access traceBus OfSocket OfCommon OnlyWrites NoneFailed ReadsInterrupts)
variable {σ : Type} {b : Bus σ} {x : Crypto}

theorem xk_writes {ε α : Type} {W : Access → Prop} {sn : Sn} {V : α → Prop} {m : X ε ((σ × List Access) × Client x) α} (h : XK W sn V m) (s : σ)
    (c : Client x) (hc : c.sn = sn) : OnlyWrites W (m ((s, []), c)).2.1.2 ∧ ∀ a, (m ((s, []), c)).1 = .ok a → V a ∧ NoneFailed (m ((s, []), c)).2.1.2 := by
  obtain ⟨es, h1, h2, h3, _⟩ := h (s, []) c hc
  rw [show (m ((s, []), c)).2.1.2 = es from h1]
  exact ⟨h2, fun a ha => ⟨(h3 a ha).1.2, (h3 a ha).2 trivial⟩⟩
theorem xm_writes {ε α : Type} {W : Access → Prop} {sn : Sn} {V : α → Prop} {m : X ε ((σ × List Access) × MqttTls.Client x) α}
    (h : MqttTls.XM W sn V m) (s : σ) (c : MqttTls.Client x) (hc : c.tls.sn = sn) :
    OnlyWrites W (m ((s, []), c)).2.1.2 ∧ ∀ a, (m ((s, []), c)).1 = .ok a → NoneFailed (m ((s, []), c)).2.1.2 := by
  obtain ⟨es, h1, h2, h3, _⟩ := h (s, []) c hc
  rw [show (m ((s, []), c)).2.1.2 = es from h1]
  exact ⟨h2, fun a ha => (h3 a ha).2 trivial⟩

/-! ## C123: only the own socket is written -/

/-- TLS: `process` also writes the socket interrupt mask register, but only when it starts to connect. -/
theorem C123_tls_process (hb : Device b) (s : σ) (c : Client x) (dbg : Bool) (fuel : Nat) (rng : Rng x) (secs : UInt32) :
    OnlyWrites (fun a => OfSocket c.sn a ∨ c.state = .reset ∧ OfCommon 0x18 1 a) (process dbg fuel (traceBus b) rng secs ((s, []), c)).2.1.2 ∧
    (process dbg fuel (traceBus b) rng secs ((s, []), c)).2.2.sn = c.sn := by
  obtain ⟨first, es, h1, h2, _, _, _, h6, _, h8⟩ := process_trace (sn := c.sn) (W := fun a => OfSocket c.sn a ∨ c.state = .reset ∧ OfCommon 0x18 1 a) hb
    (fun _ h => .inl h) (R := c.state = .reset) (fun hr _ h => .inr ⟨hr, h⟩) dbg fuel rng secs (s, []) c ⟨rfl, id⟩
  refine ⟨?_, h8⟩
  rw [show (process dbg fuel (traceBus b) rng secs ((s, []), c)).2.1.2 = first :: es from h1]
  intro a ha hw
  rcases List.mem_cons.mp ha with rfl | ha
  · rw [h2] at hw; exact nomatch hw
  · exact h6 a ha hw

/-- TLS: writing application data, at once or with a writer. -/
theorem C123_tls_data (hb : Device b) (s : σ) :
    (∀ (c : Client x) (data : Bytes), OnlyWrites (OfSocket c.sn) (tlsWriteAll (traceBus b) data ((s, []), c)).2.1.2) ∧
    (∀ c : Client x, OnlyWrites (OfSocket c.sn) (tlsWriter (traceBus b) ((s, []), c)).2.1.2 ∧
      ∀ r, (tlsWriter (traceBus b) ((s, []), c)).1 = .ok r → r.sn = c.sn) ∧
    (∀ (r : Ptrs) (data : Bytes), OnlyWrites (OfSocket r.sn) (writerWriteAll (traceBus b) r data (s, [])).2.2 ∧
      ∀ r', (writerWriteAll (traceBus b) r data (s, [])).1 = .ok r' → r'.sn = r.sn) ∧
    ∀ (c : Client x) (r : Ptrs), r.sn = c.sn → OnlyWrites (OfSocket c.sn) (tlsSend (traceBus b) r ((s, []), c)).2.1.2 := by
  refine ⟨fun c data => (xk_writes (xk_tlsWriteAll hb (fun _ h => h) data) s c rfl).1, fun c => ?_, fun r data => ?_, fun c r hr =>
    (xk_writes (xk_tlsSend hb (fun _ h => h) r hr) s c rfl).1⟩
  · have h := xk_writes (xk_tlsWriter (W := OfSocket c.sn) hb (fun _ h => h)) s c rfl
    exact ⟨h.1, fun r hr => (h.2 r hr).1⟩
  · have h := t0_writerWriteAll (W := OfSocket r.sn) hb (fun _ h => h) r rfl data
    obtain ⟨_, _, _, _, _, h5⟩ := h (s, []) trivial
    exact ⟨Thm.t0_writes h s, h5⟩

/-- MQTT over TLS: `process` also writes the socket interrupt mask register, but only when it starts to connect. -/
theorem C123_mqtt_tls (hb : Device b) (s : σ) (c : MqttTls.Client x) :
    (∀ (dbg : Bool) (fuel : Nat) (rng : Rng x) (secs : UInt32),
      OnlyWrites (fun a => OfSocket c.tls.sn a ∨ c.tls.state = .reset ∧ OfCommon 0x18 1 a)
        (MqttTls.process dbg fuel (traceBus b) rng secs ((s, []), c)).2.1.2 ∧
      (MqttTls.process dbg fuel (traceBus b) rng secs ((s, []), c)).2.2.tls.sn = c.tls.sn) ∧
    (∀ t p : Bytes, OnlyWrites (OfSocket c.tls.sn) (MqttTls.publish (traceBus b) t p ((s, []), c)).2.1.2) ∧
    ∀ (dbg : Bool) (f : Bytes), OnlyWrites (OfSocket c.tls.sn) (MqttTls.subscribe dbg (traceBus b) f ((s, []), c)).2.1.2 ∧
      OnlyWrites (OfSocket c.tls.sn) (MqttTls.unsubscribe dbg (traceBus b) f ((s, []), c)).2.1.2 := by
  refine ⟨fun dbg fuel rng secs => ?_, fun t p => (xm_writes (MqttTls.xm_publish hb (fun _ h => h) t p) s c rfl).1,
    fun dbg f => ⟨(xm_writes (MqttTls.xm_sendFilter hb (fun _ h => h) f _ (Thm.wp_subscribeProg dbg f)) s c rfl).1,
      (xm_writes (MqttTls.xm_sendFilter hb (fun _ h => h) f _ (Thm.wp_unsubscribeProg dbg f)) s c rfl).1⟩⟩
  obtain ⟨first, es, h1, h2, _, _, _, h6, _, h8⟩ := MqttTls.process_trace (sn := c.tls.sn)
    (W := fun a => OfSocket c.tls.sn a ∨ c.tls.state = .reset ∧ OfCommon 0x18 1 a) hb
    (fun _ h => .inl h) (R := c.tls.state = .reset) (fun hr _ h => .inr ⟨hr, h⟩) dbg fuel rng secs (s, []) c ⟨rfl, id⟩
  refine ⟨?_, h8⟩
  rw [show (MqttTls.process dbg fuel (traceBus b) rng secs ((s, []), c)).2.1.2 = first :: es from h1]
  intro a ha hw
  rcases List.mem_cons.mp ha with rfl | ha
  · rw [h2] at hw; exact nomatch hw
  · exact h6 a ha hw

/-! ## C125: no call succeeds after a failed access -/

/-- `process` first reads the socket's interrupt register; if it returns an event, no later access failed.  Missing: the first access,
see `C125_interrupts_failure_ignored`. -/
theorem C125_process_partial (hb : Device b) (s : σ) (c : Client x) (dbg : Bool) (fuel : Nat) (rng : Rng x) (secs : UInt32) :
    ∃ first rest, (process dbg fuel (traceBus b) rng secs ((s, []), c)).2.1.2 = first :: rest ∧ ReadsInterrupts c.sn first ∧
      ∀ ev, (process dbg fuel (traceBus b) rng secs ((s, []), c)).1 = .ok ev → NoneFailed rest := by
  obtain ⟨first, es, h1, h2, h3, h4, h5, _, h7, _⟩ := process_trace (sn := c.sn) (W := fun _ => True) hb
    (fun _ _ => trivial) (R := True) (fun _ _ _ => trivial) dbg fuel rng secs (s, []) c ⟨rfl, fun _ => trivial⟩
  exact ⟨first, es, h1, ⟨h2, by rw [h3]; exact Sn.block_toNat _, h4, h5⟩, h7⟩

/-- Application data: if a call succeeds, no access failed. -/
theorem C125_data (hb : Device b) (s : σ) (c : Client x) :
    (∀ data, (tlsWriteAll (traceBus b) data ((s, []), c)).1 = .ok () → NoneFailed (tlsWriteAll (traceBus b) data ((s, []), c)).2.1.2) ∧
    (∀ r, (tlsWriter (traceBus b) ((s, []), c)).1 = .ok r → NoneFailed (tlsWriter (traceBus b) ((s, []), c)).2.1.2) ∧
    ∀ r, (tlsSend (traceBus b) r ((s, []), c)).1 = .ok () → NoneFailed (tlsSend (traceBus b) r ((s, []), c)).2.1.2 := by
  refine ⟨fun data h => ((xk_writes (xk_tlsWriteAll (W := fun _ => True) hb (fun _ _ => trivial) data) s c rfl).2 _ h).2,
    fun r h => ((xk_writes (xk_tlsWriter (W := fun _ => True) hb (fun _ _ => trivial)) s c rfl).2 _ h).2, fun r h => ?_⟩
  obtain ⟨es, h1, _, h3, _⟩ := xk_tlsSend (W := fun _ => True) (sn := r.sn) hb (fun _ _ => trivial) r rfl (s, []) { c with sn := r.sn } rfl
  have e1 : (tlsSend (traceBus b) r ((s, []), c)).1 = (tlsSend (traceBus b) r ((s, []), { c with sn := r.sn })).1 := rfl
  have e2 : (tlsSend (traceBus b) r ((s, []), c)).2.1 = (tlsSend (traceBus b) r ((s, []), { c with sn := r.sn })).2.1 := rfl
  rw [e2, show (tlsSend (traceBus b) r ((s, []), { c with sn := r.sn })).2.1.2 = es from h1]
  exact (h3 () (e1 ▸ h)).2 trivial

/-- MQTT over TLS: the same. -/
theorem C125_mqtt_tls_partial (hb : Device b) (s : σ) (c : MqttTls.Client x) :
    (∀ (dbg : Bool) (fuel : Nat) (rng : Rng x) (secs : UInt32),
      ∃ first rest, (MqttTls.process dbg fuel (traceBus b) rng secs ((s, []), c)).2.1.2 = first :: rest ∧ ReadsInterrupts c.tls.sn first ∧
        ∀ ev, (MqttTls.process dbg fuel (traceBus b) rng secs ((s, []), c)).1 = .ok ev → NoneFailed rest) ∧
    (∀ t p : Bytes, (MqttTls.publish (traceBus b) t p ((s, []), c)).1 = .ok () → NoneFailed (MqttTls.publish (traceBus b) t p ((s, []), c)).2.1.2) ∧
    ∀ (dbg : Bool) (f : Bytes) (id : UInt16),
      ((MqttTls.subscribe dbg (traceBus b) f ((s, []), c)).1 = .ok id → NoneFailed (MqttTls.subscribe dbg (traceBus b) f ((s, []), c)).2.1.2) ∧
      ((MqttTls.unsubscribe dbg (traceBus b) f ((s, []), c)).1 = .ok id → NoneFailed (MqttTls.unsubscribe dbg (traceBus b) f ((s, []), c)).2.1.2) := by
  refine ⟨fun dbg fuel rng secs => ?_, fun t p => (xm_writes (MqttTls.xm_publish (W := fun _ => True) hb (fun _ _ => trivial) t p) s c rfl).2 _,
    fun dbg f id => ⟨(xm_writes (MqttTls.xm_sendFilter (W := fun _ => True) hb (fun _ _ => trivial) f _ (Thm.wp_subscribeProg dbg f)) s c rfl).2 _,
      (xm_writes (MqttTls.xm_sendFilter (W := fun _ => True) hb (fun _ _ => trivial) f _ (Thm.wp_unsubscribeProg dbg f)) s c rfl).2 _⟩⟩
  obtain ⟨first, es, h1, h2, h3, h4, h5, _, h7, _⟩ := MqttTls.process_trace (sn := c.tls.sn) (W := fun _ => True) hb
    (fun _ _ => trivial) (R := True) (fun _ _ _ => trivial) dbg fuel rng secs (s, []) c ⟨rfl, fun _ => trivial⟩
  exact ⟨first, es, h1, ⟨h2, by rw [h3]; exact Sn.block_toNat _, h4, h5⟩, h7⟩

/-- The accesses of a call, readable. -/
def accesses (l : List Access) : List (Bool × UInt8 × UInt16 × Nat × Option Err) := l.map fun a => (a.write, a.block, a.addr, a.len, a.failed)

open Witness (setup rng c2)

/-- `unwrap_or_default`: a failure to read the interrupts is ignored.  The disconnected client goes on to wait for the server, and the call
succeeds. -/
theorem C125_interrupts_failure_ignored :
    (process false 3 (traceBus Thm.scriptBus) rng 0 (([none], []), c2)).1 = .ok (.callAfter 10) ∧
    accesses (process false 3 (traceBus Thm.scriptBus) rng 0 (([none], []), c2)).2.1.2 =
      [(false, 13, 2, 1, some (.bus 0)), (false, 13, 0x26, 2, none)] ∧
    (process false 3 (traceBus Thm.scriptBus) rng 0 (([some [2]], []), c2)).1 = .ok .disconnect := by decide +kernel

/-! ## Cases -/

/-- A client that starts to connect writes the socket interrupt mask register; when that fails, it tries to send an alert, and the call
fails. -/
example : let r := process false 3 (traceBus Thm.scriptBus) rng 0 (([some [0], some [1], none], []), setup.client Witness.X)
    accesses r.2.1.2 = [(false, 13, 2, 1, none), (true, 13, 1, 1, none), (true, 13, 0x1E, 1, none), (false, 0, 0x18, 1, none),
      (true, 0, 0x18, 1, some (.bus 0)), (false, 13, 0x20, 6, none)] ∧
    r.1 = .error (.err (.client (Alert.newFatal .internalError))) := by decide +kernel

/-- A client that waits for the server, and succeeds. -/
example : let r := process false 3 (traceBus Thm.scriptBus) rng 0 (([some [0]], []), c2)
    accesses r.2.1.2 = [(false, 13, 2, 1, none), (false, 13, 0x26, 2, none)] ∧ r.1 = .ok (.callAfter 10) := by decide +kernel

end Verif.Tls

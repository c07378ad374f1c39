import Verif.Proof.TraceTls
import Verif.Model.MqttTls
/-!
# The accesses of an MQTT client over TLS
-/
namespace Verif.MqttTls
open Verif Hl
open _root_.Verif.Spec (Device Access traceBus OfSocket OfCommon OnlyWrites NoneFailed)
open Verif.Thm (T0 Wp)
open Verif.Tls (X Crypto TErr TEvent Rng TlsReader Fail XC X0 XV XK May)
open Verif.Mqtt (RecvOut PubInfo)

section
variable {σ ε α : Type} {x : Crypto} {W : Access → Prop} {b : Bus σ} {sn : Sn}

/-- With a client of the socket. -/
abbrev XM (W : Access → Prop) (sn : Sn) (V : α → Prop) (m : X ε ((σ × List Access) × Client x) α) : Prop := XV W (fun c => c.tls.sn = sn) V m

theorem XM.getC : XM W sn (fun c => c.tls.sn = sn) (MqttTls.getC : X ε ((σ × List Access) × Client x) _) :=
  XC.still fun _ t ht => ⟨rfl, fun c hc => by injection hc with hc; exact hc ▸ ⟨ht, ht⟩, fun _ _ => ht⟩
theorem XM.modC {f : Client x → Client x} (h : ∀ c, (f c).tls.sn = c.tls.sn) :
    XM W sn (fun _ => True) (MqttTls.modC f : X ε ((σ × List Access) × Client x) _) :=
  XC.still fun _ t ht => ⟨rfl, fun _ _ => ⟨(h t).trans ht, trivial⟩, fun _ _ => (h t).trans ht⟩
theorem XM.onTls {V : α → Prop} {f : Fail ε → Fail Error} {m : X ε ((σ × List Access) × Tls.Client x) α} (h : XK W sn V m) :
    XM W sn V (MqttTls.onTls f m) := fun d t ht => by
  obtain ⟨es, h1, h2, h3, h4⟩ := h d t.tls ht
  unfold MqttTls.onTls
  dsimp only
  rcases e : m (d, t.tls) with ⟨e' | a, d', t'⟩ <;> rw [e] at h1 h3 h4
  · exact ⟨es, h1, h2, fun _ h => (nomatch h), fun _ _ => h4 _ rfl⟩
  · exact ⟨es, h1, h2, fun b hb => by injection hb with hb; exact hb ▸ h3 a rfl, fun _ h => nomatch h⟩

theorem xm_readerDone (r : TlsReader) : XM (σ := σ) W sn (fun _ => True) (readerDone r : X ε ((σ × List Access) × Client x) _) :=
  XM.modC (by intro _; rfl)

theorem xm_recvFinish (r : TlsReader) (out : RecvOut) : XM (σ := σ) W sn (fun _ => True) (recvFinish r out : X _ ((σ × List Access) × Client x) _) := by
  cases out with
  | pending => exact .pure trivial
  | bad e reset =>
    cases reset
    · exact .throw
    · exact XV.bind (XM.modC (by intro _; rfl)) fun _ _ => .throw
  | connAck code =>
    refine (xm_readerDone r).bind fun _ _ => ?_
    split
    · exact XV.bind (XM.modC (by intro _; rfl)) fun _ _ => .throw
    · exact .ite (XV.bind (XM.modC (by intro _; rfl)) fun _ _ => .pure trivial) (XV.bind (XM.modC (by intro _; rfl)) fun _ _ => .throw)
  | subAck id code => exact (xm_readerDone r).bind fun _ _ => .pure trivial
  | unSubAck id code => exact (xm_readerDone r).bind fun _ _ => .pure trivial
  | publish info => exact .pure trivial
  | ignored => exact (xm_readerDone r).bind fun _ _ => .pure trivial

theorem xm_checkTimeout (dbg secs) : XM (σ := σ) W sn (fun _ => True) (checkTimeout dbg secs : X _ ((σ × List Access) × Client x) _) := by
  unfold checkTimeout
  refine XM.getC.bind fun _ _ => XV.ofCipher.bind fun e _ => ?_
  cases e with
  | none => exact .pure trivial
  | some e => exact .ite (XV.bind (XM.modC (by intro _; rfl)) fun _ _ => .throw) (.pure trivial)

theorem xm_receive (dbg secs) : XM (σ := σ) W sn (fun _ => True) (receive dbg secs : X _ ((σ × List Access) × Client x) _) := by
  unfold receive
  refine XM.getC.bind fun c _ => ?_
  cases c.tls.reader with
  | error e => cases e <;> first | exact xm_checkTimeout _ _ | exact .fail
  | ok r =>
    refine XV.bind (V' := fun _ => True) (XM.getC.bind fun c _ => ?_) fun ev _ => ?_
    · split
      · exact xm_recvFinish _ _
      · exact .fail
    · cases ev with
      | none => exact xm_checkTimeout _ _
      | some ev => exact .pure trivial

variable (hb : Device b) (hW : ∀ a, OfSocket sn a → W a)
include hb hW

theorem xk_sendPacket (r : Ptrs) (hr : r.sn = sn) (p : WProg Unit) (hp : Wp p) :
    XK W sn (fun _ => True) (sendPacket (traceBus b) r p : X _ ((σ × List Access) × Tls.Client x) _) :=
  (XV.onFst (.ofM (Thm.t0_onWriter hb hW r hr p hp))).bind fun _ h => Tls.xk_tlsSend hb hW _ h

theorem xm_publish (t p : Bytes) : XM W sn (fun _ => True) (publish (traceBus b) t p : X _ ((σ × List Access) × Client x) _) :=
  (XM.onTls (Tls.xk_tlsWriter hb hW)).bind fun _ h => XM.onTls (xk_sendPacket hb hW _ h _ (Thm.wp_publishProg _ _))

theorem xm_sendFilter (f : Bytes) (p : UInt16 → WProg Unit) (hp : ∀ i, Wp (p i)) :
    XM W sn (fun _ => True) (sendFilter (traceBus b) f p : X _ ((σ × List Access) × Client x) _) :=
  XV.bind (XM.modC (by intro _; rfl)) fun _ _ => XM.getC.bind fun _ _ => (XM.onTls (Tls.xk_tlsWriter hb hW)).bind fun _ h =>
    .ite (.pure trivial) ((XM.onTls (xk_sendPacket hb hW _ h _ (hp _))).bind fun _ _ => .pure trivial)

theorem xm_onEvent (dbg secs) (ev : TEvent) : XM W sn (fun _ => True) (onEvent dbg (traceBus b) secs ev : X _ ((σ × List Access) × Client x) _) := by
  cases ev with
  | callAfter n => exact .pure trivial
  | applicationData => exact xm_receive _ _
  | handshakeFinished =>
    exact XV.bind (V' := fun _ => True) (XM.getC.bind fun _ _ => (XM.onTls (Tls.xk_tlsWriter hb hW)).bind fun _ h =>
      (XM.onTls (xk_sendPacket hb hW _ h _ (Thm.wp_connectProg _ _))).bind fun _ _ => XV.bind (XM.modC (by intro _; rfl)) fun _ _ => .pure trivial)
      fun _ _ => .pure trivial
  | disconnect => exact .throw
  | none => exact xm_receive _ _

theorem process_trace {R : Prop} (hS : R → ∀ a, OfCommon 0x18 1 a → W a) (dbg fuel rng secs) (d : σ × List Access) (c : Client x) (hc : May sn R c.tls) :
    ∃ first es, (process dbg fuel (traceBus b) rng secs (d, c)).2.1.2 = d.2 ++ first :: es ∧ first.write = false ∧ first.block = sn.block ∧
      first.addr = 2 ∧ first.len = 1 ∧ OnlyWrites W es ∧
      (∀ a, (process dbg fuel (traceBus b) rng secs (d, c)).1 = .ok a → NoneFailed es) ∧
      (process dbg fuel (traceBus b) rng secs (d, c)).2.2.tls.sn = sn := by
  obtain ⟨first, es, h1, h2, h3, h4, h5, h6, h7, h8⟩ := Tls.process_trace hb hW hS dbg fuel rng secs d c.tls hc
  unfold process
  rw [X.bind_run]
  unfold MqttTls.onTls
  dsimp only
  rcases e : Tls.process dbg fuel (traceBus b) rng secs (d, c.tls) with ⟨e' | ev, d', t'⟩ <;> rw [e] at h1 h7 h8
  · exact ⟨first, es, h1, h2, h3, h4, h5, h6, fun _ h => (nomatch h), h8⟩
  · obtain ⟨es', g1, g2, g3, g4⟩ := xm_onEvent hb hW dbg secs ev d' { c with tls := t' } h8
    refine ⟨first, es ++ es', ?_, h2, h3, h4, h5, Thm.only_append h6 g2, fun a ha => Tls.sound_append (h7 ev rfl) ((g3 a ha).2 trivial), ?_⟩
    · rw [g1, show d'.2 = d.2 ++ first :: es from h1, List.append_assoc, List.cons_append]
    · rcases hr : (onEvent dbg (traceBus b) secs ev (d', { c with tls := t' })).1 with e' | v
      · exact g4 _ hr
      · exact (g3 v hr).1.1

end

end Verif.MqttTls

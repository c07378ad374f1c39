import Verif.Thm.TlsRetry
import Verif.Thm.MqttTlsStuck
/-!
# C93: when the MQTT client over TLS does connect again
-/
namespace Verif.MqttTls
open Verif Hl Tls
open _root_.Verif.Spec (World worldBus TxState RxState Queue)

variable {x : Crypto}

/-- What `process` returns when the TLS client returns this and there is nothing to receive. -/
def lift : Except (Fail TErr) TEvent → Except (Fail Error) Event
  | .ok (.callAfter n) => .ok (.callAfter n)
  | .ok .disconnect => .error (.err (.mqtt .disconnect))
  | .ok _ => .ok .none
  | .error e => .error (mapProcessErr e)

/-- A result of the TLS client after which the MQTT client does nothing more. -/
def Ends : Except (Fail TErr) TEvent → Prop
  | .ok (.callAfter _) | .ok .disconnect | .error _ => True
  | .ok _ => False

theorem process_lift (dbg : Bool) (fuel : Nat) (rng : Rng x) (secs : UInt32) (w : World) (c : Client x) (h : Ends (Tls.process dbg fuel worldBus rng secs (w, c.tls)).1) :
    process dbg fuel worldBus rng secs (w, c) = (lift (Tls.process dbg fuel worldBus rng secs (w, c.tls)).1,
      ((Tls.process dbg fuel worldBus rng secs (w, c.tls)).2.1, { c with tls := (Tls.process dbg fuel worldBus rng secs (w, c.tls)).2.2 })) := by
  unfold process
  rcases e : Tls.process dbg fuel worldBus rng secs (w, c.tls) with ⟨e1 | ev, w1, t⟩
  · rw [X.bind_error (onTls_error e)]
    rfl
  · rw [X.bind_ok (onTls_ok e)]
    rw [e] at h
    cases ev <;> first | rfl | exact absurd h id

theorem calls_lift (fuel : Nat) (rng : Rng x) (ts : List UInt32) (w : World) (c : Client x) (h : ∀ r ∈ (callsAt fuel rng ts (w, c.tls)).1, Ends r) :
    calls false fuel rng ts (w, c) = ((callsAt fuel rng ts (w, c.tls)).1.map lift,
      ((callsAt fuel rng ts (w, c.tls)).2.1, { c with tls := (callsAt fuel rng ts (w, c.tls)).2.2 })) := by
  induction ts generalizing w c with
  | nil => rfl
  | cons t ts ih =>
    rcases e : Tls.process false fuel worldBus rng t (w, c.tls) with ⟨res, w1, t1⟩
    rw [callsAt_cons ts e] at h ⊢
    have h1 : Ends (Tls.process false fuel worldBus rng t (w, c.tls)).1 := by rw [e]; exact h res List.mem_cons_self
    have e2 := process_lift false fuel rng t w c h1
    rw [e] at e2
    unfold calls
    rw [e2, ih w1 { c with tls := t1 } (fun r hr => h r (List.mem_cons_of_mem _ hr))]
    rfl

/-- The client is connecting again: the new TLS connection is being set up, and the MQTT client is as it was. -/
structure Reconnects (secs : UInt32) (w : World) (c : Client x) (w' : World) (c' : Client x) : Prop where
  tls : Retries secs w c.tls w' c'.tls
  rest : c' = { c with tls := c'.tls }

/-- C93, partial: when the server has closed the connection (DISCON) or the TCP connection has timed out (TIMEOUT), `process` returns the error and the call
after it does connect again.  (Not so for the errors of `C93_timeout_not`, `C93_refused_not`, `C93_full_not`, `C93_malformed_not`.) -/
theorem C93_disconnection_partial (fuel : Nat) (rng : Rng x) (s0 s1 : UInt32) (w : World) (c : Client x) (hf : 1 ≤ fuel)
    (hst : Steady c.tls.sn.toU8.toNat w) (hnm : NoMore c.tls.sn.toU8.toNat w) (htx1 : 65536 % w.chip.txSize c.tls.sn.toU8.toNat = 0)
    (htx2 : w.chip.txSize c.tls.sn.toU8.toNat < 65536) (hn : c.tls.rx.n ∈ [1024, 2048, 4096, 8192, 16384])
    (hcon : Spec.Mqtt.con (w.chip.mem (4 * c.tls.sn.toU8.toNat + 1) 2) = false)
    (hev : Spec.Mqtt.discon (w.chip.mem (4 * c.tls.sn.toU8.toNat + 1) 2) = true ∧ c.tls.state ≠ .waitDiscon ∨
      Spec.Mqtt.discon (w.chip.mem (4 * c.tls.sn.toU8.toNat + 1) 2) = false ∧ Spec.Mqtt.timeout (w.chip.mem (4 * c.tls.sn.toU8.toNat + 1) 2) = true) :
    let r := calls false fuel rng [s0, s1] (w, c)
    r.1 = [.error (.err (.mqtt (if Spec.Mqtt.discon (w.chip.mem (4 * c.tls.sn.toU8.toNat + 1) 2) then .disconnect else .tcpTimeout))), .ok (.callAfter 10)] ∧
    Reconnects s1 w c r.2.1 r.2.2 := by
  intro r
  obtain ⟨h1, h2⟩ := C99_after_disconnection fuel rng s0 s1 w c.tls hf hst hnm htx1 htx2 hn hcon hev
  have hr : r = _ := calls_lift fuel rng [s0, s1] w c (by
    rw [h1]
    intro r hr
    simp only [List.mem_cons, List.not_mem_nil, or_false] at hr
    rcases hr with rfl | rfl
    · split <;> trivial
    · trivial)
  rw [hr]
  refine ⟨?_, h2, rfl⟩
  rw [h1]
  split
  · rfl
  · rfl

/-- C93, partial: a TLS server that is silent while the TLS connection is being set up.  The errors are timeouts of the MQTT client, and the fourth call
connects again. -/
theorem C93_silent_server_partial (fuel : Nat) (rng : Rng x) (s0 s1 s2 s3 t0 : UInt32) (w : World) (c : Client x) (p : Nat) (unread : Bytes)
    (hl : Listens w c.tls p unread) (hc : c.tls.state ≠ .sendFinished) (ht : c.tls.timeout = some t0) (hf : 1 ≤ fuel)
    (ha : Alone c.tls.sn.toU8.toNat w) (hst : Still c.tls.sn.toU8.toNat w) (hn : c.tls.rx.n ∈ [1024, 2048, 4096, 8192, 16384]) (rest : Bytes) (hrest : rest ≠ [])
    (hr : IsRecord ((w.chip.received c.tls.sn.toU8.toNat).drop p ++ rest))
    (hlim : ((w.chip.received c.tls.sn.toU8.toNat).drop p ++ rest).length ≤ 5 + c.tls.recordSizeLimit.toNat)
    (h0 : t0.toNat + 10 < s0.toNat) (h12 : s1.toNat + 10 < s2.toNat) :
    let r := calls false fuel rng [s0, s1, s2, s3] (w, c)
    r.1 = [.error (.err (.mqtt (.stateTimeout .waitConAck))), .ok (.callAfter 10), .error (.err (.mqtt (.stateTimeout .waitConAck))), .ok (.callAfter 10)] ∧
    Reconnects s3 w c r.2.1 r.2.2 := by
  intro r
  obtain ⟨h1, h2⟩ := C99_silent_server fuel rng s0 s1 s2 s3 t0 w c.tls p unread hl hc ht hf ha hst hn rest hrest hr hlim h0 h12
  have hr : r = _ := calls_lift fuel rng [s0, s1, s2, s3] w c (by
    rw [h1]
    intro r hr
    simp only [List.mem_cons, List.not_mem_nil, or_false] at hr
    rcases hr with rfl | rfl | rfl | rfl <;> trivial)
  rw [hr]
  refine ⟨?_, h2, rfl⟩
  rw [h1]
  rfl

/-- C93, partial: after the TLS client has aborted the connection with an alert, the fourth call at the latest connects again. -/
theorem C93_abort_partial (fuel : Nat) (rng : Rng x) (s0 s1 s2 s3 t0 : UInt32) (w : World) (c : Client x) (hc : c.tls.state = .waitAlertSendOk)
    (ht : c.tls.timeout = some t0) (hf : 1 ≤ fuel) (ha : Alone c.tls.sn.toU8.toNat w) (hn : c.tls.rx.n ∈ [1024, 2048, 4096, 8192, 16384])
    (h0 : t0.toNat + 10 < s0.toNat) (h12 : s1.toNat + 10 < s2.toNat) :
    let r := calls false fuel rng [s0, s1, s2, s3] (w, c)
    (r.1.head? = some (.ok (.callAfter 10)) ∨ r.1.head? = some (.error (.err (.mqtt (.stateTimeout .waitConAck))))) ∧
    r.1.tail = [.ok (.callAfter 10), .error (.err (.mqtt (.stateTimeout .waitConAck))), .ok (.callAfter 10)] ∧ Reconnects s3 w c r.2.1 r.2.2 := by
  intro r
  obtain ⟨h1, h2, h3⟩ := C99_after_abort fuel rng s0 s1 s2 s3 t0 w c.tls hc ht hf ha hn h0 h12
  have hl : ∃ a, (callsAt fuel rng [s0, s1, s2, s3] (w, c.tls)).1 =
      [a, .ok (.callAfter 10), .error (.err (.stateTimeout .waitDiscon)), .ok (.callAfter 10)] ∧
      (a = .ok (.callAfter 10) ∨ a = .error (.err (.stateTimeout .waitAlertSendOk))) := by
    generalize (callsAt fuel rng [s0, s1, s2, s3] (w, c.tls)).1 = l at h1 h2
    cases l with
    | nil => simp at h2
    | cons a l =>
      refine ⟨a, congrArg (a :: ·) h2, ?_⟩
      simpa using h1
  obtain ⟨a, hl, hor⟩ := hl
  have hr : r = _ := calls_lift fuel rng [s0, s1, s2, s3] w c (by
    rw [hl]
    intro r hr
    simp only [List.mem_cons, List.not_mem_nil, or_false] at hr
    rcases hr with rfl | rfl | rfl | rfl
    · rcases hor with rfl | rfl <;> trivial
    all_goals trivial)
  rw [hr]
  refine ⟨?_, ?_, h3, rfl⟩
  · rw [hl]
    rcases hor with rfl | rfl
    · exact .inl rfl
    · exact .inr rfl
  · rw [hl]
    rfl

namespace Witness
open Verif.Tls.Witness

/-- The broker closes an established connection. -/
example : (calls false 3 rng [5, 6] (wDiscon, waiting)).1 = [.error (.err (.mqtt .disconnect)), .ok (.callAfter 10)] := by
  have h := (C93_disconnection_partial 3 rng 5 6 wDiscon waiting (by decide) nofun nofun (by decide +kernel) (by decide +kernel) (by decide +kernel)
    (by decide +kernel) (.inl ⟨by decide +kernel, by decide +kernel⟩)).1
  rw [if_pos (by decide +kernel)] at h
  exact h

end Witness

end Verif.MqttTls

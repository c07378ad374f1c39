import Verif.Proof.PanicTlsSend
import Verif.Proof.PanicMqttTls
import Verif.Spec.PanicMqttTls
import Verif.Thm.PanicTls
import Verif.Thm.MqttTlsErr
import Verif.Thm.MqttTlsIn
/-!
# C126: the MQTT client over TLS adds no panic, and sending application data does not panic

`TlsHistory` and `NeverPanics` are in `Spec/PanicTls.lean`, `MqttTlsCall` and `TlsMessage` in `Spec/PanicMqttTls.lean`.
-/
namespace Verif.Tls
open Verif Hl
open _root_.Verif.Spec (Device TlsHistory NeverPanics MqttTlsCall TlsMessage worldBus World)
variable {σ τ : Type} {x : Crypto}

theorem never_of {ε α : Type} {r : Except (Fail ε) α} (h : ∀ f, r = .error f → f ≠ .stop .panic ∧ f ≠ .noKey) : NeverPanics r :=
  ⟨fun e => (h _ e).1 rfl, fun e => (h _ e).2 rfl⟩

/-- A connected client of a history has a key, and its sequence number is not the last one. -/
theorem history_connected (hx : x.Standard) (u : Setup) (fits : 234 + u.hostname.length + u.identity.length ≤ u.rx.length)
    {c : Client x} {k : Nat} {data : Prop} (h : TlsHistory σ (u.client x) k data c) (calls : k + 1 < 2 ^ 64) (hc : c.state = .connected) :
    (∃ kn, c.ks.clientKeyAndNonce = some kn) ∧ c.ks.writeSeq.toNat + 1 < 2 ^ 64 := by
  have hs := (reached_inv hx h.reached).st
  rw [hc] at hs
  have hw := (h.inv hx u fits (by omega)).ws
  refine ⟨?_, by omega⟩
  unfold KeySchedule.clientKeyAndNonce
  rcases ht : c.ks.clientTraffic with _ | t
  · exact absurd ht hs.1
  · exact ⟨_, rfl⟩

/-- **C126, TLS.**  After any history, whatever the device answers and whichever accesses fail: getting a writer does not panic,
writing with any writer does not, and sending with any writer of a connected client does not, however much was written and wherever
the writer was moved to. -/
theorem C126_tls_writer (hx : x.Standard) (u : Setup) (fits : 234 + u.hostname.length + u.identity.length ≤ u.rx.length)
    {c : Client x} {k : Nat} {data : Prop} (h : TlsHistory σ (u.client x) k data c) (calls : k + 1 < 2 ^ 64)
    {b : Bus τ} (dev : Device b) (s : τ) (p : Ptrs) :
    NeverPanics (tlsWriter b (s, c)).1 ∧ (∀ bytes, (writerWriteAll b p bytes s).1 ≠ .error .panic) ∧
    (c.connected = true → NeverPanics (tlsSend b p (s, c)).1) := by
  refine ⟨never_of fun f hf => ?_, fun bytes e => ((fine_writerWriteAll dev p bytes s).1 _ e).1 rfl, fun hc => never_of fun f hf => ?_⟩
  · rcases tlsWriter_fails dev s c f hf with ⟨a, rfl⟩ | rfl | rfl <;> exact ⟨by nofun, by nofun⟩
  · have hc' : c.state = .connected := by simpa [Client.connected] using hc
    obtain ⟨h1, h2⟩ := history_connected hx u fits h calls hc'
    exact ⟨(tlsSend_soft dev p s c h1 h2 f hf).1, (tlsSend_soft dev p s c h1 h2 f hf).2.1⟩

/-! ## MQTT over TLS -/

theorem sendPacket_soft {b : Bus τ} (dev : Device b) {prog : WProg Unit} (hp : WSafe prog) (r : Ptrs) (s : τ) (c : Client x)
    (hk : ∃ kn, c.ks.clientKeyAndNonce = some kn) (hs : c.ks.writeSeq.toNat + 1 < 2 ^ 64) (f : Fail Err)
    (h : (MqttTls.sendPacket b r prog (s, c)).1 = .error f) : Soft f := by
  unfold MqttTls.sendPacket at h
  rw [X.bind_run] at h
  have hw := NP.ofM (fine_onWriter dev r hp) s
  rcases e : X.ofM (onWriter b r prog) s with ⟨f' | y, s'⟩
  · rw [show ((X.ofM (onWriter b r prog)).onFst : X Err (τ × Client x) _) (s, c) = (.error f', (s', c)) by unfold X.onFst; rw [e]] at h
    rw [e] at hw
    injection h with h
    rw [← h]
    exact hw.1 f' rfl
  · rw [show ((X.ofM (onWriter b r prog)).onFst : X Err (τ × Client x) _) (s, c) = (.ok y, (s', c)) by unfold X.onFst; rw [e]] at h
    exact tlsSend_soft dev y.2 s' c hk hs f h

/-- Getting the writer and sending a packet with it. -/
theorem send_never {b : Bus τ} (dev : Device b) {prog : WProg Unit} (hp : WSafe prog) (s : τ) (c : MqttTls.Client x)
    (hc : c.tls.state = .connected → (∃ kn, c.tls.ks.clientKeyAndNonce = some kn) ∧ c.tls.ks.writeSeq.toNat + 1 < 2 ^ 64)
    {α : Type} (g : Ptrs → X MqttTls.Error (τ × MqttTls.Client x) α) (k : Unit → X MqttTls.Error (τ × MqttTls.Client x) α)
    (hk : ∀ v t f, (k v t).1 ≠ .error f) (hg : ∀ r, g r = MqttTls.onTls MqttTls.mapW5500 (MqttTls.sendPacket b r prog) >>= k) :
    NeverPanics ((MqttTls.onTls MqttTls.mapWriterErr (tlsWriter b) >>= g) (s, c)).1 := by
  refine never_of fun f hf => ?_
  rw [X.bind_run] at hf
  unfold MqttTls.onTls at hf
  have hw := tlsWriter_fails dev s c.tls
  dsimp only at hf
  rcases e : tlsWriter b (s, c.tls) with ⟨f' | r, s', t'⟩
  · rw [e] at hf hw
    injection hf with hf
    subst hf
    rcases hw f' rfl with ⟨a, rfl⟩ | rfl | rfl <;> exact ⟨by nofun, by nofun⟩
  · obtain ⟨rfl, hs⟩ := tlsWriter_keeps e
    obtain ⟨h1, h2⟩ := hc hs
    rw [e] at hf
    dsimp only at hf
    rw [hg, X.bind_run] at hf
    unfold MqttTls.onTls at hf
    have hw := sendPacket_soft dev hp r s' c.tls h1 h2
    dsimp only at hf
    rcases e : MqttTls.sendPacket b r prog (s', c.tls) with ⟨f' | v, w⟩
    · rw [e] at hf hw
      injection hf with hf
      subst hf
      exact (hw f' rfl).2.2
    · rw [e] at hf
      exact absurd hf (hk _ _ _)

/-- **C126, MQTT over TLS.**  After any history of the TLS client below, whatever the state of the MQTT client, whatever the device
answers and whichever accesses fail, `publish`, `subscribe` and `unsubscribe` do not panic; a debug build wants filters whose length,
modulo 65536, is less than 65533 (subscribe) or 65534 (unsubscribe). -/
theorem C126_mqtt_tls_send (hx : x.Standard) (u : Setup) (fits : 234 + u.hostname.length + u.identity.length ≤ u.rx.length)
    {c : MqttTls.Client x} {k : Nat} {data : Prop} (h : TlsHistory σ (u.client x) k data c.tls) (calls : k + 1 < 2 ^ 64)
    {b : Bus τ} (dev : Device b) (s : τ) (dbg : Bool) (topic payload filter : Bytes) :
    NeverPanics (MqttTls.publish b topic payload (s, c)).1 ∧
    ((dbg = true → filter.length % 65536 + 3 < 65536) → NeverPanics (MqttTls.subscribe dbg b filter (s, c)).1) ∧
    ((dbg = true → filter.length % 65536 + 2 < 65536) → NeverPanics (MqttTls.unsubscribe dbg b filter (s, c)).1) := by
  have hc := fun hc => history_connected hx u fits h calls hc
  have key : ∀ p : UInt16 → WProg Unit, (∀ n, WSafe (p n)) → NeverPanics (MqttTls.sendFilter b filter p (s, c)).1 := by
    intro p hp
    unfold MqttTls.sendFilter
    rw [X.bind_ok (show (MqttTls.modC MqttTls.Client.nextPktId : X MqttTls.Error (τ × MqttTls.Client x) Unit) (s, c) = (.ok (), (s, c.nextPktId)) from rfl),
      X.bind_ok (show (MqttTls.getC : X MqttTls.Error (τ × MqttTls.Client x) _) (s, c.nextPktId) = (.ok c.nextPktId, (s, c.nextPktId)) from rfl)]
    by_cases hf : filter.isEmpty = true
    · refine never_of fun f hf' => ?_
      simp only [hf, if_true] at hf'
      rw [X.bind_run] at hf'
      unfold MqttTls.onTls at hf'
      have hw := tlsWriter_fails dev s c.tls
      dsimp only at hf'
      rcases e : tlsWriter b (s, c.tls) with ⟨f' | r, s', t'⟩
      · rw [show c.nextPktId.tls = c.tls from rfl, e] at hf'
        rw [e] at hw
        injection hf' with hf'
        subst hf'
        rcases hw f' rfl with ⟨a, rfl⟩ | rfl | rfl <;> exact ⟨by nofun, by nofun⟩
      · rw [show c.nextPktId.tls = c.tls from rfl, e] at hf'
        exact nomatch hf'
    · refine send_never dev (hp c.nextPktId.pktId) s c.nextPktId hc _ (fun _ => pure c.nextPktId.pktId) (fun _ _ _ h => nomatch h) fun r => ?_
      rw [if_neg hf]
  refine ⟨?_, fun hd => key _ (Mqtt.wsafe_subscribeProg hd), fun hd => key _ (Mqtt.wsafe_unsubscribeProg hd)⟩
  refine send_never dev (Mqtt.wsafe_publishProg topic payload) s c hc _ pure (fun _ _ _ h => nomatch h) fun r => ?_
  funext s
  rw [X.bind_run]
  rcases MqttTls.onTls MqttTls.mapW5500 (MqttTls.sendPacket b r (Mqtt.publishProg topic payload)) s with ⟨_ | v, t⟩ <;> rfl

theorem sendConnect_never {b : Bus τ} (dev : Device b) (secs : UInt32) (s : τ) (c : MqttTls.Client x)
    (hc : c.tls.state = .connected → (∃ kn, c.tls.ks.clientKeyAndNonce = some kn) ∧ c.tls.ks.writeSeq.toNat + 1 < 2 ^ 64) :
    NeverPanics (MqttTls.sendConnect b secs (s, c)).1 := by
  unfold MqttTls.sendConnect
  rw [X.bind_ok (show (MqttTls.getC : X MqttTls.Error (τ × MqttTls.Client x) _) (s, c) = (.ok c, (s, c)) from rfl)]
  exact send_never dev (Mqtt.wsafe_connectProg c.clientId c.rxMax) s c hc _
    (fun _ => MqttTls.modC (MqttTls.Client.setStateWithTimeout .waitConAck secs) >>= fun _ => pure Mqtt.timeoutSecs)
    (fun _ _ _ h => nomatch h) fun r => rfl

/-- A call of `process`, when the one of the TLS client below does not panic. -/
theorem process_mild (hx : x.Standard) (u : Setup) (fits : 234 + u.hostname.length + u.identity.length ≤ u.rx.length)
    {k : Nat} {data : Prop} {dbg : Bool} {b : Bus σ} {rng : Rng x} {secs : UInt32} {s : σ} {c : MqttTls.Client x}
    (h : MqttTlsCall (u.client x) k data dbg b rng secs s c) (fuel : Nat) (tls : NeverPanics (process dbg fuel b rng secs (s, c.tls)).1) :
    (∀ f, (MqttTls.process dbg fuel b rng secs (s, c)).1 = .error f → MqttTls.Mild f) ∧
    ∀ ev, (MqttTls.process dbg fuel b rng secs (s, c)).1 = .ok ev → MqttTls.EvOk ev := by
  have hn := MqttTls.C109_not_connected dbg fuel b rng secs (s, c.tls)
  rcases hp : process dbg fuel b rng secs (s, c.tls) with ⟨f | ev, s', t'⟩
  · rw [hp] at hn tls
    have e : MqttTls.process dbg fuel b rng secs (s, c) = (.error (MqttTls.mapProcessErr f), (s', { c with tls := t' })) := by
      unfold MqttTls.process
      rw [X.bind_run]
      dsimp only [MqttTls.onTls]
      rw [hp]
    rw [e]
    refine ⟨fun f' hf => ?_, (fun _ h => nomatch h)⟩
    injection hf with hf
    rw [← hf]
    match f, hn, tls with
    | .err .notConnected, hn, _ => exact absurd rfl hn
    | .err .unexpectedDisconnect, _, _ => exact ⟨by nofun, by nofun⟩
    | .err .tcpTimeout, _, _ => exact ⟨by nofun, by nofun⟩
    | .err (.stateTimeout _), _, _ => exact ⟨by nofun, by nofun⟩
    | .err (.server _), _, _ => exact ⟨by nofun, by nofun⟩
    | .err (.client _), _, _ => exact ⟨by nofun, by nofun⟩
    | .stop e, _, tls => exact ⟨fun h => tls.1 (by rw [show (Fail.stop e : Fail TErr) = .stop .panic by
        have h : (Fail.stop e : Fail MqttTls.Error) = .stop .panic := h
        injection h with h; rw [h]]), by nofun⟩
    | .noKey, _, tls => exact absurd rfl tls.2
  · have e : MqttTls.process dbg fuel b rng secs (s, c) = MqttTls.onEvent dbg b secs ev (s', { c with tls := t' }) := by
      unfold MqttTls.process
      rw [X.bind_run]
      dsimp only [MqttTls.onTls]
      rw [hp]
    rw [e]
    have h' := TlsHistory.process dbg fuel b rng secs h.history h.rand ⟨h.device, h.wait, h.asserts⟩ hp (.inl ⟨_, rfl⟩)
    have hr : BOk u.rx.length t'.rx := (reached_inv hx h'.reached).rx
    have hrec := MqttTls.receive_mild (dbg := dbg) (secs := secs) u.sizes.2 s' { c with tls := t' } hr h.clock
    cases ev with
    | callAfter n => exact ⟨(fun _ h => nomatch h), fun ev hev => by injection hev with hev; rw [← hev]; exact fun _ _ h => nomatch h⟩
    | applicationData => exact hrec
    | none => exact hrec
    | disconnect => exact ⟨fun f hf => by injection hf with hf; rw [← hf]; exact ⟨by nofun, by nofun⟩, (fun _ h => nomatch h)⟩
    | handshakeFinished =>
      have hs := sendConnect_never h.device secs s' { c with tls := t' } fun hc => history_connected hx u fits h' (by have := h.calls; omega) hc
      have e : MqttTls.onEvent dbg b secs .handshakeFinished = (MqttTls.sendConnect b secs >>= fun after => pure (.callAfter after) :
        X MqttTls.Error (σ × MqttTls.Client x) MqttTls.Event) := rfl
      rw [e, X.bind_run]
      rcases hm : MqttTls.sendConnect b secs (s', { c with tls := t' }) with ⟨f | n, w⟩ <;> rw [hm] at hs
      · exact ⟨fun f' hf => by
          injection hf with hf
          rw [← hf]
          exact ⟨fun e => hs.1 (by rw [e]), fun e => hs.2 (by rw [e])⟩, (fun _ h => nomatch h)⟩
      · exact ⟨(fun _ h => nomatch h), fun ev hev => by injection hev with hev; rw [← hev]; exact fun _ _ h => nomatch h⟩

/-- **C126, `process` of the MQTT client over TLS** panics exactly when `process` of the TLS client below does: whatever the records carry,
the MQTT client itself does not panic. -/
theorem C126_mqtt_tls_process (hx : x.Standard) (u : Setup) (fits : 234 + u.hostname.length + u.identity.length ≤ u.rx.length)
    {k : Nat} {data : Prop} {dbg : Bool} {b : Bus σ} {rng : Rng x} {secs : UInt32} {s : σ} {c : MqttTls.Client x}
    (h : MqttTlsCall (u.client x) k data dbg b rng secs s c) (fuel : Nat) :
    NeverPanics (MqttTls.process dbg fuel b rng secs (s, c)).1 ↔ NeverPanics (process dbg fuel b rng secs (s, c.tls)).1 := by
  refine ⟨fun hm => never_of fun f hf => ?_, fun ht => never_of (process_mild hx u fits h fuel ht).1⟩
  have e : (MqttTls.process dbg fuel b rng secs (s, c)).1 = .error (MqttTls.mapProcessErr f) := by
    unfold MqttTls.process
    rw [X.bind_run]
    dsimp only [MqttTls.onTls]
    rcases hp : process dbg fuel b rng secs (s, c.tls) with ⟨f' | ev, t⟩ <;> rw [hp] at hf
    · injection hf with hf; rw [hf]
    · exact nomatch hf
  constructor
  · rintro rfl; exact hm.1 e
  · rintro rfl; exact hm.2 e

/-- C126, before application data has arrived: `process` does not panic (C122 for the TLS client below). -/
theorem C126_mqtt_tls_before_data (hx : x.Standard) (u : Setup) (fits : 234 + u.hostname.length + u.identity.length ≤ u.rx.length)
    {k : Nat} {data : Prop} {dbg : Bool} {b : Bus σ} {rng : Rng x} {secs : UInt32} {s : σ} {c : MqttTls.Client x}
    (h : MqttTlsCall (u.client x) k data dbg b rng secs s c) (noData : ¬ data) (fuel : Nat) :
    NeverPanics (MqttTls.process dbg fuel b rng secs (s, c)).1 :=
  (C126_mqtt_tls_process hx u fits h fuel).2 (C122_process_never_panics_partial hx u fits h.history (by have := h.calls; omega) noData dbg fuel b rng
    secs s h.rand h.device h.wait h.asserts)

theorem tlsMessage_ok (hx : x.Standard) (u : Setup) (fits : 234 + u.hostname.length + u.identity.length ≤ u.rx.length) {dbg : Bool} {r : TlsReader}
    {i : Mqtt.PubInfo} (h : TlsMessage σ (u.client x) dbg r i) : MqttTls.PubOkT r i := by
  induction h with
  | @got k data fuel b rng secs s c r i h e =>
    have hn : NeverPanics (process dbg fuel b rng secs (s, c.tls)).1 :=
      (C126_mqtt_tls_process hx u fits h fuel).1 ⟨by rw [e]; nofun, by rw [e]; nofun⟩
    exact (process_mild hx u fits h fuel hn).2 _ e r i rfl
  | topic _ e ih =>
    exact (MqttTls.onPublish_mild ih fun L p => Dns.RT.bind (Dns.RT.seek _) (fun _ => Dns.RT.readExact _) p).2 _ e
  | payload _ e ih =>
    exact (MqttTls.onPublish_mild ih fun L p => Dns.RT.bind (Dns.RT.seek _) (fun _ => Dns.RT.readExact _) p).2 _ e

/-- C126, a message that was received: reading its topic and payload, any number of times and into buffers of any size, and `done` do
not panic. -/
theorem C126_mqtt_tls_message (hx : x.Standard) (u : Setup) (fits : 234 + u.hostname.length + u.identity.length ≤ u.rx.length) {dbg : Bool}
    {r : TlsReader} {i : Mqtt.PubInfo} (h : TlsMessage σ (u.client x) dbg r i) (n : Nat) (s : τ) (c : MqttTls.Client x) :
    NeverPanics (MqttTls.onPublish dbg r (Mqtt.readTopicProg i n)) ∧ NeverPanics (MqttTls.onPublish dbg r (Mqtt.readPayloadProg i n)) ∧
    NeverPanics (MqttTls.publishDone dbg r i (s, c)).1 := by
  have ok := tlsMessage_ok hx u fits h
  exact ⟨never_of (MqttTls.onPublish_mild ok fun L p => Dns.RT.bind (Dns.RT.seek _) (fun _ => Dns.RT.readExact _) p).1,
    never_of (MqttTls.onPublish_mild ok fun L p => Dns.RT.bind (Dns.RT.seek _) (fun _ => Dns.RT.readExact _) p).1,
    never_of fun f hf => MqttTls.publishDone_mild ok _ f hf⟩

namespace Witness

/-- A writer far from where it was given, on a device that answers at random or fails. -/
example (script : List (Option Bytes)) (wr : UInt16) : NeverPanics (tlsSend Thm.scriptBus ⟨.sn3, 5, 7, wr⟩ (script, c5)).1 := by
  obtain ⟨_, _, -, h, -⟩ := history
  exact (C126_tls_writer standard setup (by decide +kernel) h (by decide) Thm.device_script script _).2.2 rfl

/-- Publishing after the handshake, on the same device: it succeeds, or an access fails, or the message does not fit. -/
example (script : List (Option Bytes)) (topic payload : Bytes) :
    NeverPanics (MqttTls.publish Thm.scriptBus topic payload (script, { MqttTls.Client.new X .sn3 4433 [] ⟨⟨10, 0, 0, 1⟩, 8883⟩ [] [] [] with tls := c5 })).1 := by
  obtain ⟨_, _, -, h, -⟩ := history
  exact (C126_mqtt_tls_send standard setup (by decide +kernel) h (by decide) Thm.device_script script false topic payload []).1

theorem callW (content : Bytes) : ∃ data, ¬ data ∧ MqttTlsCall (setup.client X) 5 data false worldBus rng 0 (MqttTls.Witness.device content) MqttTls.Witness.client := by
  obtain ⟨_, d, -, h, n⟩ := history
  exact ⟨d, n, h, by decide, ⟨rng_ok.random, rng_ok.key⟩, device_world, (fun h => nomatch h), (fun h => nomatch h), fun h => nomatch h⟩

/-- A record with any bytes in it. -/
example (content : Bytes) : NeverPanics (MqttTls.process false 3 worldBus rng 0 (MqttTls.Witness.device content, MqttTls.Witness.client)).1 := by
  obtain ⟨_, n, h⟩ := callW content
  exact C126_mqtt_tls_before_data standard setup (by decide +kernel) h n 3

/-- A message with topic `tu` and payload 1 2 3. -/
example : ∃ r i, TlsMessage World (setup.client X) false r i ∧ i.topicLen.toNat = 2 ∧ i.payloadLen.toNat = 3 := by
  obtain ⟨_, -, h⟩ := callW (Spec.Mqtt.publish [116, 117] [1, 2, 3] [9] 1 ++ [0xD0])
  obtain ⟨w1, c1, hp⟩ := MqttTls.Witness.published_message
  obtain ⟨r, i, e, h1, h2, -⟩ := hp.event
  exact ⟨r, i, .got h e, h1, h2⟩

end Witness

end Verif.Tls

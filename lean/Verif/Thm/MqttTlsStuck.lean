import Verif.Thm.MqttTlsIn
import Verif.Proof.TlsIdle
/-!
# C92, C93, C94: errors and the state of the MQTT client over TLS
-/
namespace Verif.MqttTls
open Verif Hl
open _root_.Verif.Spec (World worldBus TxState RxState Queue Chip Mem Image imageOps Sent Cursor cursorOps)
open Verif.Tls (X Crypto TErr TEvent Rng TlsReader Fail Alert tlsWriter tlsSend Undisturbed)
open Verif.Mqtt (State MErr RecvOut PubInfo SubAckReasonCode UnSubAckReasonCode ConnectReasonCode)

variable {x : Crypto}

/-! ## C93: calling `process` after an error -/

/-- Call `process` at these times: the results, and the device and the client afterwards. -/
def calls (dbg : Bool) (fuel : Nat) (rng : Rng x) : List UInt32 → World × Client x → List (Except (Fail Error) Event) × (World × Client x)
  | [], s => ([], s)
  | t :: ts, s =>
    ((process dbg fuel worldBus rng t s).1 :: (calls dbg fuel rng ts (process dbg fuel worldBus rng t s).2).1,
      (calls dbg fuel rng ts (process dbg fuel worldBus rng t s).2).2)

/-- Every call returned `res`; nothing was sent and the client has not changed: its TLS connection is still up. -/
structure Stuck (w : World) (c : Client x) (n : Nat) (res : Except (Fail Error) Event)
    (r : List (Except (Fail Error) Event) × (World × Client x)) : Prop where
  results : r.1 = List.replicate n res
  client : r.2.2 = c
  sent : r.2.1.chip.sent = w.chip.sent
  tls : c.tls.connected = true

theorem stuck (dbg : Bool) (fuel : Nat) (rng : Rng x) {c : Client x} {t : Bytes} {p : Nat} {D : Bytes} {res : Except (Fail Error) Event}
    (h : ∀ (secs : UInt32) (w : World), receive dbg secs (w, c) = (res, (w, c))) (ts : List UInt32) :
    ∀ (w : World), Undisturbed w c.tls t p D → Stuck w c ts.length res (calls dbg fuel rng ts (w, c)) := by
  induction ts with
  | nil => intro w hu; exact ⟨rfl, rfl, rfl, hu.ready.connected⟩
  | cons t0 ts ih =>
    intro w hu
    obtain ⟨w1, e1, e2, e3, -⟩ := Tls.process_idle dbg fuel rng t0 hu
    have e4 : process dbg fuel worldBus rng t0 (w, c) = (res, (w1, c)) :=
      (process_receive dbg fuel worldBus rng t0 e1 (.inr rfl)).trans (h t0 w1)
    have := ih w1 e2
    unfold calls
    rw [e4]
    exact ⟨by rw [this.results]; rfl, this.client, this.sent.trans e3, this.tls⟩

/-- A client without a timeout that holds an incomplete packet (perhaps nothing) reports nothing. -/
theorem receive_none (dbg : Bool) {c : Client x} {D : Bytes} (h : Tls.Holds c.tls D) (hto : c.timeout = none) (type flags : Nat) (body : Bytes)
    (hl : body.length ≤ 65535) (hp : D <+: Spec.Mqtt.packet type flags body) (hne : D ≠ Spec.Mqtt.packet type flags body) (secs : UInt32) (w : World) :
    receive dbg secs (w, c) = (.ok .none, (w, c)) := by
  have hi : checkTimeout dbg secs (w, c) = (.ok .none, (w, c)) := by
    obtain ⟨i1, i2⟩ := checkTimeout_idle dbg secs w c
    obtain ⟨a1, a2⟩ := i2.1 hto
    exact Prod.ext a1 (Prod.ext i1 a2)
  have hd := data_run dbg secs (s := w) (c := c) h
  by_cases he : D = []
  · exact (hd.1 he).trans hi
  · have hsmall : D.length ≤ 32767 := Tls.QRel.app_small h
    have hlt := strict_prefix_length hp hne
    obtain ⟨cur, hrun⟩ := recv_incomplete dbg c.state _ (Spec.Mqtt.vbi body.length) body D (Thm.vbi_isVbi _)
      (by have := Mqtt.vbi_length_le body.length (by omega); omega) hl (by omega) hp hne
    obtain ⟨r', -, g⟩ := (hd.2 he).1 _ _ hrun
    rw [g]
    exact hi

theorem receive_none' (dbg : Bool) {c : Client x} (h : Tls.Holds c.tls []) (hto : c.timeout = none) (secs : UInt32) (w : World) :
    receive dbg secs (w, c) = (.ok .none, (w, c)) :=
  receive_none dbg h hto 0 0 [] (by decide) List.nil_prefix (by unfold Spec.Mqtt.packet; simp) secs w

/-- The negation of C93 for the timeout: when the broker has not answered CONNECT for more than ten seconds, `process` reports the timeout,
and every later call returns `Ok(Event::None)`, as for an idle client: no further CONNECT is sent and the TLS connection stays up, as long
as the server does nothing. -/
theorem C93_timeout_not (dbg : Bool) (fuel : Nat) (rng : Rng x) (secs : UInt32) (w : World) (c : Client x) (t : Bytes) (p : Nat) (t0 : UInt32)
    (h : Undisturbed w c.tls t p []) (hc : c.state = .waitConAck) (ht : c.timeout = some t0) (hlate : t0.toNat + 10 < secs.toNat) (ts : List UInt32) :
    let r := process dbg fuel worldBus rng secs (w, c)
    r.1 = .error (.err (.mqtt (.stateTimeout .waitConAck))) ∧ r.2.1.chip.sent = w.chip.sent ∧ r.2.2 = { c with state := .init, timeout := none } ∧
      Stuck w { c with state := .init, timeout := none } ts.length (.ok .none) (calls dbg fuel rng ts r.2) := by
  obtain ⟨w1, e1, e2, e3, -⟩ := Tls.process_idle dbg fuel rng secs h
  have hr : process dbg fuel worldBus rng secs (w, c) = checkTimeout dbg secs (w1, c) := by
    rw [process_receive dbg fuel worldBus rng secs e1 (.inr rfl)]
    exact (data_run dbg secs h.ready.holds).1 rfl
  obtain ⟨i1, i2⟩ := checkTimeout_idle dbg secs w1 c
  obtain ⟨a1, a2⟩ := (i2.2.1 t0 ht (by omega)).2 (by omega)
  rw [← hr] at i1 a1 a2
  intro r
  rw [hc] at a1
  have hs := stuck dbg fuel rng (c := { c with state := .init, timeout := none }) (t := t) (p := p) (D := [])
    (receive_none' dbg h.ready.holds rfl) ts w1 e2
  have hr2 : r.2 = (w1, { c with state := .init, timeout := none }) := Prod.ext i1 a2
  rw [hr2]
  exact ⟨a1, e3, rfl, hs.results, hs.client, hs.sent.trans e3, hs.tls⟩

/-- The negation of C93 for a refused connection: when the broker refuses the connection (here with a CONNACK with fewer than 125 bytes of
properties), `process` reports the reason, and every later call returns `Ok(Event::None)`: no further CONNECT is sent and the TLS
connection stays up, as long as the server does nothing. -/
theorem C93_refused_not (dbg : Bool) (fuel : Nat) (rng : Rng x) (secs : UInt32) (w w1 : World) (c : Client x) (c1 : Tls.Client x) (t : Bytes) (p : Nat)
    (sp : UInt8) (reason : ConnectReasonCode) (props : Bytes) (hl : props.length < 125)
    (h : Gives dbg fuel rng secs w c.tls w1 c1 (Spec.Mqtt.connack sp reason.code props)) (hc : c.state = .waitConAck)
    (hu : Undisturbed w1 c1 t p (Spec.Mqtt.connack sp reason.code props)) (ts : List UInt32) :
    let r := process dbg fuel worldBus rng secs (w, c)
    r.1 = .error (.err (.mqtt (.connAck reason))) ∧ r.2.2.state = .init ∧ r.2.1 = w1 ∧
      Stuck w1 r.2.2 ts.length (.ok .none) (calls dbg fuel rng ts r.2) := by
  intro r
  obtain ⟨h1, -, h2⟩ := C91_connack_partial dbg fuel rng secs w w1 c c1 _ h hc sp reason.code props [] hl (by rw [List.append_nil])
  have hne : reason.code ≠ 0 := by cases reason <;> decide
  obtain ⟨h3, h4, -⟩ := h2 hne
  have h5 : (process dbg fuel worldBus rng secs (w, c)).2 = (w1, (process dbg fuel worldBus rng secs (w, c)).2.2) := Prod.ext h1 rfl
  change r.2 = _ at h5
  change Left _ r.2.2 _ at h3
  generalize hr : r.2.2 = c2 at h3 h5
  have hcon : c2.tls.connected = true := by rw [h3.same]; exact hu.ready.connected
  have hu2 : Undisturbed w1 c2.tls t p [] := by
    have hs := h3.same
    have hh := h3.holds
    obtain ⟨⟨q1, q2, q3, q4, q5, q6, q7⟩, q8, q9, q10, q11⟩ := hu
    have e : c2.tls = { c1 with rx := c2.tls.rx } := by
      rw [hs]
    refine ⟨⟨?_, ?_, ?_, ?_, hh, ?_, ?_⟩, ?_, ?_, ?_, ?_⟩
    all_goals (rw [e]; assumption)
  have hto : c2.timeout = none := by rw [h3.same]
  have hs := stuck dbg fuel rng (receive_none' dbg hu2.ready.holds hto) ts w1 hu2
  refine ⟨h4 reason rfl, by rw [h3.same], h1, ?_⟩
  rw [h5]
  exact hs

/-- The negation of C93 for a CONNECT that could not be sent because the transmit buffer was full: it is not sent later either.  Every
later call returns `Ok(Event::None)`, as long as the server does nothing. -/
theorem C93_full_not (dbg : Bool) (fuel : Nat) (rng : Rng x) (secs : UInt32) (w w1 : World) (c : Client x) (c1 : Tls.Client x) (t : Bytes) (p : Nat)
    (h : process dbg fuel worldBus rng secs (w, c) = (.error (.err (.mqtt .outOfMemory)), (w1, { c with tls := c1 })))
    (hto : c.timeout = none) (hu : Undisturbed w1 c1 t p []) (ts : List UInt32) :
    let r := process dbg fuel worldBus rng secs (w, c)
    Stuck w1 r.2.2 ts.length (.ok .none) (calls dbg fuel rng ts r.2) := by
  intro r
  have hr : r = _ := h
  rw [hr]
  exact stuck dbg fuel rng (c := { c with tls := c1 }) (receive_none' dbg hu.ready.holds hto) ts w1 hu

/-- The negation of C93 for a malformed packet: it is never consumed, so that every later call reports the same error, as long as the server
does nothing. -/
theorem C93_malformed_not (dbg : Bool) (fuel : Nat) (rng : Rng x) (secs : UInt32) (w w1 : World) (c : Client x) (c1 : Tls.Client x) (t : Bytes) (p : Nat)
    (D bs : Bytes) (h : Gives dbg fuel rng secs w c.tls w1 c1 D) (hp : bs <+: D)
    (hbad : (∃ b0 v n, bs = b0 :: v ∧ Spec.Mqtt.IsVbi v n ∧ v.length ≤ 4 ∧ 65535 < n) ∨
      (∃ flags body, flags < 16 ∧ bs = Spec.Mqtt.packet 0 flags body))
    (hu : Undisturbed w1 c1 t p D) (ts : List UInt32) :
    let r := process dbg fuel worldBus rng secs (w, c)
    r.1 = .error (.err (.mqtt .decode)) ∧ Stuck w1 r.2.2 ts.length (.error (.err (.mqtt .decode))) (calls dbg fuel rng ts r.2) := by
  intro r
  have hr : r = _ := C91_malformed_partial dbg fuel rng secs w w1 c c1 D h bs hp hbad
  rw [hr]
  refine ⟨rfl, ?_⟩
  refine stuck dbg fuel rng (c := { c with tls := c1, state := .init, timeout := none }) ?_ ts w1 hu
  intro secs' w2
  rcases hbad with ⟨b0, v, n, rfl, hv, hl, hn⟩ | ⟨flags, body, hf, rfl⟩
  · obtain ⟨rest, hrest⟩ := hp
    obtain ⟨cur, hm⟩ := recv_long dbg .init b0 v rest n hv hl hn
    rw [← List.cons_append, hrest] at hm
    have hd := data_run dbg secs' (s := w2) (c := { c with tls := c1, state := .init, timeout := none }) h.holds
    obtain ⟨r', -, g⟩ := (hd.2 (by rw [← hrest]; simp)).1 _ _ hm
    exact g.trans rfl
  · obtain ⟨hsmall, rest, hD, hin⟩ := packet_in dbg secs' (s := w2) (c := { c with tls := c1, state := .init, timeout := none }) h.holds 0 flags _ hp
    have hbd : Mqtt.recvBody .init (Mqtt.header 0 flags body) = pure (.bad .decode true) := by
      have hnib := nibble_eq 0 flags (by omega) hf .reserved rfl
      unfold Mqtt.recvBody Mqtt.header
      dsimp only
      rw [hnib]
    obtain ⟨r', -, g⟩ := hin (.bad .decode true) _ (by rw [hbd]; rfl)
    exact g.trans rfl

/-! ## C92: `is_connected` -/

/-- The negation of C92: when the socket is disconnected, `process` returns `Error::Disconnect` and the TLS client is reset, but
`is_connected` still returns `true`, although `publish` returns `NotConnected`. -/
theorem C92_disconnect_not (dbg : Bool) (fuel : Nat) (rng : Rng x) (secs : UInt32) (w : World) (c : Client x) (hc : c.isConnected = true)
    (ht : c.tls.connected = true) (hcon : Spec.Mqtt.con (w.tick.chip.mem (4 * c.tls.sn.toU8.toNat + 1) 2) = false)
    (hdis : Spec.Mqtt.discon (w.tick.chip.mem (4 * c.tls.sn.toU8.toNat + 1) 2) = true) (topic payload : Bytes) :
    let r := process dbg fuel worldBus rng secs (w, c)
    r.1 = .error (.err (.mqtt .disconnect)) ∧ r.2.2.tls.connected = false ∧ r.2.2.isConnected = true ∧
      (publish worldBus topic payload r.2).1 = .error (.err (.mqtt .notConnected)) := by
  obtain ⟨h2, h1, -⟩ := Thm.ir_bits (w.tick.chip.mem (4 * c.tls.sn.idx + 1) 2)
  have hcon' : Spec.Mqtt.con (w.tick.chip.mem (4 * c.tls.sn.idx + 1) 2) = false := hcon
  have hdis' : Spec.Mqtt.discon (w.tick.chip.mem (4 * c.tls.sn.idx + 1) 2) = true := hdis
  rw [hcon'] at h1
  rw [hdis'] at h2
  have hst := Tls.connected_state ht
  have e : ∃ w1, Tls.process dbg fuel worldBus rng secs (w, c.tls) = (.ok .disconnect, (w1, c.tls.reset)) := by
    unfold Tls.process
    rw [X.bind_ok (Tls.getC_run (w, c.tls)), X.bind_ok (X.attempt_ok (Tls.onBus_ok' (Mqtt.run_snIr c.tls.sn w) c.tls))]
    dsimp only
    rw [if_pos (by
      have := forall_u8 (p := fun y => (⟨y⟩ : SocketInterrupt).disconRaised = true → (⟨y⟩ : SocketInterrupt).anyRaised = true) (by decide +kernel)
      exact this _ h2)]
    unfold Tls.onInterrupts
    rw [X.bind_ok (Tls.getC_run (w.tick, c.tls)), X.bind_ok (Tls.orFatal_ok (Tls.onBus_ok' (run_setSnIr c.tls.sn _ w.tick) c.tls)),
      if_neg (by rw [h1]; decide)]
    unfold Tls.onInterrupt
    rw [X.bind_ok (Tls.getC_run _), if_pos h2, if_pos (by dsimp only; rw [hst]; simp)]
    exact ⟨_, rfl⟩
  obtain ⟨w1, e⟩ := e
  have hr : process dbg fuel worldBus rng secs (w, c) = (.error (.err (.mqtt .disconnect)), (w1, { c with tls := c.tls.reset })) := by
    rw [process_eq dbg fuel worldBus rng secs e]
    rfl
  intro r
  have hr' : r = _ := hr
  rw [hr']
  exact ⟨rfl, rfl, hc, rfl⟩

/-- What a user can do with a client. -/
inductive Op (σ : Type) (x : Crypto) where
  | process (dbg : Bool) (fuel : Nat) (rng : Rng x) (secs : UInt32)
  | publish (topic payload : Bytes)
  | subscribe (dbg : Bool) (filter : Bytes)
  | unsubscribe (dbg : Bool) (filter : Bytes)
  | setClientId (id : Bytes)
  /-- Anything that happens to the device. -/
  | device (f : σ → σ)

variable {σ : Type}

/-- Do one thing: whether the client reported the event `ConnAck`, and the device and the client afterwards. -/
def Op.run (b : Bus σ) (s : σ × Client x) : Op σ x → Bool × (σ × Client x)
  | .process dbg fuel rng secs =>
    (match (MqttTls.process dbg fuel b rng secs s).1 with | .ok .connAck => true | _ => false, (MqttTls.process dbg fuel b rng secs s).2)
  | .publish topic payload => (false, (MqttTls.publish b topic payload s).2)
  | .subscribe dbg filter => (false, (MqttTls.subscribe dbg b filter s).2)
  | .unsubscribe dbg filter => (false, (MqttTls.unsubscribe dbg b filter s).2)
  | .setClientId id => (false, (s.1, s.2.setClientId id))
  | .device f => (false, (f s.1, s.2))

/-- Do these things: whether the client ever reported the event `ConnAck`, and the device and the client afterwards. -/
def history (b : Bus σ) : List (Op σ x) → σ × Client x → Bool × (σ × Client x)
  | [], s => (false, s)
  | op :: ops, s => ((op.run b s).1 || (history b ops (op.run b s).2).1, (history b ops (op.run b s).2).2)

/-- The state of the client stays as it is. -/
def KeepsState {ε α : Type} (m : X ε (σ × Client x) α) : Prop := ∀ s, (m s).2.2.state = s.2.state

theorem KeepsState.bind {ε α β : Type} {m : X ε (σ × Client x) α} {f : α → X ε (σ × Client x) β} (h : KeepsState m) (hf : ∀ a, KeepsState (f a)) :
    KeepsState (m >>= f) := by
  intro s
  have h1 := h s
  rcases hm : m s with ⟨e | a, s1⟩ <;> rw [hm] at h1
  · rw [X.bind_error hm]; exact h1
  · rw [X.bind_ok hm, hf a s1]; exact h1

theorem onTls_keeps {ε α : Type} (f : Fail ε → Fail Error) (m : X ε (σ × Tls.Client x) α) : KeepsState (onTls f m) := by
  intro s
  unfold onTls
  rcases m (s.1, s.2.tls) with ⟨e | a, t⟩ <;> rfl

theorem pure_keeps {ε α : Type} (a : α) : KeepsState (pure a : X ε (σ × Client x) α) := fun _ => rfl

theorem publish_keeps (b : Bus σ) (topic payload : Bytes) : KeepsState (MqttTls.publish b topic payload : X Error (σ × Client x) Unit) :=
  (onTls_keeps _ _).bind fun _ => onTls_keeps _ _

theorem sendFilter_keeps (b : Bus σ) (filter : Bytes) (p : UInt16 → WProg Unit) : KeepsState (sendFilter b filter p : X Error (σ × Client x) UInt16) := by
  refine KeepsState.bind (fun s => rfl) fun _ => KeepsState.bind (fun s => rfl) fun c => (onTls_keeps _ _).bind fun r => ?_
  split
  · exact pure_keeps _
  · exact (onTls_keeps _ _).bind fun _ => pure_keeps _

/-- The state is ready only if it was before or the event `ConnAck` is returned. -/
def Acks (isAck : α → Prop) (m : X Error (σ × Client x) α) : Prop :=
  ∀ s, ((m s).2.2.state = .ready → s.2.state = .ready ∨ ∃ a, (m s).1 = .ok a ∧ isAck a) ∧ (∀ a, (m s).1 = .ok a → isAck a → (m s).2.2.state = .ready)

theorem KeepsState.acks {isAck : α → Prop} {m : X Error (σ × Client x) α} (h : KeepsState m) (hn : ∀ s a, (m s).1 = .ok a → ¬ isAck a) : Acks isAck m :=
  fun s => ⟨fun h1 => .inl ((h s).symm.trans h1), fun a h1 h2 => absurd h2 (hn s a h1)⟩

theorem KeepsState.bind_acks {isAck : β → Prop} {m : X Error (σ × Client x) α} {f : α → X Error (σ × Client x) β} (h : KeepsState m)
    (hf : ∀ a, Acks isAck (f a)) : Acks isAck (m >>= f) := by
  intro s
  have h1 := h s
  rcases hm : m s with ⟨e | a, s1⟩ <;> rw [hm] at h1
  · rw [X.bind_error hm]
    exact ⟨fun h2 => .inl (h1.symm.trans h2), fun a h2 => by cases h2⟩
  · rw [X.bind_ok hm]
    exact ⟨fun h2 => by rw [← h1]; exact (hf a s1).1 h2, (hf a s1).2⟩

theorem checkTimeout_acks (dbg : Bool) (secs : UInt32) : Acks (· = Event.connAck) (checkTimeout dbg secs : X Error (σ × Client x) Event) := by
  intro s
  unfold checkTimeout
  rw [X.bind_ok (getC_run s)]
  rcases he : s.2.elapsedSecs dbg secs with e | o
  · exact ⟨fun h => .inl h, fun a h => by cases h⟩
  · rw [X.bind_ok (show (Tls.ofCipher (.ok o) : X Error (σ × Client x) _) s = (.ok o, s) from rfl)]
    cases o with
    | none => exact ⟨fun h => .inl h, fun a h => by injection h with h; subst h; simp⟩
    | some n =>
      dsimp only
      split
      · exact ⟨fun h => (by cases h), fun a h => by cases h⟩
      · exact ⟨fun h => .inl h, fun a h => by injection h with h; subst h; simp⟩

theorem recvFinish_acks (r : TlsReader) (out : RecvOut) : Acks (· = some Event.connAck) (recvFinish r out : X Error (σ × Client x) (Option Event)) := by
  cases out with
  | pending => exact (pure_keeps _).acks (fun s a h => by injection h with h; subst h; simp)
  | bad e reset =>
    cases reset
    · exact KeepsState.acks (fun s => rfl) (fun s a h => by cases h)
    · exact fun s => ⟨fun h => (by cases h), fun a h => by cases h⟩
  | connAck code =>
    refine KeepsState.bind_acks (fun s => rfl) fun _ => ?_
    split
    · exact fun s => ⟨fun h => (by cases h), fun a h => by cases h⟩
    · split
      · exact fun s => ⟨fun h => .inr ⟨_, rfl, rfl⟩, fun a h h' => rfl⟩
      · exact fun s => ⟨fun h => (by cases h), fun a h => by cases h⟩
  | subAck id code => exact KeepsState.bind_acks (fun s => rfl) fun _ => (pure_keeps _).acks (fun s a h => by injection h with h; subst h; simp)
  | unSubAck id code => exact KeepsState.bind_acks (fun s => rfl) fun _ => (pure_keeps _).acks (fun s a h => by injection h with h; subst h; simp)
  | publish info => exact (pure_keeps _).acks (fun s a h => by injection h with h; subst h; simp)
  | ignored => exact KeepsState.bind_acks (fun s => rfl) fun _ => (pure_keeps _).acks (fun s a h => by injection h with h; subst h; simp)

theorem recv_acks (dbg : Bool) (r : TlsReader) : Acks (· = some Event.connAck) (MqttTls.recv dbg r : X Error (σ × Client x) (Option Event)) := by
  refine KeepsState.bind_acks (fun s => rfl) fun c => ?_
  split
  · exact recvFinish_acks _ _
  · exact KeepsState.acks (fun s => rfl) (fun s a h => by cases h)

theorem receive_acks (dbg : Bool) (secs : UInt32) : Acks (· = Event.connAck) (MqttTls.receive dbg secs : X Error (σ × Client x) Event) := by
  refine KeepsState.bind_acks (fun s => rfl) fun c => ?_
  split
  · exact checkTimeout_acks dbg secs
  · exact KeepsState.acks (fun s => rfl) (fun s a h => by cases h)
  · rename_i r _
    intro s
    have h1 := recv_acks (σ := σ) (x := x) dbg r s
    rcases hm : MqttTls.recv dbg r s with ⟨e | a, s1⟩ <;> rw [hm] at h1
    · rw [X.bind_error hm]
      refine ⟨fun h2 => .inl ?_, fun a h2 => by cases h2⟩
      rcases h1.1 h2 with h | ⟨a, h, -⟩
      · exact h
      · cases h
    · rw [X.bind_ok hm]
      cases a with
      | some ev =>
        refine ⟨fun h2 => ?_, fun a h2 h3 => ?_⟩
        · rcases h1.1 h2 with h | ⟨a, h, h'⟩
          · exact .inl h
          · injection h with h
            subst h'
            injection h with h
            exact .inr ⟨ev, rfl, h⟩
        · injection h2 with h2
          refine h1.2 (some ev) rfl ?_
          rw [h2, h3]
      | none =>
        have h3 := checkTimeout_acks (σ := σ) (x := x) dbg secs s1
        refine ⟨fun h2 => ?_, fun a h2 h4 => h3.2 a h2 h4⟩
        rcases h3.1 h2 with h | h
        · rcases h1.1 h with h | ⟨a, h, h'⟩
          · exact .inl h
          · injection h with h
            subst h'
            cases h
        · exact .inr h

theorem process_acks (dbg : Bool) (fuel : Nat) (b : Bus σ) (rng : Rng x) (secs : UInt32) :
    Acks (· = Event.connAck) (MqttTls.process dbg fuel b rng secs : X Error (σ × Client x) Event) := by
  refine KeepsState.bind_acks (onTls_keeps _ _) fun ev => ?_
  cases ev with
  | callAfter n => exact (pure_keeps _).acks (fun s a h => by injection h with h; subst h; simp)
  | applicationData => exact receive_acks dbg secs
  | handshakeFinished =>
    intro s
    have h1 : (sendConnect b secs s).2.2.state = .ready → s.2.state = .ready := by
      unfold sendConnect
      rw [X.bind_ok (getC_run s)]
      rcases hm : onTls mapWriterErr (tlsWriter b) s with ⟨e | r, s1⟩
      · rw [X.bind_error hm]
        intro h
        have := onTls_keeps mapWriterErr (tlsWriter b) s
        rw [hm] at this
        exact this.symm.trans h
      · rw [X.bind_ok hm]
        rcases hm2 : onTls mapW5500 (sendPacket b r (Mqtt.connectProg s.2.clientId s.2.rxMax)) s1 with ⟨e | u, s2⟩
        · rw [X.bind_error hm2]
          intro h
          have h1 := onTls_keeps mapWriterErr (tlsWriter b) s
          have h2 := onTls_keeps mapW5500 (sendPacket b r (Mqtt.connectProg s.2.clientId s.2.rxMax)) s1
          rw [hm] at h1
          rw [hm2] at h2
          exact (h2.trans h1).symm.trans h
        · rw [X.bind_ok hm2]
          intro h
          cases h
    rw [show (onEvent dbg b secs .handshakeFinished : X Error (σ × Client x) Event) = (sendConnect b secs >>= fun after => pure (Event.callAfter after)) from rfl]
    rcases hm : sendConnect b secs s with ⟨e | u, s1⟩ <;> rw [hm] at h1
    · rw [X.bind_error hm]
      exact ⟨fun h => .inl (h1 h), fun a h => by cases h⟩
    · rw [X.bind_ok hm]
      exact ⟨fun h => .inl (h1 h), fun a h => by injection h with h; subst h; simp⟩
  | disconnect => exact KeepsState.acks (fun s => rfl) (fun s a h => by cases h)
  | none => exact receive_acks dbg secs

/-- C92, what holds: `is_connected` returns `true` only after `process` reported `ConnAck`, in every history of a new client and with every
device; and it returns `true` just after it did.  Missing: it does not become `false` when the connection ends, see `C92_disconnect_not`. -/
theorem C92_partial (b : Bus σ) (s : σ) (sn : Sn) (srcPort : UInt16) (hostname : Bytes) (dst : SockAddr) (identity psk rx : Bytes)
    (ops : List (Op σ x)) :
    let r := history b ops (s, Client.new x sn srcPort hostname dst identity psk rx)
    (r.2.2.isConnected = true → r.1 = true) ∧
    ∀ dbg fuel rng secs, (process dbg fuel b rng secs r.2).1 = .ok .connAck → (process dbg fuel b rng secs r.2).2.2.isConnected = true := by
  intro r
  refine ⟨?_, fun dbg fuel rng secs h => ?_⟩
  · have key : ∀ (ops : List (Op σ x)) (s : σ × Client x), (history b ops s).2.2.state = .ready → s.2.state = .ready ∨ (history b ops s).1 = true := by
      intro ops
      induction ops with
      | nil => intro s h; exact .inl h
      | cons op ops ih =>
        intro s h
        unfold history at h ⊢
        dsimp only at h ⊢
        rw [Bool.or_eq_true]
        rcases ih _ h with h1 | h1
        · have : s.2.state = .ready ∨ (op.run b s).1 = true := by
            cases op with
            | process dbg fuel rng secs =>
              rcases (process_acks dbg fuel b rng secs s).1 h1 with h2 | ⟨a, h2, rfl⟩
              · exact .inl h2
              · right
                unfold Op.run
                dsimp only
                rw [h2]
            | publish topic payload => exact .inl ((publish_keeps b topic payload s).symm.trans h1)
            | subscribe dbg filter => exact .inl ((sendFilter_keeps b filter _ s).symm.trans h1)
            | unsubscribe dbg filter => exact .inl ((sendFilter_keeps b filter _ s).symm.trans h1)
            | setClientId id => exact .inl h1
            | device f => exact .inl h1
          rcases this with h2 | h2
          · exact .inl h2
          · exact .inr (.inl h2)
        · exact .inr (.inr h1)
    intro h
    rcases key ops _ (of_decide_eq_true h) with h1 | h1
    · cases h1
    · exact h1
  · exact decide_eq_true ((process_acks dbg fuel b rng secs r.2).2 _ h rfl)

/-! ## C94: sending before the broker accepted the connection -/

/-- The negation of C94: as soon as the TLS connection is up, PUBLISH and SUBSCRIBE packets are sent, although the broker has not accepted
the connection (even before CONNECT is sent, or after the broker refused). -/
theorem C94_not (hx : x.Standard) (dbg : Bool) (topic payload filter : Bytes) (hf : filter ≠ []) (w : World) (c : Client x) (t : Bytes)
    (h : CanSend w c t) (_hc : c.isConnected = false)
    (hroom : (Spec.Mqtt.publish topic payload).length + 22 ≤ w.chip.txFsr c.tls.sn.toU8.toNat)
    (hroom' : filter.length + 32 ≤ w.chip.txFsr c.tls.sn.toU8.toNat) :
    ((publish worldBus topic payload (w, c)).1 = .ok () ∧
      SentRecord w (publish worldBus topic payload (w, c)).2.1 c t (Spec.Mqtt.publish topic payload)) ∧
    ∃ id, (subscribe dbg worldBus filter (w, c)).1 = .ok id ∧
      SentRecord w (subscribe dbg worldBus filter (w, c)).2.1 c t (Spec.Mqtt.subscribe id.toNat filter (Spec.Mqtt.options 0 1 0 2)) := by
  constructor
  · rcases C90_publish hx topic payload w c t h with ⟨h1, -, h2⟩ | ⟨-, -, h1⟩
    · exact ⟨h1, h2⟩
    · rcases h1 with ⟨-, h1⟩ | ⟨-, h1⟩ <;> omega
  · have hfsr : w.chip.txFsr c.tls.sn.toU8.toNat ≤ 65535 := by
      have h1 := (w.chip.mem (4 * c.tls.sn.toU8.toNat + 1) 0x20).toNat_lt
      have h2 := (w.chip.mem (4 * c.tls.sn.toU8.toNat + 1) (0x20 + 1)).toNat_lt
      unfold Chip.txFsr Mem.word
      omega
    have hl : ∀ id : Nat, (Spec.Mqtt.subscribe id filter (Spec.Mqtt.options 0 1 0 2)).length ≤ filter.length + 10 := by
      intro id
      have hv := Mqtt.vbi_length_le (Spec.Mqtt.u16 id ++ [0] ++ Spec.Mqtt.str filter ++ [UInt8.ofNat (Spec.Mqtt.options 0 1 0 2)]).length
        (by simp [Spec.Mqtt.u16, Spec.Mqtt.str]; omega)
      simp [Spec.Mqtt.subscribe, Spec.Mqtt.packet, Spec.Mqtt.u16, Spec.Mqtt.str] at hv ⊢
      omega
    rcases C90_subscribe hx dbg filter hf w c t h with ⟨h1, -, h2⟩ | ⟨-, -, h1 | ⟨-, -, h1⟩⟩
    · exact ⟨_, h1, h2⟩
    · have := hl (subscribe dbg worldBus filter (w, c)).2.2.pktId.toNat
      rcases h1 with ⟨-, h1⟩ | ⟨-, h1⟩ <;> omega
    · omega

/-- C94, what holds: without a TLS connection, PUBLISH, SUBSCRIBE and UNSUBSCRIBE are refused and nothing is done on the bus; the only thing that
changes is that a packet identifier is used up.  Missing: that they are refused before the broker accepted the connection, see `C94_not`. -/
theorem C94_partial (dbg : Bool) (b : Bus σ) (s : σ) (c : Client x) (topic payload filter : Bytes) (h : c.tls.connected = false) :
    publish b topic payload (s, c) = (.error (.err (.mqtt .notConnected)), (s, c)) ∧
    subscribe dbg b filter (s, c) = (.error (.err (.mqtt .notConnected)), (s, c.nextPktId)) ∧
    unsubscribe dbg b filter (s, c) = (.error (.err (.mqtt .notConnected)), (s, c.nextPktId)) := by
  have hw : ∀ c : Client x, c.tls.connected = false →
      onTls mapWriterErr (tlsWriter b) (s, c) = (.error (.err (.mqtt .notConnected)), (s, c)) := by
    intro c h
    have e : tlsWriter b (s, c.tls) = (.error (.err .notConnected), (s, c.tls)) := by
      unfold tlsWriter
      rw [X.bind_ok (Tls.getC_run (s, c.tls)), if_neg (by dsimp only; rw [h]; decide)]
      rfl
    exact onTls_error e
  have hf : ∀ p, sendFilter b filter p (s, c) = (.error (.err (.mqtt .notConnected)), (s, c.nextPktId)) := by
    intro p
    unfold sendFilter
    rw [X.bind_ok (modC_run _ _), X.bind_ok (getC_run _), X.bind_error (hw c.nextPktId h)]
  exact ⟨X.bind_error (hw c h), hf _, hf _⟩

/-! ## The hypotheses are met -/

namespace Witness
open Verif.Tls.Witness

theorem undisturbed : Undisturbed (Thm.tcpWorld 0 []) c5 serverApp 0 [] :=
  ⟨ready [] (by decide), peace [], nofun, by decide, rfl⟩

/-- A client that holds these bytes. -/
def holding (D : Bytes) : Tls.Client X :=
  { c5 with rx := { c5.rx with buf := D ++ List.replicate (1024 - D.length) 0, head := 0, adTail := D.length, tail := D.length } }

theorem undisturbed_holding (D : Bytes) (h : D.length ≤ 400) : Undisturbed (Thm.tcpWorld 0 []) (holding D) serverApp 0 D := by
  have hl : (D ++ List.replicate (1024 - D.length) (0 : UInt8)).length = 1024 := by simp; omega
  obtain ⟨q1, q2, q3, q4, q5, q6, q7⟩ := ready [] (by decide)
  refine ⟨⟨q1, q2, q3, q4, ?_, q6, q7⟩, peace [], nofun, Nat.zero_lt_succ 4, rfl⟩
  show Tls.QRel _ _
  refine ⟨?_, ?_, ?_, ?_, ?_, ?_, ?_⟩
  · show (D ++ _).length ≤ _; rw [hl]; decide
  · show (D ++ _).length - 1 + 1 = (D ++ _).length; rw [hl]
  · show 0 < (D ++ _).length; rw [hl]; decide
  · show D.length = (0 + D.length) % (D ++ _).length; rw [hl]; omega
  · show D.length = (0 + (D.length + 0)) % (D ++ _).length; rw [hl]; omega
  · show D.length + 0 ≤ (D ++ _).length - 1; rw [hl]; omega
  · show Tls.ring (D ++ _) 0 (D.length + 0) = D ++ []
    rw [Nat.add_zero, List.append_nil]
    refine Tls.ext_getD (by simp) fun i hi => ?_
    rw [Tls.ring_length] at hi
    rw [Tls.ring_getD hi, hl, Nat.zero_add, Nat.mod_eq_of_lt (by omega)]
    simp [List.getD_eq_getElem?_getD, List.getElem?_append_left hi]

theorem gives_holding (D : Bytes) (h : D.length ≤ 400) : ∃ w1, Gives false 3 rng 0 (Thm.tcpWorld 0 []) (holding D) w1 (holding D) D ∧
    Undisturbed w1 (holding D) serverApp 0 D := by
  obtain ⟨w1, e1, e2, -⟩ := Tls.process_idle false 3 rng 0 (undisturbed_holding D h)
  exact ⟨w1, ⟨.inr e1, e2.ready.holds⟩, e2⟩

/-- No CONNACK for eleven seconds, then five more calls. -/
example : (calls false 3 rng [12, 13, 20, 100, 1000] (process false 3 worldBus rng 11 (Thm.tcpWorld 0 [], waiting)).2).1 =
    [.ok .none, .ok .none, .ok .none, .ok .none, .ok .none] :=
  (C93_timeout_not false 3 rng 11 (Thm.tcpWorld 0 []) waiting serverApp 0 0 undisturbed rfl rfl (by decide) [12, 13, 20, 100, 1000]).2.2.2.results

/-- A refused connection, then two more calls. -/
example : ∃ c : Client X, (process false 3 worldBus rng 0 (Thm.tcpWorld 0 [], c)).1 = .error (.err (.mqtt (.connAck .notAuthorized))) ∧
    (calls false 3 rng [12, 13] (process false 3 worldBus rng 0 (Thm.tcpWorld 0 [], c)).2).1 = [.ok .none, .ok .none] := by
  obtain ⟨w1, h1, h2⟩ := gives_holding (Spec.Mqtt.connack 0 ConnectReasonCode.notAuthorized.code [7])
    (by rw [Thm.connack_small _ _ _ (by decide)]; simp)
  have h := C93_refused_not false 3 rng 0 _ w1 { waiting with tls := holding _ } _ serverApp 0 0 .notAuthorized [7] (by decide) h1 rfl h2 [12, 13]
  exact ⟨_, h.1, h.2.2.2.results⟩

/-- The Finished message of the server has arrived, and there is room for the one of the client, but not for CONNECT. -/
def fullWorld : World :=
  let w := Thm.tcpWorld 0 (Spec.Tls.plaintextHandshake fin)
  { w with chip := { w.chip with mem := fun b a => if b = 13 ∧ a = 0x20 then 0 else if b = 13 ∧ a = 0x21 then 92 else w.chip.mem b a } }

/-- The client before the Finished message. -/
def finishing : Client X := { client with tls := c4, state := .init }

/-- The call in which CONNECT cannot be sent. -/
def fullCall : Except (Fail Error) Event × (World × Client X) := process true 3 worldBus rng 0 (fullWorld, finishing)

example : fullCall.1 = .error (.err (.mqtt .outOfMemory)) := by decide +kernel

/-- A malformed packet, then two more calls. -/
example : (calls false 3 rng [12, 13] (process false 3 worldBus rng 0 (Thm.tcpWorld 0 [], { client with tls := holding [0x30, 0xFF, 0xFF, 0xFF, 1] })).2).1 =
    [.error (.err (.mqtt .decode)), .error (.err (.mqtt .decode))] := by
  obtain ⟨w1, h1, h2⟩ := gives_holding [0x30, 0xFF, 0xFF, 0xFF, 1] (by decide)
  exact (C93_malformed_not false 3 rng 0 _ w1 { client with tls := holding _ } _ serverApp 0 _ _ h1 List.prefix_rfl
    (.inl ⟨0x30, [0xFF, 0xFF, 0xFF, 1], 4194303, rfl,
        .more 0xFF (by decide) (.more 0xFF (by decide) (.more 0xFF (by decide) (.last 1 (by decide)))), by decide, by decide⟩) h2 [12, 13]).2.results

/-- A disconnected socket. -/
example : (process false 3 worldBus rng 0 (Thm.tcpWorld 2 [], client)).1 = .error (.err (.mqtt .disconnect)) ∧
    (process false 3 worldBus rng 0 (Thm.tcpWorld 2 [], client)).2.2.isConnected = true :=
  let h := C92_disconnect_not false 3 rng 0 (Thm.tcpWorld 2 []) client rfl rfl (by decide +kernel) (by decide +kernel) [] []
  ⟨h.1, h.2.2.1⟩

/-- A PUBLISH packet is sent by a client that waits for CONNACK. -/
example : ∃ t, CanSend (Thm.tcpWorld 0 []) waiting t ∧ waiting.isConnected = false ∧
    (Spec.Mqtt.publish [97] [104, 105]).length + 22 ≤ (Thm.tcpWorld 0 []).chip.txFsr waiting.tls.sn.toU8.toNat := by
  obtain ⟨t, h⟩ := canSend []
  refine ⟨t, ⟨h.1, h.2, h.3, h.4⟩, rfl, ?_⟩
  have hr : (Thm.tcpWorld 0 []).chip.txFsr waiting.tls.sn.toU8.toNat = 2048 := room
  rw [hr]
  decide +kernel

end Witness

end Verif.MqttTls

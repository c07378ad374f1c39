import Verif.Proof.MqttTls
import Verif.Thm.TlsComplete
/-!
# C90: MQTT packets sent over TLS
-/
namespace Verif.MqttTls
open Verif Hl
open _root_.Verif.Spec (World worldBus TxState RxState Queue Chip Mem Image imageOps Sent Cursor cursorOps)
open Verif.Tls (X Crypto TErr TEvent Rng TlsReader Fail Alert tlsWriter tlsSend)
open Verif.Mqtt (State MErr RecvOut PubInfo)

variable {x : Crypto}

/-- The TLS client is connected: it has the traffic secret `t` for what it sends, and sequence numbers are left. -/
structure CanSend (w : World) (c : Client x) (t : Bytes) : Prop where
  connected : c.tls.connected = true
  traffic : c.tls.ks.clientTraffic = some t
  seq : c.tls.ks.writeSeq.toNat + 1 < 2 ^ 64
  tx : TxState w.chip c.tls.sn.toU8.toNat

/-- Exactly one record was sent.  It is protected with the traffic secret `t` and the sequence number of the client, it has the type
application data, and its content is the packet `pkt`. -/
structure SentRecord (w w' : World) (c : Client x) (t pkt : Bytes) : Prop where
  sent : w'.chip.sent = w.chip.sent ++ [⟨c.tls.sn.toU8.toNat, w.chip.destIp c.tls.sn.toU8.toNat, w.chip.destPort c.tls.sn.toU8.toNat,
    Spec.Tls.protect t c.tls.ks.writeSeq.toNat 23 pkt⟩]
  tx : TxState w'.chip c.tls.sn.toU8.toNat

/-- The client after a record was sent. -/
def Client.afterRecord (c : Client x) : Client x :=
  { c with tls := { c.tls with ks := { c.tls.ks with writeSeq := c.tls.ks.writeSeq + 1 } } }

/-- `res` says that the buffer is full: there is no room for a record with the packet, or not even for an empty record. -/
def Full {α : Type} (w : World) (c : Client x) (pkt : Bytes) (res : Except (Fail Error) α) : Prop :=
  (res = .error (.err (.mqtt .outOfMemory)) ∧ w.chip.txFsr c.tls.sn.toU8.toNat < pkt.length + 22) ∨
  (res = .error (.err (.clientAlert (Alert.newWarning .internalError))) ∧ w.chip.txFsr c.tls.sn.toU8.toNat < 22)

theorem publish_length (topic payload : Bytes) :
    (Spec.Mqtt.publish (topic.take 65535) (payload.take 65535)).length ≤ (Spec.Mqtt.publish topic payload).length := by
  have h1 := Thm.vbi_mono ((Spec.Mqtt.str (topic.take 65535) ++ (Spec.Mqtt.vbi 0 ++ []) ++ payload.take 65535)).length
    ((Spec.Mqtt.str topic ++ (Spec.Mqtt.vbi 0 ++ []) ++ payload)).length (by simp [Spec.Mqtt.str, Spec.Mqtt.u16]; omega)
  unfold Spec.Mqtt.publish Spec.Mqtt.packet
  simp only [List.length_cons, List.length_append] at h1 ⊢
  simp [Spec.Mqtt.str, Spec.Mqtt.u16] at h1 ⊢
  omega

/-- C90, PUBLISH: a client whose TLS connection is up either sends exactly one protected record with exactly the packet for this topic
and payload, or returns an error because the transmit buffer is full, and sends nothing. -/
theorem C90_publish (hx : x.Standard) (topic payload : Bytes) (w : World) (c : Client x) (t : Bytes) (h : CanSend w c t) :
    let r := publish worldBus topic payload (w, c)
    let pkt := Spec.Mqtt.publish topic payload
    (r.1 = .ok () ∧ r.2.2 = c.afterRecord ∧ SentRecord w r.2.1 c t pkt) ∨
    (r.2.2 = c ∧ r.2.1.chip.sent = w.chip.sent ∧ Full w c pkt r.1) := by
  intro r pkt
  have hfit : w.chip.txFsr c.tls.sn.idx ≤ w.tick.chip.txFsr c.tls.sn.idx := tick_txFsr_ge h.tx
  rcases packet_run hx h.tx h.traffic h.connected h.seq (Thm.emits_publish topic payload 0) with ⟨h1, h2⟩ | ⟨rd, w1, h1, h2, w2, h3 | h3⟩
  · have hr : r = (.error (.err (.clientAlert (Alert.newWarning .internalError))), (w.tick, c)) := by
      show publish worldBus topic payload (w, c) = _
      unfold publish
      rw [X.bind_error h2]
    rw [hr]
    exact .inr ⟨rfl, tick_sent w, .inr ⟨rfl, Nat.lt_of_le_of_lt hfit h1⟩⟩
  · obtain ⟨h3, h4, h5, h6⟩ := h3
    have hr : r = (.ok (), (w2, next c)) := by
      show publish worldBus topic payload (w, c) = _
      unfold publish
      rw [X.bind_ok h1, h3]
    have hsz := h.tx.size_lt
    have hT : topic.take 65535 = topic := by
      apply List.take_of_length_le
      rcases Nat.lt_or_ge 65535 topic.length with hl | hl
      · simp [Spec.Mqtt.publish, Spec.Mqtt.packet, Spec.Mqtt.str, Spec.Mqtt.u16] at h5
        change _ ≤ w.chip.txSize c.tls.sn.toU8.toNat at h5
        omega
      · exact hl
    have hP : payload.take 65535 = payload := by
      apply List.take_of_length_le
      rcases Nat.lt_or_ge 65535 payload.length with hl | hl
      · simp [Spec.Mqtt.publish, Spec.Mqtt.packet, Spec.Mqtt.str, Spec.Mqtt.u16] at h5
        change _ ≤ w.chip.txSize c.tls.sn.toU8.toNat at h5
        omega
      · exact hl
    rw [hT, hP] at h6
    rw [hr]
    exact .inl ⟨rfl, rfl, h6, h4⟩
  · obtain ⟨h3, h4, h5⟩ := h3
    have hr : r = (.error (.err (.mqtt .outOfMemory)), (w2, c)) := by
      show publish worldBus topic payload (w, c) = _
      unfold publish
      rw [X.bind_ok h1, h3]
    rw [hr]
    refine .inr ⟨rfl, h4, .inl ⟨rfl, ?_⟩⟩
    have := publish_length topic payload
    change _ < (Spec.Mqtt.publish topic payload).length + 22
    change w.chip.txFsr c.tls.sn.toU8.toNat < _ at h5
    omega

/-- The client after `subscribe` or `unsubscribe` chose an identifier. -/
def Client.withId (c : Client x) (id : UInt16) : Client x := { c with pktId := id }

theorem filter_run (hx : x.Standard) (filter : Bytes) (hf : filter ≠ []) (p : UInt16 → WProg Unit) (w : World) (c : Client x) (t : Bytes)
    (h : CanSend w c t) (spec : UInt16 → Bytes) (bound : Nat) (dbg : Bool)
    (hp : (EmitsAt 0 (p c.nextPktId.pktId) (spec c.nextPktId.pktId)) ∨
      ((p c.nextPktId.pktId = .throw .panic ∧ dbg = true ∨ ∃ bs, 65536 ≤ bs.length ∧ EmitsAt 0 (p c.nextPktId.pktId) bs) ∧ bound < filter.length ∧
        65536 ≤ (spec c.nextPktId.pktId).length)) :
    let r := sendFilter worldBus filter p (w, c)
    let id := r.2.2.pktId
    (r.1 = .ok id ∧ r.2.2 = (c.withId id).afterRecord ∧ SentRecord w r.2.1 c t (spec id)) ∨
    (r.2.2 = c.withId id ∧ r.2.1.chip.sent = w.chip.sent ∧
      (Full w c (spec id) r.1 ∨ (r.1 = .error (.stop .panic) ∧ dbg = true ∧ bound < filter.length))) := by
  intro r id
  have hfit : w.chip.txFsr c.tls.sn.idx ≤ w.tick.chip.txFsr c.tls.sn.idx := tick_txFsr_ge h.tx
  have hsz := h.tx.size_lt
  have hfs := h.tx.fsr_le
  have hr0 : r = (onTls mapWriterErr (tlsWriter worldBus) >>= fun rd =>
      onTls mapW5500 (sendPacket worldBus rd (p c.nextPktId.pktId)) >>= fun _ => pure c.nextPktId.pktId) (w, c.nextPktId) := by
    show sendFilter worldBus filter p (w, c) = _
    unfold sendFilter
    rw [X.bind_ok (modC_run Client.nextPktId (w, c)), X.bind_ok (getC_run _)]
    dsimp only
    rw [show filter.isEmpty = false by simpa using hf]
    rfl
  have out : ∀ bs, EmitsAt 0 (p c.nextPktId.pktId) bs →
      (∃ w1, r = (.error (.err (.clientAlert (Alert.newWarning .internalError))), (w1, c.nextPktId)) ∧ w1.chip.sent = w.chip.sent ∧
        w.chip.txFsr c.tls.sn.idx < 22) ∨
      (∃ w2, r = (.ok c.nextPktId.pktId, (w2, next c.nextPktId)) ∧ TxState w2.chip c.tls.sn.idx ∧ bs.length + 22 ≤ w.chip.txSize c.tls.sn.idx ∧
        w2.chip.sent = w.chip.sent ++ [⟨c.tls.sn.idx, w.chip.destIp c.tls.sn.idx, w.chip.destPort c.tls.sn.idx,
            Spec.Tls.protect t c.tls.ks.writeSeq.toNat 23 bs⟩]) ∨
      (∃ w2, r = (.error (.err (.mqtt .outOfMemory)), (w2, c.nextPktId)) ∧ w2.chip.sent = w.chip.sent ∧
        w.chip.txFsr c.tls.sn.idx < bs.length + 22) := by
    intro bs hb
    rcases packet_run hx (c := c.nextPktId) h.tx h.traffic h.connected h.seq hb with ⟨h1, h2⟩ | ⟨rd, w1, h1, h2, w2, h3 | h3⟩
    · exact .inl ⟨w.tick, by rw [hr0, X.bind_error h2], tick_sent w, Nat.lt_of_le_of_lt hfit h1⟩
    · exact .inr (.inl ⟨w2, by rw [hr0, X.bind_ok h1, X.bind_ok h3.1]; rfl, h3.2⟩)
    · exact .inr (.inr ⟨w2, by rw [hr0, X.bind_ok h1, X.bind_error h3.1], h3.2⟩)
  rcases hp with hp | ⟨⟨hp, hd⟩ | ⟨bs, hb, hp⟩, hl, hs⟩
  · rcases out _ hp with ⟨w1, e, e1, e2⟩ | ⟨w2, e, e1, e2, e3⟩ | ⟨w2, e, e1, e2⟩
    · have hid : id = c.nextPktId.pktId := by show r.2.2.pktId = _; rw [e]
      rw [hid, e]
      exact .inr ⟨rfl, e1, .inl (.inr ⟨rfl, e2⟩)⟩
    · have hid : id = c.nextPktId.pktId := by show r.2.2.pktId = _; rw [e]; rfl
      rw [hid, e]
      exact .inl ⟨rfl, rfl, e3, e1⟩
    · have hid : id = c.nextPktId.pktId := by show r.2.2.pktId = _; rw [e]
      rw [hid, e]
      exact .inr ⟨rfl, e1, .inl (.inl ⟨rfl, e2⟩)⟩
  · have he := packet_run hx (c := c.nextPktId) h.tx h.traffic h.connected h.seq (EmitsAt.nil 0)
    rcases he with ⟨h1, h2⟩ | ⟨rd, w1, h1, h2, -⟩
    · have e : r = (.error (.err (.clientAlert (Alert.newWarning .internalError))), (w.tick, c.nextPktId)) := by rw [hr0, X.bind_error h2]
      have hid : id = c.nextPktId.pktId := by show r.2.2.pktId = _; rw [e]
      rw [hid, e]
      exact .inr ⟨rfl, tick_sent w, .inl (.inr ⟨rfl, Nat.lt_of_le_of_lt hfit h1⟩)⟩
    · have e : r = (.error (.stop .panic), (w1, c.nextPktId)) := by
        rw [hr0, X.bind_ok h1, hp]
        rfl
      have hid : id = c.nextPktId.pktId := by show r.2.2.pktId = _; rw [e]
      rw [hid, e]
      exact .inr ⟨rfl, h2, .inr ⟨rfl, hd, hl⟩⟩
  · rcases out _ hp with ⟨w1, e, e1, e2⟩ | ⟨w2, e, e1, e2, e3⟩ | ⟨w2, e, e1, e2⟩
    · have hid : id = c.nextPktId.pktId := by show r.2.2.pktId = _; rw [e]
      rw [hid, e]
      exact .inr ⟨rfl, e1, .inl (.inr ⟨rfl, e2⟩)⟩
    · change _ ≤ w.chip.txSize c.tls.sn.toU8.toNat at e2
      omega
    · have hid : id = c.nextPktId.pktId := by show r.2.2.pktId = _; rw [e]
      rw [hid, e]
      exact .inr ⟨rfl, e1, .inl (.inl ⟨rfl, by omega⟩)⟩

/-- C90, SUBSCRIBE: a client whose TLS connection is up either sends exactly one protected record with exactly the packet for this filter
and the identifier it returns, or returns an error because the transmit buffer is full, and sends nothing; or, in a debug build and with a
filter longer than any buffer, it panics and sends nothing. -/
theorem C90_subscribe (hx : x.Standard) (dbg : Bool) (filter : Bytes) (hf : filter ≠ []) (w : World) (c : Client x) (t : Bytes) (h : CanSend w c t) :
    let r := subscribe dbg worldBus filter (w, c)
    let id := r.2.2.pktId
    let pkt := Spec.Mqtt.subscribe id.toNat filter (Spec.Mqtt.options 0 1 0 2)
    (r.1 = .ok id ∧ r.2.2 = (c.withId id).afterRecord ∧ SentRecord w r.2.1 c t pkt) ∨
    (r.2.2 = c.withId id ∧ r.2.1.chip.sent = w.chip.sent ∧
      (Full w c pkt r.1 ∨ (r.1 = .error (.stop .panic) ∧ dbg = true ∧ 65532 < filter.length))) := by
  refine filter_run hx filter hf (Mqtt.subscribeProg dbg filter) w c t h
    (fun id => Spec.Mqtt.subscribe id.toNat filter (Spec.Mqtt.options 0 1 0 2)) 65532 dbg ?_
  by_cases hl : filter.length ≤ 65532
  · exact .inl (Thm.subscribe_fits dbg filter _ 0 hl)
  · refine .inr ⟨?_, by omega, ?_⟩
    · rcases Thm.subscribe_long dbg filter c.nextPktId.pktId 0 with h | ⟨bs, h1, h2⟩
      · exact .inl h
      · exact .inr ⟨bs, by omega, h2⟩
    · simp [Spec.Mqtt.subscribe, Spec.Mqtt.packet, Spec.Mqtt.str, Spec.Mqtt.u16]; omega

/-- C90, UNSUBSCRIBE: the same. -/
theorem C90_unsubscribe (hx : x.Standard) (dbg : Bool) (filter : Bytes) (hf : filter ≠ []) (w : World) (c : Client x) (t : Bytes) (h : CanSend w c t) :
    let r := unsubscribe dbg worldBus filter (w, c)
    let id := r.2.2.pktId
    let pkt := Spec.Mqtt.unsubscribe id.toNat filter
    (r.1 = .ok id ∧ r.2.2 = (c.withId id).afterRecord ∧ SentRecord w r.2.1 c t pkt) ∨
    (r.2.2 = c.withId id ∧ r.2.1.chip.sent = w.chip.sent ∧
      (Full w c pkt r.1 ∨ (r.1 = .error (.stop .panic) ∧ dbg = true ∧ 65533 < filter.length))) := by
  refine filter_run hx filter hf (Mqtt.unsubscribeProg dbg filter) w c t h
    (fun id => Spec.Mqtt.unsubscribe id.toNat filter) 65533 dbg ?_
  by_cases hl : filter.length ≤ 65533
  · exact .inl (Thm.unsubscribe_fits dbg filter _ 0 hl)
  · refine .inr ⟨?_, by omega, ?_⟩
    · rcases Thm.unsubscribe_long dbg filter c.nextPktId.pktId 0 with h | ⟨bs, h1, h2⟩
      · exact .inl h
      · exact .inr ⟨bs, by omega, h2⟩
    · simp [Spec.Mqtt.unsubscribe, Spec.Mqtt.packet, Spec.Mqtt.str, Spec.Mqtt.u16]; omega

/-- C90, no empty filter is sent: `subscribe` and `unsubscribe` return the identifier 0 and send nothing. -/
theorem C90_empty_filter (hx : x.Standard) (dbg : Bool) (w : World) (c : Client x) (t : Bytes) (h : CanSend w c t)
    (hfree : 22 ≤ w.chip.txFsr c.tls.sn.toU8.toNat) :
    let r1 := subscribe dbg worldBus [] (w, c)
    let r2 := unsubscribe dbg worldBus [] (w, c)
    r1.1 = .ok 0 ∧ r1.2.1.chip.sent = w.chip.sent ∧ r2.1 = .ok 0 ∧ r2.2.1.chip.sent = w.chip.sent := by
  intro r1 r2
  have hfit : w.chip.txFsr c.tls.sn.idx ≤ w.tick.chip.txFsr c.tls.sn.idx := tick_txFsr_ge h.tx
  rcases packet_run hx (c := c.nextPktId) h.tx h.traffic h.connected h.seq (EmitsAt.nil 0) with ⟨h1, h2⟩ | ⟨rd, w1, h1, h2, -⟩
  · exact absurd (Nat.lt_of_le_of_lt hfit h1) (by change ¬ w.chip.txFsr c.tls.sn.toU8.toNat < _; omega)
  · have hr : ∀ p, sendFilter worldBus [] p (w, c) = (.ok 0, (w1, c.nextPktId)) := by
      intro p
      unfold sendFilter
      rw [X.bind_ok (modC_run Client.nextPktId (w, c)), X.bind_ok (getC_run _), X.bind_ok h1]
      rfl
    have e1 : r1 = _ := hr _
    have e2 : r2 = _ := hr _
    rw [e1, e2]
    exact ⟨rfl, h2, rfl, h2⟩

/-- The CONNECT packet of the client: keep alive of 900 seconds, and the largest packet that fits into a record in its buffer. -/
def Client.connectPacket (c : Client x) : Bytes := Spec.Mqtt.connect 900 (c.tls.rx.n - 22) (c.clientId.getD [])

theorem rxMax_toNat (c : Client x) (h : 22 ≤ c.tls.rx.n ∧ c.tls.rx.n ≤ 65535) : c.rxMax.toNat = c.tls.rx.n - 22 := by
  unfold Client.rxMax
  rw [UInt16.toNat_sub_of_le]
  · rw [ofNat16_toNat (by omega)]; rfl
  · rw [UInt16.le_iff_toNat_le, ofNat16_toNat (by omega)]; exact h.1

/-- C90, CONNECT: when the handshake is finished, the same call of `process` either sends exactly one protected record with exactly the
CONNECT packet, asks to be called again after ten seconds, and begins to wait for CONNACK; or returns an error because the transmit
buffer is full, and sends nothing. -/
theorem C90_connect (hx : x.Standard) (dbg : Bool) (fuel : Nat) (rng : Rng x) (secs : UInt32) (w w1 : World) (c : Client x) (tls : Tls.Client x)
    (hcall : Tls.process dbg fuel worldBus rng secs (w, c.tls) = (.ok .handshakeFinished, (w1, tls)))
    (t : Bytes) (h : CanSend w1 { c with tls := tls } t) (hn : 22 ≤ tls.rx.n ∧ tls.rx.n ≤ 32768) (hid : ∀ i, c.clientId = some i → i.length ≤ 23) :
    let r := process dbg fuel worldBus rng secs (w, c)
    let c1 : Client x := { c with tls := tls }
    (r.1 = .ok (.callAfter 10) ∧ r.2.2 = { c1.afterRecord with state := .waitConAck, timeout := some secs } ∧
      SentRecord w1 r.2.1 c1 t c1.connectPacket) ∨
    (r.2.2 = c1 ∧ r.2.1.chip.sent = w1.chip.sent ∧ Full w1 c1 c1.connectPacket r.1) := by
  intro r c1
  have hfit : w1.chip.txFsr tls.sn.idx ≤ w1.tick.chip.txFsr tls.sn.idx := tick_txFsr_ge h.tx
  have hr0 : r = (sendConnect worldBus secs >>= fun after => pure (.callAfter after)) (w1, c1) := process_eq dbg fuel worldBus rng secs hcall
  have he := Thm.emits_connect c.clientId c1.rxMax 0 hid
  rw [rxMax_toNat c1 (by show 22 ≤ tls.rx.n ∧ tls.rx.n ≤ 65535; omega)] at he
  have hs : sendConnect worldBus secs (w1, c1) = (onTls mapWriterErr (tlsWriter worldBus) >>= fun r =>
      onTls mapW5500 (sendPacket worldBus r (Mqtt.connectProg c.clientId c1.rxMax)) >>= fun _ =>
      modC (Client.setStateWithTimeout .waitConAck secs) >>= fun _ => pure Mqtt.timeoutSecs) (w1, c1) := rfl
  rw [X.bind_run, hs] at hr0
  rcases packet_run hx (c := c1) h.tx h.traffic h.connected h.seq he with ⟨h1, h2⟩ | ⟨rd, w2, h1, h2, w3, h3 | h3⟩
  · rw [X.bind_error h2] at hr0
    rw [hr0]
    exact .inr ⟨rfl, tick_sent w1, .inr ⟨rfl, Nat.lt_of_le_of_lt hfit h1⟩⟩
  · obtain ⟨h3, h4, h5, h6⟩ := h3
    rw [X.bind_ok h1, X.bind_ok h3, X.bind_ok (modC_run _ _)] at hr0
    have hr1 : r = (.ok (.callAfter 10), (w3, { c1.afterRecord with state := .waitConAck, timeout := some secs })) := hr0
    rw [hr1]
    refine .inl ⟨rfl, rfl, ?_, h4⟩
    dsimp only
    unfold Client.connectPacket
    exact h6
  · obtain ⟨h3, h4, h5⟩ := h3
    rw [X.bind_ok h1, X.bind_error h3] at hr0
    have hr1 : r = (.error (.err (.mqtt .outOfMemory)), (w3, c1)) := hr0
    rw [hr1]
    refine .inr ⟨rfl, h4, .inl ⟨rfl, ?_⟩⟩
    unfold Client.connectPacket
    exact h5

theorem process_after (dbg : Bool) (fuel : Nat) (rng : Rng x) (secs : UInt32) (w : World) (c : Client x) (tls : Tls.Client x) (n : UInt32)
    (h : (Tls.process dbg fuel worldBus rng secs (w, tls)).1 = .ok (.callAfter n)) :
    process dbg fuel worldBus rng secs (w, { c with tls := tls }) = (.ok (.callAfter n),
      ((Tls.process dbg fuel worldBus rng secs (w, tls)).2.1, { c with tls := (Tls.process dbg fuel worldBus rng secs (w, tls)).2.2 })) := by
  generalize hy : Tls.process dbg fuel worldBus rng secs (w, tls) = y at *
  obtain ⟨y1, y2, y3⟩ := y
  dsimp only at h
  subst h
  exact process_eq dbg fuel worldBus rng secs (c := { c with tls := tls }) hy

/-- C90, from the beginning of the connection: with an honest server (see `C89_handshake_completes` for the hypotheses) four calls of
`process` send the ClientHello, the Finished and a protected record with the CONNECT packet, in this order and nothing else, and the client
waits for CONNACK; unless there is no room for CONNECT, then the last call returns an error. -/
theorem C90_session (hx : x.Standard) (fuel : Nat) (rng rng1 rng2 rng3 : Rng x) (hr : rng.Ok) (t0 t1 t2 t3 : UInt32) (w : World)
    (c : Client x) (p : Nat) (hc : Tls.Connecting w c.tls p) (hi : Tls.Connects w c.tls) (a : Spec.Tls.Answer) (pub : x.Public)
    (ha : Tls.Honest x a pub c.tls.rx.n) (q1 q2 q3 : Tls.Pause) (h1 : q1.Calm c.tls.sn.toU8.toNat) (h2 : q2.Calm c.tls.sn.toU8.toNat)
    (h3 : q3.Calm c.tls.sn.toU8.toNat) (hid : ∀ i, c.clientId = some i → i.length ≤ 23) :
    let ch := (c.tls.offer rng).hello
    let dhe := x.dh rng.secret pub
    let messages := [ch, a.sh, a.ee, a.fin c.tls.psk dhe ch]
    let r0 := process false (fuel + 2) worldBus rng t0 (w, c)
    let r1 := process false (fuel + 2) worldBus rng1 t1 (q1.after r0.2.1, r0.2.2)
    let r2 := process false (fuel + 2) worldBus rng2 t2 (q2.after r1.2.1, r1.2.2)
    let r3 := process false (fuel + 2) worldBus rng3 t3 (q3.after r2.2.1, r2.2.2)
    r0.1 = .ok (.callAfter 10) ∧
    r0.2.1.chip.sent.map (·.payload) = w.chip.sent.map (·.payload) ++ [(c.tls.offer rng).record] ∧
    (a.flight c.tls.psk dhe ch <+: ((q1.after r0.2.1).chip.received c.tls.sn.toU8.toNat).drop p →
      58 ≤ (q1.after r0.2.1).chip.txFsr c.tls.sn.toU8.toNat →
      r1.1 = .ok (.callAfter 10) ∧ r2.1 = .ok (.callAfter 10) ∧
      ((r3.1 = .ok (.callAfter 10) ∧ r3.2.2.state = .waitConAck ∧ r3.2.2.timeout = some t3 ∧
          r3.2.1.chip.sent.map (·.payload) = w.chip.sent.map (·.payload) ++ [(c.tls.offer rng).record, a.reply c.tls.psk dhe ch,
            Spec.Tls.protect (Spec.Tls.clientAppTraffic c.tls.psk dhe messages) 0 23 c.connectPacket]) ∨
        ((r3.1 = .error (.err (.mqtt .outOfMemory)) ∨ r3.1 = .error (.err (.clientAlert (Alert.newWarning .internalError)))) ∧
          r3.2.2.state = c.state ∧ r3.2.2.tls.connected = true ∧
          r3.2.1.chip.sent.map (·.payload) = w.chip.sent.map (·.payload) ++ [(c.tls.offer rng).record, a.reply c.tls.psk dhe ch]))) := by
  intro ch dhe messages r0 r1 r2 r3
  have hC := Tls.C89_handshake_completes hx fuel rng rng1 rng2 rng3 hr t0 t1 t2 t3 w c.tls p hc hi a pub ha q1 q2 q3 h1 h2 h3
  dsimp only at hC
  obtain ⟨g0, s0, hC⟩ := hC
  have e0 : r0 = _ := process_after false (fuel + 2) rng t0 w c c.tls 10 g0
  generalize hy0 : Tls.process false (fuel + 2) worldBus rng t0 (w, c.tls) = y0 at *
  have e1 : r1 = process false (fuel + 2) worldBus rng1 t1 (q1.after y0.2.1, { c with tls := y0.2.2 }) := by
    show process _ _ _ _ _ (q1.after r0.2.1, r0.2.2) = _
    rw [e0]
  rw [e0]
  refine ⟨rfl, s0, fun hf hroom => ?_⟩
  obtain ⟨g1, g2, g3, s3, ct, ws, -, hsn, hn, -, hready⟩ := hC hf hroom
  have e1' := e1.trans (process_after false (fuel + 2) rng1 t1 (q1.after y0.2.1) c y0.2.2 10 g1)
  generalize hy1 : Tls.process false (fuel + 2) worldBus rng1 t1 (q1.after y0.2.1, y0.2.2) = y1 at *
  have e2 : r2 = process false (fuel + 2) worldBus rng2 t2 (q2.after y1.2.1, { c with tls := y1.2.2 }) := by
    show process _ _ _ _ _ (q2.after r1.2.1, r1.2.2) = _
    rw [e1']
  have e2' := e2.trans (process_after false (fuel + 2) rng2 t2 (q2.after y1.2.1) c y1.2.2 10 g2)
  generalize hy2 : Tls.process false (fuel + 2) worldBus rng2 t2 (q2.after y1.2.1, y1.2.2) = y2 at *
  have e3 : r3 = process false (fuel + 2) worldBus rng3 t3 (q3.after y2.2.1, { c with tls := y2.2.2 }) := by
    show process _ _ _ _ _ (q3.after r2.2.1, r2.2.2) = _
    rw [e2']
  generalize hy3 : Tls.process false (fuel + 2) worldBus rng3 t3 (q3.after y2.2.1, y2.2.2) = y3 at *
  obtain ⟨y31, w3, tls3⟩ := y3
  dsimp only at g3 s3 ct ws hsn hn hready
  subst g3
  have hcan : CanSend w3 { c with tls := tls3 } (Spec.Tls.clientAppTraffic c.tls.psk dhe messages) := by
    refine ⟨hready.connected, ct, ?_, hready.tx⟩
    show tls3.ks.writeSeq.toNat + 1 < _
    rw [ws]
    decide
  have hfits := hc.fits
  have hsize := hc.size
  have hk := C90_connect hx false (fuel + 2) rng3 t3 (q3.after y2.2.1) w3 { c with tls := y2.2.2 } tls3 hy3
    (Spec.Tls.clientAppTraffic c.tls.psk dhe messages) hcan (by rw [hn]; omega) hid
  dsimp only at hk
  have hpkt : ({ c with tls := tls3 } : Client x).connectPacket = c.connectPacket := by
    unfold Client.connectPacket
    dsimp only
    rw [hn]
  refine ⟨by rw [e1'], by rw [e2'], ?_⟩
  rw [e3]
  rw [hpkt] at hk
  rcases hk with ⟨k1, k2, k3⟩ | ⟨k2, k3, k1⟩
  · refine .inl ⟨k1, by rw [k2], by rw [k2], ?_⟩
    rw [k3.sent, List.map_append, s3, List.append_assoc]
    show _ ++ ([_, _] ++ [Spec.Tls.protect _ tls3.ks.writeSeq.toNat 23 _]) = _
    rw [ws]
    rfl
  · refine .inr ⟨?_, by rw [k2], by rw [k2]; exact hready.connected, by rw [k3]; exact s3⟩
    rcases k1 with ⟨k1, -⟩ | ⟨k1, -⟩
    · exact .inl k1
    · exact .inr k1

/-! ## Instances -/

namespace Witness
open Verif.Tls.Witness (c1 c5 standard rng rng_ok)

/-- The client whose TLS handshake is finished, connected to the broker. -/
def client : Client Verif.Tls.Witness.X := ⟨c5, some [65, 66], .ready, none, 1⟩

theorem canSend (data : Bytes) : ∃ t, CanSend (Thm.tcpWorld 0 data) client t :=
  ⟨_, rfl, rfl, by decide +kernel, Tls.tcpWorld_tx 0 data⟩

theorem room : (Thm.tcpWorld 0 []).chip.txFsr client.tls.sn.toU8.toNat = 2048 := by decide +kernel

/-- Publishing "hi" for the topic "a". -/
example : ∃ t, let r := publish worldBus [97] [104, 105] (Thm.tcpWorld 0 [], client)
    r.1 = .ok () ∧ SentRecord (Thm.tcpWorld 0 []) r.2.1 client t (Spec.Mqtt.publish [97] [104, 105]) := by
  obtain ⟨t, h⟩ := canSend []
  refine ⟨t, ?_⟩
  rcases C90_publish standard [97] [104, 105] _ client t h with ⟨h1, -, h2⟩ | ⟨-, -, h1⟩
  · exact ⟨h1, h2⟩
  · rcases h1 with ⟨-, h⟩ | ⟨-, h⟩ <;> rw [room] at h <;> exact absurd h (by decide +kernel)

/-- Subscribing to "a". -/
example : ∃ t, let r := subscribe false worldBus [97] (Thm.tcpWorld 0 [], client)
    SentRecord (Thm.tcpWorld 0 []) r.2.1 client t (Spec.Mqtt.subscribe r.2.2.pktId.toNat [97] (Spec.Mqtt.options 0 1 0 2)) := by
  obtain ⟨t, h⟩ := canSend []
  refine ⟨t, ?_⟩
  rcases C90_subscribe standard false [97] (by decide) _ client t h with ⟨-, -, h2⟩ | ⟨-, -, h1 | ⟨-, h, -⟩⟩
  · exact h2
  · rcases h1 with ⟨-, h⟩ | ⟨-, h⟩ <;> rw [room] at h
    · have hl : ∀ id : Nat, (Spec.Mqtt.subscribe id [97] (Spec.Mqtt.options 0 1 0 2)).length = 9 := fun id => by
        simp [Spec.Mqtt.subscribe, Spec.Mqtt.packet, Spec.Mqtt.str, Spec.Mqtt.u16, Spec.Mqtt.vbi]
      rw [hl] at h
      exact absurd h (by decide)
    · exact absurd h (by decide)
  · cases h

/-- Unsubscribing from "a". -/
example : ∃ t, let r := unsubscribe false worldBus [97] (Thm.tcpWorld 0 [], client)
    SentRecord (Thm.tcpWorld 0 []) r.2.1 client t (Spec.Mqtt.unsubscribe r.2.2.pktId.toNat [97]) := by
  obtain ⟨t, h⟩ := canSend []
  refine ⟨t, ?_⟩
  rcases C90_unsubscribe standard false [97] (by decide) _ client t h with ⟨-, -, h2⟩ | ⟨-, -, h1 | ⟨-, h, -⟩⟩
  · exact h2
  · rcases h1 with ⟨-, h⟩ | ⟨-, h⟩ <;> rw [room] at h
    · have hl : ∀ id : Nat, (Spec.Mqtt.unsubscribe id [97]).length = 8 := fun id => by
        simp [Spec.Mqtt.unsubscribe, Spec.Mqtt.packet, Spec.Mqtt.str, Spec.Mqtt.u16, Spec.Mqtt.vbi]
      rw [hl] at h
      exact absurd h (by decide)
    · exact absurd h (by decide)
  · cases h

/-- An empty filter. -/
example : (subscribe false worldBus [] (Thm.tcpWorld 0 [], client)).1 = .ok 0 := by
  obtain ⟨t, h⟩ := canSend []
  exact (C90_empty_filter standard false _ client t h (by rw [room]; decide)).1

/-- Non-vacuity of `C90_connect` and `C90_session`: the handshake of the example of `C89_handshake_completes`, for a client with the
identifier "AB".  The remaining hypotheses of `C90_session` are shown there. -/
example : Tls.Connecting (Thm.tcpWorld 1 []) ({ client with tls := c1 } : Client _).tls 0 ∧
    Tls.Connects (Thm.tcpWorld 1 []) ({ client with tls := c1 } : Client _).tls ∧
    Tls.Honest Verif.Tls.Witness.X Verif.Tls.Witness.answer () ({ client with tls := c1 } : Client _).tls.rx.n ∧
    ∀ i, ({ client with tls := c1 } : Client _).clientId = some i → i.length ≤ 23 :=
  ⟨Tls.Witness.connecting, Tls.Witness.connects, Tls.Witness.honest, fun i h => by injection h with h; subst h; decide⟩

end Witness

end Verif.MqttTls

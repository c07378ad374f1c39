import Verif.Proof.PanicMqtt
import Verif.Spec.World
/-!
# C121: nothing received makes a client panic

`Device b` (`Spec/Panic.lean`) allows a device to answer anything at any time, and to fail with an error of the bus at any access.
-/
namespace Verif.Thm
open Hl
open _root_.Verif.Spec (NoPanic Device RxLimit StatusUdp StatusTcp PortUnique Answer Message MqttAsserts worldBus)
variable {σ : Type} {b : Bus σ}

/-! ## Devices -/

/-- A device that does what its script says: the next bytes, or a failure. -/
def scriptBus : Bus (List (Option Bytes)) where
  read _ _ n := fun s => match s with
    | some x :: s' => (.ok (Vector.ofFn fun i : Fin n => x.getD i.val 0), s')
    | none :: s' => (.error (.bus 0), s')
    | [] => (.ok (Vector.replicate n 0), [])
  write _ _ _ := fun s => match s with
    | none :: s' => (.error (.bus 0), s')
    | s => (.ok (), s)

/-- A device where every byte reads as `x`. -/
def fillBus (x : UInt8) : Bus Unit where
  read _ _ n := fun s => (.ok (Vector.replicate n x), s)
  write _ _ _ := fun s => (.ok (), s)

theorem device_script : Device scriptBus where
  read := by
    intro a blk n s e h
    rcases s with _ | ⟨_ | x, s⟩
    · exact nomatch h
    · injection h with h; exact ⟨0, h.symm⟩
    · exact nomatch h
  write := by
    intro a blk bs s e h
    rcases s with _ | ⟨_ | x, s⟩
    · exact nomatch h
    · injection h with h; exact ⟨0, h.symm⟩
    · exact nomatch h
example : Device worldBus := ⟨fun _ _ _ _ _ h => (nomatch h), fun _ _ _ _ _ h => nomatch h⟩

/-- A device whose sockets are UDP sockets with received data: it meets what the debug builds of the UDP clients ask for. -/
theorem fillBus_udp : Device (fillBus 0x22) ∧ StatusUdp (fillBus 0x22) .sn3 ∧ PortUnique (fillBus 0x22) .sn3 68 ∧
    RxLimit (fillBus 0x22) .sn3 := by
  refine ⟨⟨fun _ _ _ _ _ h => (nomatch h), fun _ _ _ _ _ h => nomatch h⟩, ?_, ?_, ?_⟩
  · intro s st h; injection h with h; rw [← h]; rfl
  · intro s v h
    have e : (portIsUnique (fillBus 0x22) .sn3 68 s).1 = .ok true := rfl
    rw [e] at h; injection h with h; exact h.symm
  · intro s n h
    have e : ((fillBus 0x22).snRxRsr .sn3 s).1 = .ok 0x2222 := rfl
    rw [e] at h; injection h with h; rw [← h]; decide

/-- The same for established TCP connections. -/
theorem fillBus_tcp : Device (fillBus 0x17) ∧ StatusTcp (fillBus 0x17) .sn3 ∧ PortUnique (fillBus 0x17) .sn3 68 := by
  refine ⟨⟨fun _ _ _ _ _ h => (nomatch h), fun _ _ _ _ _ h => nomatch h⟩, ?_, ?_⟩
  · intro s st h
    have e : ((fillBus 0x17).snSr .sn3 s).1 = .ok (.ok .established) := rfl
    rw [e] at h; injection h with h; rw [← h]
    exact ⟨by nofun, by nofun, by nofun⟩
  · intro s v h
    have e : (portIsUnique (fillBus 0x17) .sn3 68 s).1 = .ok true := rfl
    rw [e] at h; injection h with h; exact h.symm

/-! ## DNS -/

/-- C121, asking a DNS server: no panic, whatever the questions and whatever the device does. -/
theorem C121_dns_query (hb : Device b) (dbg : Bool) (fuel : Nat) (c : Dns.Client) (qs : List (Dns.Qtype × Bytes))
    (hp : dbg = true → PortUnique b c.sn c.port) : NoPanic (Dns.query dbg fuel b c qs) :=
  (Dns.fine_query hb fuel c qs hp).noPanic

/-- C121, asking with multicast DNS. -/
theorem C121_mdns_query (hb : Device b) (fuel : Nat) (c : Dns.MdnsClient) (qs : List (Dns.Qtype × Bytes)) :
    NoPanic (Dns.mdnsQuery fuel b c qs) :=
  (Dns.fine_mdnsQuery hb fuel c qs).noPanic

/-- C121, looking for a response (`id` is absent for multicast DNS). -/
theorem C121_dns_response (hb : Device b) (dbg : Bool) (fuel cap : Nat) (sn : Sn) (id : Option UInt16)
    (hs : dbg = true → StatusUdp b sn) : NoPanic (Dns.response dbg fuel b sn cap id) :=
  fun s => (Dns.response_safe hb hs fuel cap id s).1

/-- The reader of a response is usable. -/
theorem answer_at (hb : Device b) {dbg : Bool} {fuel : Nat} {sn : Sn} (hs : dbg = true → StatusUdp b sn) {r : Dns.Response}
    (h : Answer dbg fuel b sn r) : ∃ L p, At r.reader.inner L p := by
  induction h with
  | got e => exact (Dns.response_safe hb hs fuel _ _ _).2 _ e
  | next s _ ih =>
    obtain ⟨L, p, ha⟩ := ih
    obtain ⟨-, q, hq⟩ := Dns.nextRr_safe hb fuel ha s
    exact ⟨L, q, hq⟩

/-- C121, reading the records of a response, and being done with it: no panic, whatever was received, and also after calls that
failed. -/
theorem C121_dns_records (hb : Device b) (dbg : Bool) (fuel : Nat) (sn : Sn) (hs : dbg = true → StatusUdp b sn) (r : Dns.Response)
    (h : Answer dbg fuel b sn r) :
    (∀ s, (Dns.nextRr fuel b (s, r)).1 ≠ .error .panic) ∧ NoPanic (Dns.responseDone b r) := by
  obtain ⟨L, p, ha⟩ := answer_at hb hs h
  exact ⟨fun s => (Dns.nextRr_safe hb fuel ha s).1, (fine_udpReaderDone hb _).noPanic⟩

example : NoPanic (Dns.query true 10 (fillBus 0x22) ⟨.sn3, 68, ⟨⟨8, 8, 8, 8⟩, 53⟩, ⟨7⟩⟩ [(.A, [97])]) :=
  C121_dns_query fillBus_udp.1 _ _ _ _ fun _ => fillBus_udp.2.2.1
example : NoPanic (Dns.response true 10 (fillBus 0x22) .sn3 16 (some 5)) :=
  C121_dns_response fillBus_udp.1 _ _ _ _ _ fun _ => fillBus_udp.2.1
/-- A response with one answer: the last access reads its header. -/
def answerScript : List (Option Bytes) :=
  [some [0, 40], some [0, 0], some [8, 8, 8, 8, 0, 53, 0, 32], some [0, 0, 0x80, 0, 0, 0, 0, 1, 0, 0, 0, 0]]

example : ∃ r, Answer false 10 scriptBus .sn0 r ∧ r.header.ancount = 1 := by
  have h : ((Dns.response false 10 scriptBus .sn0 4 none answerScript).1.toOption.map fun r => r.header.ancount) = some 1 := by
    decide +kernel
  rcases e : (Dns.response false 10 scriptBus .sn0 4 none answerScript).1 with x | r
  · rw [e] at h; exact nomatch h
  · rw [e] at h; injection h with h; exact ⟨r, .got e, h⟩

/-! ## SNTP -/

/-- C121, the SNTP client: setting up its socket, asking and looking for a reply. -/
theorem C121_sntp (hb : Device b) (dbg : Bool) (fuel : Nat) (c : Sntp.Client) :
    ((dbg = true → PortUnique b c.sn c.port) → NoPanic (Sntp.setupSocket dbg fuel b c)) ∧ NoPanic (Sntp.request b c) ∧
    ((dbg = true → StatusUdp b c.sn) → NoPanic (Sntp.onRecvInterrupt dbg b c)) :=
  ⟨fun h => (Sntp.fine_setupSocket hb fuel c h).noPanic, (Sntp.fine_request hb c).noPanic, Sntp.onRecvInterrupt_safe hb c⟩

example : NoPanic (Sntp.onRecvInterrupt true (fillBus 0x22) ⟨.sn3, 68, ⟨⟨8, 8, 8, 8⟩, 123⟩⟩) :=
  (C121_sntp fillBus_udp.1 true 10 _).2.2 fun _ => fillBus_udp.2.1

/-! ## DHCP -/

/-- C121, setting up the socket of the DHCP client. -/
theorem C121_dhcp_setup (hb : Device b) (dbg : Bool) (fuel : Nat) (c : Dhcp.Client)
    (hp : dbg = true → PortUnique b c.sn c.srcPort) : NoPanic (Dhcp.setupSocket dbg fuel b c) :=
  (Dhcp.fine_setupSocket hb fuel c hp).noPanic

/-- C121, `process` of the DHCP client: whatever its state and whatever is received, it does not panic.  A debug build must find
what its assertions ask for, and a clock that has not gone backwards. -/
theorem C121_dhcp_process (hb : Device b) (dbg : Bool) (fuel n : Nat) (secs : UInt32) (s : σ) (c : Dhcp.Client)
    (hrx : RxLimit b c.sn) (hs : dbg = true → StatusUdp b c.sn) (hp : dbg = true → PortUnique b c.sn c.srcPort)
    (hclock : dbg = true → ∀ t, c.stateTimeout = some t → t ≤ secs) :
    (Dhcp.process dbg fuel n b secs (s, c)).1 ≠ .error .panic :=
  (Dhcp.safe_process hb hs hp hrx fuel n s c ⟨rfl, rfl, hclock⟩).1

/-- A client that asked for a lease at second 10. -/
def dhcpAsked : Dhcp.Client :=
  { Dhcp.Client.new .sn3 7 ⟨2, 0, 0, 0, 0, 1⟩ [97] with state := .requesting, stateTimeout := some 10, xid := 0x22222222 }

example : (Dhcp.process true 10 10 (fillBus 0x22) 12 ((), dhcpAsked)).1 ≠ .error .panic :=
  C121_dhcp_process fillBus_udp.1 _ _ _ _ _ _ fillBus_udp.2.2.2 (fun _ => fillBus_udp.2.1) (fun _ => fillBus_udp.2.2.1)
    (fun _ t ht => by injection ht with ht; rw [← ht]; decide)
/-- With a clock that went backwards the debug build does panic. -/
example : (Dhcp.process true 10 10 (fillBus 0x22) 9 ((), { dhcpAsked with xid := 1 })).1 = .error .panic := by decide +kernel

/-! ## MQTT -/

/-- C121, `process` of the MQTT client. -/
theorem C121_mqtt_process (hb : Device b) (dbg : Bool) (fuel : Nat) (secs : UInt32) (s : σ) (c : Mqtt.Client)
    (h : dbg = true → MqttAsserts b secs c) : (Mqtt.process dbg fuel b secs (s, c)).1 ≠ .error .panic :=
  (Mqtt.process_safe hb fuel ⟨rfl, rfl, fun hd => (h hd).clock⟩ (fun hd => (h hd).status) (fun hd => (h hd).unique) s).1

/-- C121, sending with the MQTT client: no panic, whatever the topic and payload are; a debug build wants filters whose length,
modulo 65536, is less than 65533 (subscribe) or 65534 (unsubscribe). -/
theorem C121_mqtt_send (hb : Device b) (dbg : Bool) (topic payload filter : Bytes) :
    NoPanic (Mqtt.publish b topic payload) ∧
    ((dbg = true → filter.length % 65536 + 3 < 65536) → NoPanic (Mqtt.subscribe dbg b filter)) ∧
    ((dbg = true → filter.length % 65536 + 2 < 65536) → NoPanic (Mqtt.unsubscribe dbg b filter)) :=
  ⟨Mqtt.publish_safe hb topic payload, fun h => Mqtt.sendFilter_safe hb filter (Mqtt.wsafe_subscribeProg h),
    fun h => Mqtt.sendFilter_safe hb filter (Mqtt.wsafe_unsubscribeProg h)⟩

/-- The reader of a message is usable. -/
theorem message_ok (hb : Device b) {dbg : Bool} {fuel : Nat} {r : Mqtt.PublishReader} (h : Message dbg fuel b r) : Mqtt.PubOk r := by
  induction h with
  | got h e =>
    exact (Mqtt.process_safe hb fuel ⟨rfl, rfl, fun hd => (h hd).clock⟩ (fun hd => (h hd).status) (fun hd => (h hd).unique) _).2 _ e
  | topic _ e ih =>
    exact (Mqtt.onPublish_safe hb ih (fun L p => Dns.RT.bind (Dns.RT.seek _) (fun _ => Dns.RT.readExact _) p) _).2 _ e _ _ rfl
  | payload _ e ih =>
    exact (Mqtt.onPublish_safe hb ih (fun L p => Dns.RT.bind (Dns.RT.seek _) (fun _ => Dns.RT.readExact _) p) _).2 _ e _ _ rfl

/-- C121, reading the topic and the payload of a message, and being done with it: no panic, whatever lengths the message claims. -/
theorem C121_mqtt_message (hb : Device b) (dbg : Bool) (fuel : Nat) (r : Mqtt.PublishReader) (h : Message dbg fuel b r) :
    (∀ n, NoPanic (Mqtt.onPublish b r (Mqtt.readTopicProg r.info n))) ∧
    (∀ n, NoPanic (Mqtt.onPublish b r (Mqtt.readPayloadProg r.info n))) ∧ NoPanic (Mqtt.publishDone dbg b r) := by
  have ok := message_ok hb h
  exact ⟨fun n => (Mqtt.onPublish_safe hb ok fun L p => Dns.RT.bind (Dns.RT.seek _) (fun _ => Dns.RT.readExact _) p).noPanic,
    fun n => (Mqtt.onPublish_safe hb ok fun L p => Dns.RT.bind (Dns.RT.seek _) (fun _ => Dns.RT.readExact _) p).noPanic,
    Mqtt.publishDone_safe hb ok⟩

/-- A connected client. -/
def mqttReady : Mqtt.Client := { Mqtt.Client.new .sn3 68 ⟨⟨10, 0, 0, 1⟩, 1883⟩ with state := .ready }

example : (Mqtt.process true 10 (fillBus 0x17) 12 ((), mqttReady)).1 ≠ .error .panic :=
  C121_mqtt_process fillBus_tcp.1 _ _ _ _ _ fun _ =>
    ⟨fun _ => fillBus_tcp.2.1, fun _ => fillBus_tcp.2.2, fun _ h => nomatch h⟩
/-- A message with topic `a` and payload `b`. -/
def messageScript : List (Option Bytes) :=
  [some [0], some [0, 7], some [0, 0], some [0x30, 5, 0, 1, 97], some [0, 1], some [0], some [98]]

/-- The length of the payload of the message of an event. -/
def payloadLenOf : Except Err (Except Mqtt.MErr Mqtt.Event) → Option UInt16
  | .ok (.ok (.publish r)) => some r.info.payloadLen
  | _ => none

example : ∃ r, Message false 10 scriptBus r ∧ r.info.payloadLen = 1 := by
  have h : payloadLenOf (Mqtt.process false 10 scriptBus 0 (messageScript, mqttReady)).1 = some 1 := by decide +kernel
  rcases e : (Mqtt.process false 10 scriptBus 0 (messageScript, mqttReady)).1 with x | x | x
  · rw [e] at h; exact nomatch h
  · rw [e] at h; exact nomatch h
  · cases x with
    | publish r => rw [e] at h; injection h with h; exact ⟨r, .got (fun h => nomatch h) e, h⟩
    | _ => rw [e] at h; exact nomatch h
/-- A filter of 65533 bytes: here the debug build does panic. -/
example : (Mqtt.subscribeProg true (List.replicate 65533 97) 1) = .throw .panic := by
  unfold Mqtt.subscribeProg Mqtt.filterLen
  rw [List.length_replicate, if_pos (by decide)]

end Verif.Thm

import Verif.Proof.TraceClients
import Verif.Thm.Panic
/-!
# C123 and C124: what a client writes, and what becomes of a failure of the bus

The accesses of a call are what it appends to the empty list on `traceBus b` (`Spec/Trace.lean`), a bus that behaves as `b` and lists the
accesses.  `Device b` lets a device answer anything at any time, and fail at any access.
-/
namespace Verif.Thm
open Hl
open _root_.Verif.Spec (Device Access errorOf traceBus OfSocket OfCommon OnlyWrites Reported)
variable {σ : Type} {b : Bus σ}

/-! ## The list of the accesses is that of the device without the list -/

/-- What a sequence of accesses does on `traceBus b` is what it does on `b`. -/
theorem traceBus_read (a : UInt16) (blk : UInt8) (n : Nat) (s : σ) (l : List Access) :
    ((traceBus b).read a blk n (s, l)).1 = (b.read a blk n s).1 ∧ ((traceBus b).read a blk n (s, l)).2.1 = (b.read a blk n s).2 := ⟨rfl, rfl⟩
theorem traceBus_write (a : UInt16) (blk : UInt8) (bs : Bytes) (s : σ) (l : List Access) :
    ((traceBus b).write a blk bs (s, l)).1 = (b.write a blk bs s).1 ∧ ((traceBus b).write a blk bs (s, l)).2.1 = (b.write a blk bs s).2 := ⟨rfl, rfl⟩

section
variable {α C : Type} {W : Access → Prop}
theorem t0_writes {Q : α → Prop} {m : M (σ × List Access) α} (h : T0 W Q m) (s : σ) : OnlyWrites W (m (s, [])).2.2 := by
  obtain ⟨es, h1, h2, _⟩ := h (s, []) trivial
  exact (show (m (s, [])).2.2 = es from h1) ▸ h2
theorem t0_reported {Q : α → Prop} {m : M (σ × List Access) α} (h : T0 (fun _ => True) Q m) (s : σ) : Reported (m (s, [])).2.2 (m (s, [])).1 := by
  obtain ⟨es, h1, _, h3, _⟩ := h (s, []) trivial
  exact (show (m (s, [])).2.2 = es from h1) ▸ h3
theorem t1_writes {I : C → Prop} {Q : α → Prop} {m : M ((σ × List Access) × C) α} (h : T1 W I Q m) (s : σ) (c : C) (hc : I c) :
    OnlyWrites W (m ((s, []), c)).2.1.2 := by
  obtain ⟨es, h1, h2, _⟩ := h ((s, []), c) hc
  exact (show (m ((s, []), c)).2.1.2 = es from h1) ▸ h2
theorem t1_reported {I : C → Prop} {Q : α → Prop} {m : M ((σ × List Access) × C) α} (h : T1 (fun _ => True) I Q m) (s : σ) (c : C) (hc : I c) :
    Reported (m ((s, []), c)).2.1.2 (m ((s, []), c)).1 := by
  obtain ⟨es, h1, _, h3, _⟩ := h ((s, []), c) hc
  exact (show (m ((s, []), c)).2.1.2 = es from h1) ▸ h3
end

/-! ## C123: a client writes only to its own socket, and to the registers it configures -/

/-- DNS and multicast DNS: queries, responses, the records of a response, and the end of its use. -/
theorem C123_dns (hb : Device b) (s : σ) :
    (∀ (dbg : Bool) (fuel : Nat) (c : Dns.Client) (qs : List (Dns.Qtype × Bytes)),
      OnlyWrites (OfSocket c.sn) (Dns.query dbg fuel (traceBus b) c qs (s, [])).2.2) ∧
    (∀ (fuel : Nat) (c : Dns.MdnsClient) (qs : List (Dns.Qtype × Bytes)),
      OnlyWrites (OfSocket c.sn) (Dns.mdnsQuery fuel (traceBus b) c qs (s, [])).2.2) ∧
    (∀ (dbg : Bool) (fuel : Nat) (sn : Sn) (cap : Nat) (id : Option UInt16),
      OnlyWrites (OfSocket sn) (Dns.response dbg fuel (traceBus b) sn cap id (s, [])).2.2 ∧
      ∀ r, (Dns.response dbg fuel (traceBus b) sn cap id (s, [])).1 = .ok r → r.reader.inner.sn = sn) ∧
    (∀ (fuel : Nat) (r : Dns.Response), OnlyWrites (OfSocket r.reader.inner.sn) (Dns.nextRr fuel (traceBus b) ((s, []), r)).2.1.2 ∧
      (Dns.nextRr fuel (traceBus b) ((s, []), r)).2.2.reader.inner.sn = r.reader.inner.sn) ∧
    ∀ r : Dns.Response, OnlyWrites (OfSocket r.reader.inner.sn) (Dns.responseDone (traceBus b) r (s, [])).2.2 := by
  refine ⟨fun dbg fuel c qs => t0_writes (t0_query hb dbg fuel c (fun _ h => h) qs) s,
    fun fuel c qs => t0_writes (t0_mdnsQuery hb fuel c (fun _ h => h) qs) s, fun dbg fuel sn cap id => ?_, fun fuel r => ?_, fun r => ?_⟩
  · have h := t0_response (W := OfSocket sn) hb dbg fuel sn (fun _ h => h) cap id
    obtain ⟨_, _, _, _, _, h5⟩ := h (s, []) trivial
    exact ⟨t0_writes h s, h5⟩
  · have h := t1_nextRr (W := OfSocket r.reader.inner.sn) hb fuel r.reader.inner.sn fun _ h => h
    obtain ⟨_, _, _, _, h4, _⟩ := h ((s, []), r) rfl
    exact ⟨t1_writes h s r rfl, h4⟩
  · exact t0_writes (t0_udpReaderDone hb (W := OfSocket r.reader.inner.sn) (fun _ h => h) _ rfl) s

/-- SNTP: requests and replies; `setup_socket` also writes the socket interrupt mask register. -/
theorem C123_sntp (hb : Device b) (s : σ) (c : Sntp.Client) (dbg : Bool) (fuel : Nat) :
    OnlyWrites (OfSocket c.sn) (Sntp.request (traceBus b) c (s, [])).2.2 ∧
    OnlyWrites (OfSocket c.sn) (Sntp.onRecvInterrupt dbg (traceBus b) c (s, [])).2.2 ∧
    OnlyWrites (fun a => OfSocket c.sn a ∨ OfCommon 0x18 1 a) (Sntp.setupSocket dbg fuel (traceBus b) c (s, [])).2.2 :=
  ⟨t0_writes (t0_sntpRequest hb c fun _ h => h) s, t0_writes (t0_onRecvInterrupt hb c (fun _ h => h) dbg) s,
    t0_writes (t0_sntpSetup hb c (fun _ h => .inl h) (fun _ h => .inr h) dbg fuel) s⟩

/-- DHCP: `process` also writes the gateway, the subnet mask and the source address; `setup_socket` the socket interrupt mask
register and the source address. -/
theorem C123_dhcp (hb : Device b) (s : σ) (c : Dhcp.Client) (dbg : Bool) (fuel n : Nat) (secs : UInt32) :
    OnlyWrites (fun a => OfSocket c.sn a ∨ OfCommon 0x01 4 a ∨ OfCommon 0x05 4 a ∨ OfCommon 0x0F 4 a)
      (Dhcp.process dbg fuel n (traceBus b) secs ((s, []), c)).2.1.2 ∧
    (Dhcp.process dbg fuel n (traceBus b) secs ((s, []), c)).2.2.sn = c.sn ∧
    OnlyWrites (fun a => OfSocket c.sn a ∨ OfCommon 0x18 1 a ∨ OfCommon 0x0F 4 a) (Dhcp.setupSocket dbg fuel (traceBus b) c (s, [])).2.2 := by
  have h := td_process (W := fun a => OfSocket c.sn a ∨ OfCommon 0x01 4 a ∨ OfCommon 0x05 4 a ∨ OfCommon 0x0F 4 a) hb (fun _ h => .inl h)
    (fun _ h => .inr (.inl h)) (fun _ h => .inr (.inr (.inl h))) (fun _ h => .inr (.inr (.inr h))) dbg fuel n secs
  obtain ⟨_, _, _, _, h4, _⟩ := h ((s, []), c) rfl
  exact ⟨t1_writes h s c rfl, h4, t0_writes (t0_dhcpSetup hb (fun _ h => .inr (.inr h)) c (fun _ h => .inl h) (fun _ h => .inr (.inl h)) dbg fuel) s⟩

/-- MQTT: `process` also writes the socket interrupt mask register, but only when it starts to connect. -/
theorem C123_mqtt_process (hb : Device b) (s : σ) (c : Mqtt.Client) (dbg : Bool) (fuel : Nat) (secs : UInt32) :
    OnlyWrites (fun a => OfSocket c.sn a ∨ c.state = .init ∧ OfCommon 0x18 1 a) (Mqtt.process dbg fuel (traceBus b) secs ((s, []), c)).2.1.2 ∧
    (Mqtt.process dbg fuel (traceBus b) secs ((s, []), c)).2.2.sn = c.sn ∧
    ∀ r, (Mqtt.process dbg fuel (traceBus b) secs ((s, []), c)).1 = .ok (.ok (.publish r)) → r.reader.sn = c.sn := by
  have h := tm_process (W := fun a => OfSocket c.sn a ∨ OfCommon 0x18 1 a) hb (fun _ h => .inl h) (fun _ h => .inr h) dbg fuel secs
  obtain ⟨es, h1, h2, _, h4, h5⟩ := h ((s, []), c) rfl
  refine ⟨?_, h4, fun r hr => h5 _ hr r rfl⟩
  by_cases hi : c.state = .init
  · exact fun a ha hw => (h2 a ((show (Mqtt.process dbg fuel (traceBus b) secs ((s, []), c)).2.1.2 = es from h1) ▸ ha) hw).imp id fun h => ⟨hi, h⟩
  · obtain ⟨es, g1, g2⟩ := tm_connected (W := OfSocket c.sn) hb (fun _ h => h) dbg fuel secs (s, []) c rfl hi
    exact fun a ha hw => .inl (g2 a ((show (Mqtt.process dbg fuel (traceBus b) secs ((s, []), c)).2.1.2 = es from g1) ▸ ha) hw)

/-- MQTT: publishing, subscribing, unsubscribing, and reading published messages. -/
theorem C123_mqtt (hb : Device b) (s : σ) :
    (∀ (c : Mqtt.Client) (t p : Bytes), OnlyWrites (OfSocket c.sn) (Mqtt.publish (traceBus b) t p ((s, []), c)).2.1.2) ∧
    (∀ (c : Mqtt.Client) (dbg : Bool) (f : Bytes), OnlyWrites (OfSocket c.sn) (Mqtt.subscribe dbg (traceBus b) f ((s, []), c)).2.1.2 ∧
      OnlyWrites (OfSocket c.sn) (Mqtt.unsubscribe dbg (traceBus b) f ((s, []), c)).2.1.2) ∧
    (∀ (r : Mqtt.PublishReader) (n : Nat), OnlyWrites (OfSocket r.reader.sn) (Mqtt.onPublish (traceBus b) r (Mqtt.readTopicProg r.info n) (s, [])).2.2 ∧
      OnlyWrites (OfSocket r.reader.sn) (Mqtt.onPublish (traceBus b) r (Mqtt.readPayloadProg r.info n) (s, [])).2.2) ∧
    ∀ (r : Mqtt.PublishReader) (dbg : Bool), OnlyWrites (OfSocket r.reader.sn) (Mqtt.publishDone dbg (traceBus b) r (s, [])).2.2 :=
  ⟨fun c t p => t1_writes (tm_publish hb (fun _ h => h) t p) s c rfl,
    fun c dbg f => ⟨t1_writes (tm_sendFilter hb (fun _ h => h) f _ (wp_subscribeProg dbg f)) s c rfl,
      t1_writes (tm_sendFilter hb (fun _ h => h) f _ (wp_unsubscribeProg dbg f)) s c rfl⟩,
    fun r n => ⟨t0_writes (t0_onPublish hb (fun _ h => h) r rfl _ (rp_readTopicProg _ n)) s,
      t0_writes (t0_onPublish hb (fun _ h => h) r rfl _ (rp_readPayloadProg _ n)) s⟩,
    fun r dbg => t0_writes (t0_publishDone hb (fun _ h => h) dbg r rfl) s⟩

/-! ## C124: a failure of the bus ends a client's call, with that error -/

/-- DNS and multicast DNS. -/
theorem C124_dns (hb : Device b) (s : σ) :
    (∀ (dbg : Bool) (fuel : Nat) (c : Dns.Client) (qs : List (Dns.Qtype × Bytes)),
      Reported (Dns.query dbg fuel (traceBus b) c qs (s, [])).2.2 (Dns.query dbg fuel (traceBus b) c qs (s, [])).1) ∧
    (∀ (fuel : Nat) (c : Dns.MdnsClient) (qs : List (Dns.Qtype × Bytes)),
      Reported (Dns.mdnsQuery fuel (traceBus b) c qs (s, [])).2.2 (Dns.mdnsQuery fuel (traceBus b) c qs (s, [])).1) ∧
    (∀ (dbg : Bool) (fuel : Nat) (sn : Sn) (cap : Nat) (id : Option UInt16),
      Reported (Dns.response dbg fuel (traceBus b) sn cap id (s, [])).2.2 (Dns.response dbg fuel (traceBus b) sn cap id (s, [])).1) ∧
    (∀ (fuel : Nat) (r : Dns.Response),
      Reported (Dns.nextRr fuel (traceBus b) ((s, []), r)).2.1.2 (Dns.nextRr fuel (traceBus b) ((s, []), r)).1) ∧
    ∀ r : Dns.Response, Reported (Dns.responseDone (traceBus b) r (s, [])).2.2 (Dns.responseDone (traceBus b) r (s, [])).1 :=
  ⟨fun dbg fuel c qs => t0_reported (t0_query hb dbg fuel c (fun _ _ => trivial) qs) s,
    fun fuel c qs => t0_reported (t0_mdnsQuery hb fuel c (fun _ _ => trivial) qs) s,
    fun dbg fuel sn cap id => t0_reported (t0_response hb dbg fuel sn (fun _ _ => trivial) cap id) s,
    fun fuel r => t1_reported (t1_nextRr hb fuel r.reader.inner.sn fun _ _ => trivial) s r rfl,
    fun r => t0_reported (t0_udpReaderDone hb (fun _ _ => trivial) r.reader rfl) s⟩

/-- SNTP. -/
theorem C124_sntp (hb : Device b) (s : σ) (c : Sntp.Client) (dbg : Bool) (fuel : Nat) :
    Reported (Sntp.request (traceBus b) c (s, [])).2.2 (Sntp.request (traceBus b) c (s, [])).1 ∧
    Reported (Sntp.onRecvInterrupt dbg (traceBus b) c (s, [])).2.2 (Sntp.onRecvInterrupt dbg (traceBus b) c (s, [])).1 ∧
    Reported (Sntp.setupSocket dbg fuel (traceBus b) c (s, [])).2.2 (Sntp.setupSocket dbg fuel (traceBus b) c (s, [])).1 :=
  ⟨t0_reported (t0_sntpRequest hb c fun _ _ => trivial) s, t0_reported (t0_onRecvInterrupt hb c (fun _ _ => trivial) dbg) s,
    t0_reported (t0_sntpSetup hb c (fun _ _ => trivial) (fun _ _ => trivial) dbg fuel) s⟩

/-- DHCP. -/
theorem C124_dhcp (hb : Device b) (s : σ) (c : Dhcp.Client) (dbg : Bool) (fuel n : Nat) (secs : UInt32) :
    Reported (Dhcp.process dbg fuel n (traceBus b) secs ((s, []), c)).2.1.2 (Dhcp.process dbg fuel n (traceBus b) secs ((s, []), c)).1 ∧
    Reported (Dhcp.setupSocket dbg fuel (traceBus b) c (s, [])).2.2 (Dhcp.setupSocket dbg fuel (traceBus b) c (s, [])).1 :=
  ⟨t1_reported (td_process hb (fun _ _ => trivial) (fun _ _ => trivial) (fun _ _ => trivial) (fun _ _ => trivial) dbg fuel n secs) s c rfl,
    t0_reported (t0_dhcpSetup hb (fun _ _ => trivial) c (fun _ _ => trivial) (fun _ _ => trivial) dbg fuel) s⟩

/-- MQTT. -/
theorem C124_mqtt (hb : Device b) (s : σ) :
    (∀ (c : Mqtt.Client) (dbg : Bool) (fuel : Nat) (secs : UInt32),
      Reported (Mqtt.process dbg fuel (traceBus b) secs ((s, []), c)).2.1.2 (Mqtt.process dbg fuel (traceBus b) secs ((s, []), c)).1) ∧
    (∀ (c : Mqtt.Client) (t p : Bytes),
      Reported (Mqtt.publish (traceBus b) t p ((s, []), c)).2.1.2 (Mqtt.publish (traceBus b) t p ((s, []), c)).1) ∧
    (∀ (c : Mqtt.Client) (dbg : Bool) (f : Bytes),
      Reported (Mqtt.subscribe dbg (traceBus b) f ((s, []), c)).2.1.2 (Mqtt.subscribe dbg (traceBus b) f ((s, []), c)).1 ∧
      Reported (Mqtt.unsubscribe dbg (traceBus b) f ((s, []), c)).2.1.2 (Mqtt.unsubscribe dbg (traceBus b) f ((s, []), c)).1) ∧
    (∀ (r : Mqtt.PublishReader) (n : Nat),
      Reported (Mqtt.onPublish (traceBus b) r (Mqtt.readTopicProg r.info n) (s, [])).2.2
        (Mqtt.onPublish (traceBus b) r (Mqtt.readTopicProg r.info n) (s, [])).1 ∧
      Reported (Mqtt.onPublish (traceBus b) r (Mqtt.readPayloadProg r.info n) (s, [])).2.2
        (Mqtt.onPublish (traceBus b) r (Mqtt.readPayloadProg r.info n) (s, [])).1) ∧
    ∀ (r : Mqtt.PublishReader) (dbg : Bool),
      Reported (Mqtt.publishDone dbg (traceBus b) r (s, [])).2.2 (Mqtt.publishDone dbg (traceBus b) r (s, [])).1 :=
  ⟨fun c dbg fuel secs => t1_reported (tm_process hb (fun _ _ => trivial) (fun _ _ => trivial) dbg fuel secs) s c rfl,
    fun c t p => t1_reported (tm_publish hb (fun _ _ => trivial) t p) s c rfl,
    fun c dbg f => ⟨t1_reported (tm_sendFilter hb (fun _ _ => trivial) f _ (wp_subscribeProg dbg f)) s c rfl,
      t1_reported (tm_sendFilter hb (fun _ _ => trivial) f _ (wp_unsubscribeProg dbg f)) s c rfl⟩,
    fun r n => ⟨t0_reported (t0_onPublish hb (fun _ _ => trivial) r rfl _ (rp_readTopicProg _ n)) s,
      t0_reported (t0_onPublish hb (fun _ _ => trivial) r rfl _ (rp_readPayloadProg _ n)) s⟩,
    fun r dbg => t0_reported (t0_publishDone hb (fun _ _ => trivial) dbg r rfl) s⟩

/-! ## Cases -/

example : Device scriptBus := device_script

/-- A request of an SNTP client on a device with 2048 bytes free in its transmit buffer: four accesses, three of them writes. -/
example : (Sntp.request (traceBus scriptBus) ⟨.sn3, 123, ⟨⟨10, 0, 0, 1⟩, 123⟩⟩ ([some [8, 0, 0, 0, 0, 0]], [])).2.2.map
    (fun a => (a.write, a.block, a.addr, a.len, a.failed)) =
    [(false, 13, 0x20, 6, none), (true, 14, 0, 48, none), (true, 13, 0x24, 2, none), (true, 13, 1, 1, none)] := by decide +kernel

/-- The same when the write to the transmit buffer fails: nothing more is accessed, and the error is the result. -/
example : let r := Sntp.request (traceBus scriptBus) ⟨.sn3, 123, ⟨⟨10, 0, 0, 1⟩, 123⟩⟩ ([some [8, 0, 0, 0, 0, 0], none], [])
    r.2.2.map (fun a => (a.write, a.block, a.addr, a.len, a.failed)) = [(false, 13, 0x20, 6, none), (true, 14, 0, 48, some (.bus 0))] ∧
    r.1 = .error (.bus 0) := by decide +kernel

/-- A step of a DHCP client whose link is down: the interrupts, and the state of the link. -/
example : let r := Dhcp.process false 5 5 (traceBus scriptBus) 7 (([some [0xFF], some [0]], []), Dhcp.Client.new .sn2 9 ⟨2, 0, 0, 0, 0, 1⟩ [104])
    r.2.1.2.map (fun a => (a.write, a.block, a.addr, a.len, a.failed)) = [(false, 9, 2, 1, none), (true, 9, 2, 1, none), (false, 0, 0x2E, 1, none)] ∧
    r.1 = .ok 1 := by decide +kernel

/-- A connecting MQTT client writes the socket interrupt mask register, and stops at the first failure. -/
example : let r := Mqtt.process false 5 (traceBus scriptBus) 7 (([some [1], none], []), Mqtt.Client.new .sn1 50000 ⟨⟨10, 0, 0, 1⟩, 1883⟩)
    r.2.1.2.map (fun a => (a.write, a.block, a.addr, a.len, a.failed)) = [(false, 0, 0x18, 1, none), (true, 0, 0x18, 1, some (.bus 0))] := by
  decide +kernel

end Verif.Thm

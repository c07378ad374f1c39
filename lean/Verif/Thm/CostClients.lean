import Verif.Proof.CostMqtt
import Verif.Thm.Cost
/-!
# C129: calls of the SNTP and MQTT clients end after a fixed number of accesses

`accesses`, `notStatus` and `inDebug` are in `Spec/Cost.lean`.  For a client with a state, the accesses of a call are `(call ((s, []), c)).2.1.2`.
-/
namespace Verif.Thm
open Hl
open _root_.Verif.Spec (Access traceBus accesses notStatus inDebug)

section
variable {σ α : Type} {b : Bus σ}

theorem CM.length {C : Type} {n : Nat} {m : M ((σ × List Access) × C) α} (h : CM (fun _ => true) n m) (s : σ) (c : C) : (m ((s, []), c)).2.1.2.length ≤ n := by
  have : (m ((s, []), c)).2.1.2.countP (fun _ => true) ≤ ([] : List Access).countP (fun _ => true) + n := h ((s, []), c)
  rw [List.countP_true] at this
  exact Nat.le_trans this (by simp)

theorem CM.others {C : Type} {p : Access → Bool} {n : Nat} {m : M ((σ × List Access) × C) α} (h : CM p n m) (s : σ) (c : C) :
    ((m ((s, []), c)).2.1.2.filter p).length ≤ n := by
  have := h ((s, []), c)
  rw [← List.countP_eq_length_filter]
  exact Nat.le_trans this (by simp)

theorem cost_clearIr {p : Access → Bool} (sn : Sn) : Cost p 2 (Sntp.clearIr (traceBus b) sn) :=
  .mono (n := 1 + max 1 0) (.bind (cost_snIr _) fun _ => .ite (cost_setSnIr _ _) (.pure _)) (by decide)

theorem cost_replyOf {p : Access → Bool} (buf : Bytes) : Cost (σ := σ) p 0 (Sntp.replyOf buf) := by
  unfold Sntp.replyOf
  split
  · exact .pure _
  · exact .throw _

theorem cost_onDatagram {p : Access → Bool} (c : Sntp.Client) (u : UdpReader) : Cost p 3 (Sntp.onDatagram (traceBus b) c u) := by
  have h1 : Cost p 3 (udpReaderDone (traceBus b) u >>= fun _ => (M.throw .wouldBlock : M _ Sntp.Reply)) :=
    .mono (n := 2 + 0) (.bind (cost_udpReaderDone _) fun _ => .throw _) (by decide)
  have h2 : Cost p 3 (onUdpReader (traceBus b) u (.doReadExact 48) >>= fun x => udpReaderDone (traceBus b) x.2 >>= fun _ => Sntp.replyOf x.1) :=
    .mono (n := 1 + (2 + 0)) (.bind (cost_onUdpReader _ (.doReadExact _)) fun _ => .bind (cost_udpReaderDone _) fun _ => cost_replyOf _) (by decide)
  unfold Sntp.onDatagram
  split
  · exact h1
  · exact h2

theorem cost_tcpConnect {p : Access → Bool} (dbg : Bool) (fuel : Nat) (sn : Sn) (port : UInt16) (addr : SockAddr)
    (h : ∀ e, p ⟨false, sn.block, SnReg.SR.addr, 1, e⟩ = false) :
    Cost p (6 + inDebug dbg 14) (tcpConnect dbg fuel (traceBus b) sn port addr) := by
  apply Cost.mono
  · unfold tcpConnect
    cost_tac [cost_debugAssert _ (cost_portIsUnique _), cost_setSnCr _, cost_setSnMr _, cost_setSnPort _, cost_setSnDest _, cost_waitStatus _ h _]
  · cases dbg <;> decide
theorem cost_udpBind {p : Access → Bool} (dbg : Bool) (fuel : Nat) (sn : Sn) (port : UInt16)
    (h : ∀ e, p ⟨false, sn.block, SnReg.SR.addr, 1, e⟩ = false) : Cost p (4 + inDebug dbg 14) (udpBind dbg fuel (traceBus b) sn port) := by
  apply Cost.mono
  · unfold udpBind
    cost_tac [cost_debugAssert _ (cost_portIsUnique _), cost_setSnCr _, cost_setSnMr _, cost_setSnPort _, cost_waitStatus _ h _]
  · cases dbg <;> decide

/-- **C129, SNTP** Whatever the device answers.  Setting up the socket polls the status register; there are at most nine other accesses. -/
theorem C129_sntp (b : Bus σ) (dbg : Bool) (fuel : Nat) (c : Sntp.Client) (s : σ) :
    (accesses (Sntp.request (traceBus b) c) s).length ≤ 4 ∧
    (accesses (Sntp.onRecvInterrupt dbg (traceBus b) c) s).length ≤ 8 + inDebug dbg 1 ∧
    ((accesses (Sntp.setupSocket dbg fuel (traceBus b) c) s).filter (notStatus c.sn)).length ≤ 9 + inDebug dbg 14 := by
  refine ⟨Cost.accesses ?_ s, Cost.accesses ?_ s, Cost.others ?_ s⟩
  · exact .bind (n := 1) (k := 3) (cost_socketWriter _) fun _ => .bind (n := 1) (k := 2) (cost_onWriter _ (.doWriteAll _)) fun _ => cost_writerSend _
  · refine .mono (n := 2 + ((3 + if dbg then 1 else 0) + 3)) ?_ (by cases dbg <;> decide)
    exact .bind (cost_clearIr _) fun _ => .bind (cost_udpReader _ _) fun _ => cost_onDatagram _ _
  · refine .mono (n := 1 + (1 + (1 + (1 + ((4 + inDebug dbg 14) + 1))))) ?_ (by cases dbg <;> decide)
    exact .bind cost_simr fun _ => .bind (cost_setSimr _) fun _ => .bind (cost_setSnImr _ _) fun _ => .bind (cost_setSnCr _) fun _ =>
      .bind (cost_udpBind _ _ _ _ (status_not _)) fun _ => cost_setSnDest _

/-- **C129, MQTT `process`** Once the client has opened its socket, a call makes at most nine accesses, whatever the server sends and in every state;
the call that opens the socket polls the status register and makes at most nine other accesses. -/
theorem C129_mqtt_process (b : Bus σ) (dbg : Bool) (fuel : Nat) (secs : UInt32) (c : Mqtt.Client) (s : σ) :
    (c.state ≠ .init → (Mqtt.process dbg fuel (traceBus b) secs ((s, []), c)).2.1.2.length ≤ 9 + inDebug dbg 1) ∧
    (c.state = .init → ((Mqtt.process dbg fuel (traceBus b) secs ((s, []), c)).2.1.2.filter (notStatus c.sn)).length ≤ 9 + inDebug dbg 14) := by
  constructor
  · intro h
    unfold Mqtt.process
    rw [M.bind_run]
    show ((if c.state = .init then _ else _ : M ((σ × List Access) × Mqtt.Client) _) ((s, []), c)).2.1.2.length ≤ _
    rw [if_neg h]
    exact (cm_opened dbg secs c.sn).length s c
  · intro h
    unfold Mqtt.process
    rw [M.bind_run]
    show (((if c.state = .init then _ else _ : M ((σ × List Access) × Mqtt.Client) _) ((s, []), c)).2.1.2.filter _).length ≤ _
    rw [if_pos h]
    have key : Mqtt.tcpConnectMqtt dbg fuel (traceBus b) secs ((s, []), c) =
      (Mqtt.onBus (traceBus b).simr >>= fun simr => Mqtt.onBus ((traceBus b).setSimr (c.sn.bitmask ||| simr)) >>= fun _ =>
        Mqtt.onBus ((traceBus b).setSnImr c.sn SocketInterruptMask.default.maskSendok) >>= fun _ =>
        Mqtt.onBus (tcpConnect dbg fuel (traceBus b) c.sn c.srcPort c.server) >>= fun _ =>
        Mqtt.modC (Mqtt.Client.setStateWithTimeout .waitConInt secs) >>= fun _ => pure Mqtt.timeoutSecs) ((s, []), c) := rfl
    rw [M.bind_run, key, ← M.bind_run]
    have hm : 1 + (1 + (1 + ((6 + inDebug dbg 14) + (0 + 0)))) + 0 ≤ 9 + inDebug dbg 14 := by cases dbg <;> decide
    refine Nat.le_trans (CM.others ?_ s c) hm
    exact .bind (.bind (.onBus cost_simr) fun _ => .bind (.onBus (cost_setSimr _)) fun _ => .bind (.onBus (cost_setSnImr _ _)) fun _ =>
      .bind (.onBus (cost_tcpConnect _ _ _ _ _ (status_not _))) fun _ => .bind (.modC _) fun _ => .pure _) fun _ => .pure _

theorem cm_sendFilter {p : Access → Bool} {n : Nat} (f : Bytes) {prog : UInt16 → WProg Unit} (h : ∀ i, WC (prog i) n) :
    CM p (3 + n) (Mqtt.sendFilter (traceBus b) f prog) := by
  refine .mono (n := 0 + (1 + (0 + (0 + (n + 2 + 0))))) ?_ (by omega)
  refine .bind .getC fun c => .ite (.bind (.onBus (cost_socketWriter _)) fun r => .bind (.modC _) fun _ => .bind .getC fun c' =>
    .ite (.pure _) (.bind (.onBus (cost_mapW5500 (cost_sendPacket _ (h _)))) fun _ => .pure _)) (.pure _)

theorem cost_onPublish {p : Access → Bool} {n : Nat} (r : Mqtt.PublishReader) {prog : RProg α} (h : RC prog n) :
    Cost p n (Mqtt.onPublish (traceBus b) r prog) := fun t => by
  have := cost_mapW5500 (cost_onTcpReader (b := b) (p := p) r.reader h) t
  unfold Mqtt.onPublish
  rcases e : Mqtt.mapW5500 (onTcpReader (traceBus b) r.reader prog) t with ⟨e' | a, t'⟩ <;> rw [e] at this
  · exact this
  · cases a <;> exact this

/-- **C129, MQTT** Publishing, subscribing, unsubscribing, and reading published messages: the number does not grow with the data. -/
theorem C129_mqtt (b : Bus σ) (dbg : Bool) (c : Mqtt.Client) (r : Mqtt.PublishReader) (topic payload filter : Bytes) (n : Nat) (s : σ) :
    (Mqtt.publish (traceBus b) topic payload ((s, []), c)).2.1.2.length ≤ 9 ∧
    (Mqtt.subscribe dbg (traceBus b) filter ((s, []), c)).2.1.2.length ≤ 9 ∧
    (Mqtt.unsubscribe dbg (traceBus b) filter ((s, []), c)).2.1.2.length ≤ 8 ∧
    (accesses (Mqtt.onPublish (traceBus b) r (Mqtt.readTopicProg r.info n)) s).length ≤ 1 ∧
    (accesses (Mqtt.onPublish (traceBus b) r (Mqtt.readPayloadProg r.info n)) s).length ≤ 1 ∧
    (accesses (Mqtt.publishDone dbg (traceBus b) r) s).length ≤ 2 := by
  refine ⟨CM.length ?_ s c, (cm_sendFilter _ (wc_subscribe _ _)).length s c, (cm_sendFilter _ (wc_unsubscribe _ _)).length s c, Cost.accesses ?_ s,
    Cost.accesses ?_ s, Cost.accesses ?_ s⟩
  · exact .bind (n := 0) (k := 9) .getC fun c => .ite (.bind (n := 1) (k := 8) (.onBus (cost_socketWriter _)) fun _ =>
      .onBus (cost_mapW5500 (cost_sendPacket _ (wc_publish _ _)))) (.pure _)
  · exact cost_onPublish _ (.bind (n := 0) (k := 1) (fun _ => .doReadExact _) _ (.doSeek _))
  · exact cost_onPublish _ (.bind (n := 0) (k := 1) (fun _ => .doReadExact _) _ (.doSeek _))
  · refine .bind (n := 0) (k := 2) (cost_onPublish _ ?_) fun x => ?_
    · unfold Mqtt.publishDoneProg
      split
      · trivial
      · exact .doSeek _
    · split
      · exact .mono (n := 0) (.pure _) (by decide)
      · exact .bind (n := 2) (k := 0) (cost_tcpReaderDone _) fun _ => .pure _
end

/-! ## The numbers are reached -/

/-- Publishing. -/
example : (Mqtt.publish (traceBus (fillBus 0x17)) [0x61] [1, 2, 3] (((), []), { Mqtt.Client.new .sn3 33650 ⟨⟨10, 0, 0, 1⟩, 1883⟩ with state := .ready })).2.1.2.length = 9 := by
  decide +kernel
example : (Mqtt.subscribe false (traceBus (fillBus 0x17)) [0x61] (((), []), { Mqtt.Client.new .sn3 33650 ⟨⟨10, 0, 0, 1⟩, 1883⟩ with state := .ready })).2.1.2.length = 9 := by
  decide +kernel
example : (Mqtt.unsubscribe false (traceBus (fillBus 0x17)) [0x61] (((), []), { Mqtt.Client.new .sn3 33650 ⟨⟨10, 0, 0, 1⟩, 1883⟩ with state := .ready })).2.1.2.length = 8 := by
  decide +kernel
/-- A device that has received a SUBACK on socket 3: every register holds 4, and a read of five octets gives the start of the packet. -/
def subAckBus : Bus Unit where
  read _ blk n := fun s => (.ok (Vector.ofFn fun i => if n = 5 then [0x90, 4, 0, 1, 0].getD i 0 else if blk = 15 then 0 else 4), s)
  write _ _ _ := fun s => (.ok (), s)
/-- Nine accesses; and a call that connects, with a chip that closes the socket and never opens it: eight accesses and four reads of the status. -/
example : (Mqtt.process false 3 (traceBus subAckBus) 0 (((), []), { Mqtt.Client.new .sn3 33650 ⟨⟨10, 0, 0, 1⟩, 1883⟩ with state := .ready })).2.1.2.length = 9 := by
  decide +kernel
example : (Mqtt.process false 3 (traceBus (fillBus 0)) 0 (((), []), Mqtt.Client.new .sn3 33650 ⟨⟨10, 0, 0, 1⟩, 1883⟩)).2.1.2.length = 12 ∧
    ((Mqtt.process false 3 (traceBus (fillBus 0)) 0 (((), []), Mqtt.Client.new .sn3 33650 ⟨⟨10, 0, 0, 1⟩, 1883⟩)).2.1.2.filter (notStatus .sn3)).length = 8 := by
  decide +kernel
/-- An SNTP request, and a datagram of somebody else. -/
example : (accesses (Sntp.request (traceBus (fillBus 0x40)) ⟨.sn5, 123, ⟨⟨10, 0, 0, 1⟩, 123⟩⟩) ()).length = 4 ∧
    (accesses (Sntp.onRecvInterrupt false (traceBus (fillBus 0x40)) ⟨.sn5, 123, ⟨⟨10, 0, 0, 1⟩, 123⟩⟩) ()).length = 6 := by decide +kernel

end Verif.Thm

import Verif.Thm.HlOpen
import Verif.Thm.Simr
import Verif.Thm.TlsAlerts
import Verif.Proof.MqttRun
import Verif.Proof.PeaceClosed
/-!
# C96: the clients connect to the server that they were made for
-/
namespace Verif.Thm
open Verif Hl
open _root_.Verif.Spec (World worldBus Chip Mem EnvStep RxState TxState Sizes)

/-- The registers from 0x12 on that only the driver writes: buffer sizes, interrupt mask and others. -/
def KeepsHigh (k : Nat) {α : Type} (m : M World α) : Prop :=
  ∀ w a, ConfigReg a → 0x12 ≤ a → (m w).2.chip.mem (4 * k + 1) a = w.chip.mem (4 * k + 1) a

theorem KeepsHigh.bind {k : Nat} {α β : Type} {m : M World α} {f : α → M World β} (hm : KeepsHigh k m)
    (hf : ∀ a, KeepsHigh k (f a)) : KeepsHigh k (m >>= f) := by
  intro w a h1 h2
  rw [M.bind_run]
  have := hm w a h1 h2
  rcases e : m w with ⟨e | y, w'⟩
  · rw [e] at this; exact this
  · rw [e] at this; exact (hf y w' a h1 h2).trans this

theorem KeepsConfig.high {k : Nat} {α : Type} {m : M World α} (h : KeepsConfig k m) : KeepsHigh k m := fun w a h1 _ => h w a h1

theorem tcpConnect_high (dbg : Bool) (fuel : Nat) (sn : Sn) (port : UInt16) (addr : SockAddr) :
    KeepsHigh sn.idx (tcpConnect dbg fuel worldBus sn port addr) := by
  unfold tcpConnect
  refine .bind (KeepsConfig.high ((readOnly_debugAssert dbg (readOnly_portIsUnique sn port)).keepsConfig _)) fun _ =>
    .bind (KeepsConfig.high (keepsConfig_cmd sn .close)) fun _ => .bind (KeepsConfig.high ((readOnly_waitStatus _ _ _).keepsConfig _)) fun _ =>
    .bind ?_ fun _ => .bind ?_ fun _ => .bind (KeepsConfig.high (keepsConfig_cmd sn .«open»)) fun _ => .bind ?_ fun _ =>
    .bind (KeepsConfig.high ((readOnly_waitStatus _ _ _).keepsConfig _)) fun _ => KeepsConfig.high (keepsConfig_cmd sn .connect)
  · intro w a h1 h2
    rw [run_setSnMr]
    refine Eq.trans ?_ (tick_config w _ a h1)
    show (w.tick.chip.mem.store _ _ _) _ _ = _
    unfold Mem.store
    rw [if_neg (by omega)]
  · intro w a h1 h2
    rw [run_setSnPort]
    exact (Mem.setWord_ne _ _ _ _ _ _ (by omega)).trans (tick_config w _ a h1)
  · intro w a h1 h2
    rw [run_setSnDest]
    exact (setDest_same _ _ _ _ _ (by omega)).trans (tick_config w _ a h1)

theorem run_setSnImr (sn : Sn) (v : SocketInterruptMask) (w : World) :
    worldBus.setSnImr sn v w = (.ok (), { w.tick with chip := { w.tick.chip with mem := w.tick.chip.mem.store (4 * sn.idx + 1) 0x2C v.raw } }) := by
  unfold Bus.setSnImr
  rw [worldBus_write, Sn.block_idx, show SnReg.IMR.addr.toNat = 0x2C from rfl]
  simp only [Chip.writeBytes]
  rw [writeByte_plain _ _ _ _ (by omega) (by omega) rfl]

theorem run_setSnRxbufSize (sn : Sn) (v : BufferSize) (w : World) :
    worldBus.setSnRxbufSize sn v w = (.ok (), { w.tick with chip := { w.tick.chip with mem := w.tick.chip.mem.store (4 * sn.idx + 1) 0x1E v.code } }) := by
  unfold Bus.setSnRxbufSize
  rw [worldBus_write, Sn.block_idx, show SnReg.RXBUF_SIZE.addr.toNat = 0x1E from rfl]
  simp only [Chip.writeBytes]
  rw [writeByte_plain _ _ _ _ (by omega) (by omega) rfl]

theorem run_simr (w : World) : worldBus.simr w = (.ok (simrOf w), w.tick) := by
  have e1 : worldBus.simr w = (.ok (simrOf w.tick), w.tick) := rfl
  rw [e1, tick_simr]

theorem run_setSimr (v : UInt8) (w : World) :
    worldBus.setSimr v w = (.ok (), { w.tick with chip := { w.tick.chip with mem := w.tick.chip.mem.store 0 0x18 v } }) := rfl

/-- The socket tries to connect from `port` to `server`: it is a TCP socket that has sent SYN, its interrupts and those of `mask` are enabled, beside
those of other sockets that were enabled in `c0`, nothing has been received, and all of the transmit buffer is free. -/
structure Connecting (c0 c : Chip) (k : Nat) (port : UInt16) (server : SockAddr) (mask : UInt8) : Prop where
  regs : Configured c k (.connect port server)
  status : c.status k = 0x15
  mask : c.mem (4 * k + 1) 0x2C = mask
  enabled : ∀ j, (c.mem 0 0x18).toNat.testBit j = (decide (j = k) || (c0.mem 0 0x18).toNat.testBit j)
  rx : RxState c k 0
  tx : TxState c k
  free : c.txFsr k = c.txSize k

theorem bitmask_or (sn : Sn) (v : UInt8) (j : Nat) : (sn.bitmask ||| v).toNat.testBit j = (decide (j = sn.idx) || v.toNat.testBit j) := by
  rw [UInt8.toNat_or, Nat.testBit_or, C76_bitmask, show sn.toU8.toNat = sn.idx from rfl, Nat.testBit_two_pow]
  congr 1
  exact decide_eq_decide.mpr eq_comm

theorem store_mem0 (m : Mem) (k a v) : (m.store (4 * k + 1) a v) 0 0x18 = m 0 0x18 := by
  unfold Mem.store
  rw [if_neg (by omega)]

/-- Enabling the interrupts of the socket and connecting. -/
theorem connect_run (dbg : Bool) (fuel : Nat) (sn : Sn) (port : UInt16) (server : SockAddr) (mask : SocketInterruptMask) (w : World)
    (hf : 1 ≤ fuel) (h : Steady sn.idx w) (hs : Sizes w.chip sn.idx) :
    ∃ w1 w2, worldBus.setSimr (sn.bitmask ||| simrOf w) w.tick = (.ok (), w1) ∧ worldBus.setSnImr sn mask w1 = (.ok (), w2) ∧
      ((∃ w', dbg = true ∧ tcpConnect dbg fuel worldBus sn port server w2 = (.error .panic, w')) ∨
      (∃ w', tcpConnect dbg fuel worldBus sn port server w2 = (.ok (), w') ∧ Connecting w.chip w'.chip sn.idx port server mask.raw ∧ w'.chip.rxSize sn.idx = w.chip.rxSize sn.idx ∧
        Steady sn.idx w' ∧ (Peace sn.idx w → Peace sn.idx w') ∧ w'.chip.sent = w.chip.sent)) := by
  refine ⟨_, _, run_setSimr _ _, run_setSnImr _ _ _, ?_⟩
  generalize h1 : ({ w.tick.tick with chip := { w.tick.tick.chip with mem := w.tick.tick.chip.mem.store 0 0x18 (sn.bitmask ||| simrOf w) } } : World) = w1
  have s1 : Steady sn.idx w1 := by rw [← h1]; exact h.tick.1.tick.1
  have m1 : simrOf w1 = sn.bitmask ||| simrOf w := by rw [← h1]; simp [simrOf, Mem.store]
  have z1 : ∀ a, ConfigReg a → w1.chip.mem (4 * sn.idx + 1) a = w.chip.mem (4 * sn.idx + 1) a := by
    intro a ha
    rw [← tick_config w _ a ha, ← tick_config w.tick _ a ha, ← h1]
    simp [Mem.store]
  generalize h2 : ({ w1.tick with chip := { w1.tick.chip with mem := w1.tick.chip.mem.store (4 * sn.idx + 1) 0x2C mask.raw } } : World) = w2
  have s2 : Steady sn.idx w2 := by rw [← h2]; exact s1.tick.1
  have m2 : simrOf w2 = sn.bitmask ||| simrOf w := by
    rw [← m1, ← tick_simr w1, ← h2]
    exact store_mem0 w1.tick.chip.mem sn.idx 0x2C mask.raw
  have i2 : w2.chip.mem (4 * sn.idx + 1) 0x2C = mask.raw := by rw [← h2]; simp [Mem.store]
  have z2 : ∀ a, ConfigReg a → a < 0x20 → w2.chip.mem (4 * sn.idx + 1) a = w.chip.mem (4 * sn.idx + 1) a := by
    intro a ha hlt
    rw [← z1 a ha, ← tick_config w1 _ a ha, ← h2]
    show (w1.tick.chip.mem.store _ _ _) _ _ = _
    unfold Mem.store
    rw [if_neg (by omega)]
  have r2 : w2.chip.rxSize sn.idx = w.chip.rxSize sn.idx := by unfold Chip.rxSize; rw [z2 _ (.inr (.inl (by omega))) (by omega)]
  have t2 : w2.chip.txSize sn.idx = w.chip.txSize sn.idx := by unfold Chip.txSize; rw [z2 _ (.inr (.inl (by omega))) (by omega)]
  have n2 : w2.chip.sent = w.chip.sent := by
    rw [← tick_sent w, ← tick_sent w.tick, show w.tick.tick.chip.sent = w1.chip.sent by rw [← h1], ← tick_sent w1, ← h2]
  rcases C95_opens dbg fuel sn (.connect port server) w2 hf s2 with ⟨hd, e⟩ | ⟨w', e, hst, hsy⟩
  · exact .inl ⟨_, hd, Prod.ext e rfl⟩
  · right
    have hr := C12_open_establishes dbg fuel sn (.connect port server) w2 w' (r2 ▸ hs.rx_dvd) (r2 ▸ hs.rx_lt) (t2 ▸ hs.tx_dvd) (t2 ▸ hs.tx_lt) e
    have e' : tcpConnect dbg fuel worldBus sn port server w2 = (.ok (), w') := e
    have hh := tcpConnect_high dbg fuel sn port server w2
    have hm := closed_tcpConnect (closedSimr sn) dbg fuel port server w2
    have hfr := tcpConnect_fresh ⟨r2 ▸ hs.rx_dvd, r2 ▸ hs.rx_lt, t2 ▸ hs.tx_dvd, t2 ▸ hs.tx_lt⟩ e'
    have hse := keepsSent_tcpConnect dbg fuel sn port server w2
    rw [e'] at hh hm hse
    refine ⟨w', e', ⟨C95_configured dbg fuel sn _ w2 w' e, hst, (hh 0x2C (.inr (.inr (by omega))) (by omega)).trans i2, ?_, hr.1, hr.2, hfr.free.trans hfr.size.symm⟩, ?_, hsy, ?_, hse.trans n2⟩
    · intro j
      show (simrOf w').toNat.testBit j = _
      rw [hm, m2]
      exact bitmask_or sn _ j
    · rw [← r2]
      unfold Chip.rxSize
      rw [hh 0x1E (.inr (.inl (by omega))) (by omega)]
    · intro hp
      have a1 : Peace sn.idx w1 := by rw [← h1]; exact hp.tick.write 0x18 0 [sn.bitmask ||| simrOf w]
      have a2 : Peace sn.idx w2 := by
        have := a1.write SnReg.IMR.addr sn.block [mask.raw]
        rw [show worldBus.write SnReg.IMR.addr sn.block [mask.raw] w1 = _ from run_setSnImr sn mask w1] at this
        rw [← h2]; exact this
      have := closed_tcpConnect (closedPeace sn sn.idx) dbg fuel port server w2 a2
      rw [e'] at this
      exact this

/-- The first call of `process`. -/
theorem mqtt_connect_run (dbg : Bool) (fuel : Nat) (secs : UInt32) (w : World) (c : Mqtt.Client) (hc : c.state = .init) (hf : 1 ≤ fuel)
    (h : Steady c.sn.toU8.toNat w) (hs : Sizes w.chip c.sn.toU8.toNat) :
    let r := Mqtt.process dbg fuel worldBus secs (w, c)
    (dbg = true ∧ r.1 = .error .panic) ∨
    (r.1 = .ok (.ok (.callAfter 10)) ∧ r.2.2 = { c with state := .waitConInt, timeout := some secs } ∧
      Connecting w.chip r.2.1.chip c.sn.toU8.toNat c.srcPort c.server 0xEF ∧
      r.2.1.chip.rxSize c.sn.toU8.toNat = w.chip.rxSize c.sn.toU8.toNat ∧ (Peace c.sn.toU8.toNat w → Peace c.sn.toU8.toNat r.2.1) ∧ r.2.1.chip.sent = w.chip.sent) := by
  intro r
  obtain ⟨w1, w2, e1, e2, e3⟩ := connect_run dbg fuel c.sn c.srcPort c.server SocketInterruptMask.default.maskSendok w hf h hs
  have hr : r = (Mqtt.onBus (tcpConnect dbg fuel worldBus c.sn c.srcPort c.server) >>= fun _ =>
      Mqtt.modC (Mqtt.Client.setStateWithTimeout .waitConInt secs) >>= fun _ => pure (Except.ok (Mqtt.Event.callAfter Mqtt.timeoutSecs))) (w2, c) := by
    show Mqtt.process dbg fuel worldBus secs (w, c) = _
    unfold Mqtt.process
    rw [M.bind_ok (show Mqtt.getC (w, c) = (.ok c, (w, c)) from rfl), if_pos hc]
    unfold Mqtt.tcpConnectMqtt
    rw [M.bind_run, M.bind_ok (show Mqtt.getC (w, c) = (.ok c, (w, c)) from rfl), M.bind_ok (Mqtt.onBus_ok (run_simr w)), M.bind_ok (Mqtt.onBus_ok e1),
      M.bind_ok (Mqtt.onBus_ok e2), ← M.bind_run]
    simp only [bind_assoc, pure_bind]
  rcases e3 with ⟨w', hd, e⟩ | ⟨w', e, hcon, hrs, -, hpe, hse⟩
  · left
    refine ⟨hd, ?_⟩
    rw [hr, M.bind_error (Mqtt.onBus_error e)]
  · right
    rw [hr, M.bind_ok (Mqtt.onBus_ok e)]
    exact ⟨rfl, rfl, hcon, hrs, hpe, hse⟩

/-- C96, MQTT: the first call of `process` (and the first after an error that re-initialises the client) makes the socket connect to the broker, from the source
port of the client, with all interrupts but SENDOK enabled, and asks to be called again within ten seconds.  Nothing but the driver changes the status
of the socket meanwhile; in a debug build the call panics if the source port is in use. -/
theorem C96_mqtt (dbg : Bool) (fuel : Nat) (secs : UInt32) (w : World) (c : Mqtt.Client) (hc : c.state = .init) (hf : 1 ≤ fuel)
    (h : Steady c.sn.toU8.toNat w) (hs : Sizes w.chip c.sn.toU8.toNat) :
    let r := Mqtt.process dbg fuel worldBus secs (w, c)
    (dbg = true ∧ r.1 = .error .panic) ∨
    (r.1 = .ok (.ok (.callAfter 10)) ∧ r.2.2 = { c with state := .waitConInt, timeout := some secs } ∧
      Connecting w.chip r.2.1.chip c.sn.toU8.toNat c.srcPort c.server 0xEF) := by
  intro r
  exact (mqtt_connect_run dbg fuel secs w c hc hf h hs).imp id fun h => ⟨h.1, h.2.1, h.2.2.1⟩

/-- C96 is not vacuous: a chip after reset. -/
example : let c : Mqtt.Client := { Mqtt.Client.new .sn3 4000 ⟨⟨10, 0, 0, 1⟩, 1883⟩ with state := .init }
    let r := Mqtt.process false 1 worldBus 7 ({ sampleWorld with sched := [] }, c)
    r.1 = .ok (.ok (.callAfter 10)) ∧ Connecting sampleWorld.chip r.2.1.chip 3 4000 ⟨⟨10, 0, 0, 1⟩, 1883⟩ 0xEF := by
  intro c r
  have := (C96_mqtt false 1 7 { sampleWorld with sched := [] } c rfl (by decide) nofun (by constructor <;> decide +kernel)).resolve_left (fun h => absurd h.1 (by decide))
  exact ⟨this.1, this.2.2⟩

end Verif.Thm

namespace Verif.Tls
open Verif Hl
open _root_.Verif.Spec (World worldBus Chip Mem RxState TxState Sizes)

variable {x : Crypto}

/-- Without a connection, disconnection or timeout being reported, the interrupts are cleared (if any is raised) and the state of the client decides. -/
theorem process_onState (dbg : Bool) (fuel : Nat) (rng : Rng x) (secs : UInt32) (w : World) (c : Client x) (hi : Quiet w c) (hst : c.state ≠ .waitAlertSendOk) :
    ∃ w1, process dbg fuel worldBus rng secs (w, c) = onState dbg fuel worldBus secs (w1, c) ∧
      (w1 = w.tick ∨ worldBus.setSnIr c.sn (w.tick.chip.mem (4 * c.sn.idx + 1) 2) w.tick = (.ok (), w1)) := by
  obtain ⟨h1, h2, h3⟩ := ir_quiet _ hi
  unfold process
  rw [X.bind_ok (getC_run (w, c)), X.bind_ok (X.attempt_ok (onBus_ok' (Mqtt.run_snIr c.sn w) c))]
  dsimp only
  by_cases hany : (⟨w.tick.chip.mem (4 * c.sn.idx + 1) 2⟩ : SocketInterrupt).anyRaised = true
  · rw [if_pos hany]
    unfold onInterrupts
    rw [X.bind_ok (getC_run (w.tick, c)), X.bind_ok (orFatal_ok (onBus_ok' (run_setSnIr c.sn _ w.tick) c)), if_neg (by rw [h1]; decide)]
    unfold onInterrupt
    rw [X.bind_ok (getC_run _), if_neg (by rw [h2]; decide), if_neg (by rw [h3]; decide), if_neg (fun h => hst h.2)]
    exact ⟨_, rfl, .inr (run_setSnIr c.sn _ w.tick)⟩
  · rw [if_neg hany]
    exact ⟨w.tick, rfl, .inl rfl⟩

/-- The size of the socket buffer for a client whose buffer has `n` bytes. -/
theorem rxBufferSize_bytes (c : Client x) (h : c.rx.n ∈ [1024, 2048, 4096, 8192, 16384]) : 1024 * c.rxBufferSize.code.toNat = c.rx.n := by
  simp only [List.mem_cons, List.not_mem_nil, or_false] at h
  unfold Client.rxBufferSize
  rcases h with h | h | h | h | h <;> rw [h] <;> rfl

/-- `Client::tcp_connect`. -/
theorem tlsTcpConnect_run (dbg : Bool) (fuel : Nat) (secs : UInt32) (w : World) (c : Client x) (hf : 1 ≤ fuel)
    (hn : c.rx.n ∈ [1024, 2048, 4096, 8192, 16384]) (h : Steady c.sn.idx w) (htx1 : 65536 % w.chip.txSize c.sn.idx = 0) (htx2 : w.chip.txSize c.sn.idx < 65536) :
    (∃ s', dbg = true ∧ tlsTcpConnect dbg fuel worldBus secs (w, c) = (.error (.stop .panic), s')) ∨
    (∃ w', tlsTcpConnect dbg fuel worldBus secs (w, c) = (.ok 10, (w', { c with state := .waitConInt, timeout := some secs })) ∧
      Thm.Connecting w.chip w'.chip c.sn.idx c.srcPort c.dst 0xFF ∧ w'.chip.rxSize c.sn.idx = c.rx.n ∧ Steady c.sn.idx w') := by
  generalize h1 : ({ w.tick with chip := w.tick.chip.command c.sn.idx SocketCommand.close.code } : World) = w1
  have e1 : close worldBus c.sn w = (.ok (), w1) := by
    rw [← h1]
    exact run_setSnCr c.sn .close w
  have s1 : Steady c.sn.idx w1 := by rw [← h1]; exact h.tick.1
  have z1 : ∀ a, ConfigReg a → w1.chip.mem (4 * c.sn.idx + 1) a = w.chip.mem (4 * c.sn.idx + 1) a := by
    intro a ha
    rw [← h1]
    exact (command_config w.tick.chip c.sn.idx a SocketCommand.close.code ha).trans (tick_config w c.sn.idx a ha)
  generalize h2 : ({ w1.tick with chip := { w1.tick.chip with mem := w1.tick.chip.mem.store (4 * c.sn.idx + 1) 0x1E c.rxBufferSize.code } } : World) = w2
  have e2 : worldBus.setSnRxbufSize c.sn c.rxBufferSize w1 = (.ok (), w2) := by
    rw [← h2]
    exact Thm.run_setSnRxbufSize c.sn _ w1
  have s2 : Steady c.sn.idx w2 := by rw [← h2]; exact s1.tick.1
  have r2 : w2.chip.rxSize c.sn.idx = c.rx.n := by
    rw [← rxBufferSize_bytes c hn, ← h2]
    simp [Chip.rxSize, Mem.store]
  have t2 : w2.chip.txSize c.sn.idx = w.chip.txSize c.sn.idx := by
    have : w2.chip.mem (4 * c.sn.idx + 1) 0x1F = w.chip.mem (4 * c.sn.idx + 1) 0x1F := by
      rw [← z1 0x1F (.inr (.inl (by omega))), ← tick_config w1 _ 0x1F (.inr (.inl (by omega))), ← h2]
      simp [Mem.store]
    unfold Chip.txSize
    rw [this]
  have q2 : w2.chip.mem 0 0x18 = w.chip.mem 0 0x18 := by
    have a1 := closed_close (Thm.closedSimr c.sn) w
    rw [e1] at a1
    refine Eq.trans ?_ ((Thm.tick_simr w1).trans a1)
    rw [← h2]
    exact Thm.store_mem0 w1.tick.chip.mem c.sn.idx 0x1E c.rxBufferSize.code
  have n2 : w2.chip.sent = w.chip.sent := by
    rw [← tick_sent w, show w.tick.chip.sent = w1.chip.sent by rw [← h1]; rfl, ← tick_sent w1, ← h2]
  have hs : Sizes w2.chip c.sn.idx := by
    refine ⟨?_, ?_, t2 ▸ htx1, t2 ▸ htx2⟩
    all_goals
      rw [r2]
      simp only [List.mem_cons, List.not_mem_nil, or_false] at hn
      rcases hn with hn | hn | hn | hn | hn <;> rw [hn] <;> decide
  obtain ⟨w3, w4, e3, e4, e5⟩ := Thm.connect_run dbg fuel c.sn c.srcPort c.dst SocketInterruptMask.default w2 hf s2 hs
  unfold tlsTcpConnect
  rw [X.bind_ok (getC_run (w, c)), X.bind_ok (onBus_ok' e1 c), X.bind_ok (onBus_ok' e2 c), X.bind_ok (onBus_ok' (Thm.run_simr w2) c), X.bind_ok (onBus_ok' e3 c),
    X.bind_ok (onBus_ok' e4 c)]
  rcases e5 with ⟨w', hd, e⟩ | ⟨w', e, hcon, hr, hsy, -, -⟩
  · left
    have : onBus (tcpConnect dbg fuel worldBus c.sn c.srcPort c.dst) (w4, c) = (.error (.stop .panic), (w', c)) :=
      X.onFst_run (X.mapErr_error (X.ofM_error e)) c
    exact ⟨_, hd, X.bind_error this⟩
  · right
    rw [X.bind_ok (onBus_ok' e c)]
    exact ⟨w', rfl, ⟨hcon.regs, hcon.status, hcon.mask, q2 ▸ hcon.enabled, hcon.rx, hcon.tx, hcon.free⟩, hr.trans r2, hsy⟩

/-- C96, TLS: in the initial state (to which every disconnection and timeout leads back) `process` makes the socket connect to the server, from the source
port of the client, with all interrupts enabled and with a receive buffer as large as the one of the client; it asks to be called again within ten
seconds.  Nothing but the driver changes the status of the socket meanwhile; in a debug build the call panics if the source port is in use. -/
theorem C96_tls (dbg : Bool) (fuel : Nat) (rng : Rng x) (secs : UInt32) (w : World) (c : Client x) (hc : c.state = .reset) (hf : 1 ≤ fuel)
    (hi : Quiet w c) (hn : c.rx.n ∈ [1024, 2048, 4096, 8192, 16384]) (h : Steady c.sn.toU8.toNat w)
    (htx1 : 65536 % w.chip.txSize c.sn.toU8.toNat = 0) (htx2 : w.chip.txSize c.sn.toU8.toNat < 65536) :
    let r := process dbg fuel worldBus rng secs (w, c)
    (dbg = true ∧ r.1 = .error (.stop .panic)) ∨
    (r.1 = .ok (.callAfter 10) ∧ r.2.2 = { c with state := .waitConInt, timeout := some secs } ∧
      Thm.Connecting w.chip r.2.1.chip c.sn.toU8.toNat c.srcPort c.dst 0xFF ∧ r.2.1.chip.rxSize c.sn.toU8.toNat = c.rx.n ∧ Steady c.sn.toU8.toNat r.2.1) := by
  intro r
  obtain ⟨w1, hp, hw1⟩ := process_onState dbg fuel rng secs w c hi (by rw [hc]; simp)
  have k1 : Steady c.sn.idx w1 ∧ w1.chip.txSize c.sn.idx = w.chip.txSize c.sn.idx ∧ w1.chip.mem 0 0x18 = w.chip.mem 0 0x18 ∧
      w1.chip.sent = w.chip.sent := by
    rcases hw1 with rfl | e
    · exact ⟨h.tick.1, tick_txSize _ _, Thm.tick_simr w, tick_sent w⟩
    · rw [run_setSnIr] at e
      injection e with _ e
      subst e
      refine ⟨h.tick.1.tick.1, ?_, (Thm.store_mem0 w.tick.tick.chip.mem c.sn.idx 2 (w.tick.tick.chip.mem (4 * c.sn.idx + 1) 2 &&& ~~~w.tick.chip.mem (4 * c.sn.idx + 1) 2)).trans ((Thm.tick_simr w.tick).trans (Thm.tick_simr w)),
        (tick_sent w.tick).trans (tick_sent w)⟩
      rw [← tick_txSize w, ← tick_txSize w.tick]
      simp [Chip.txSize, Mem.store]
  have hr : r = (orFatal worldBus secs (tlsTcpConnect dbg fuel worldBus secs) >>= fun after => pure (TEvent.callAfter after)) (w1, c) := by
    show process dbg fuel worldBus rng secs (w, c) = _
    rw [hp]
    unfold onState
    rw [X.bind_ok (getC_run (w1, c)), hc]
  rcases tlsTcpConnect_run dbg fuel secs w1 c hf hn k1.1 (k1.2.1 ▸ htx1) (k1.2.1 ▸ htx2) with ⟨s', hd, e⟩ | ⟨w', e, hcon, hrx, hsy⟩
  · left
    refine ⟨hd, ?_⟩
    rw [hr, X.bind_error (orFatal_stop e)]
  · right
    rw [hr, X.bind_ok (orFatal_ok e)]
    exact ⟨rfl, rfl, ⟨hcon.regs, hcon.status, hcon.mask, k1.2.2.1 ▸ hcon.enabled, hcon.rx, hcon.tx, hcon.free⟩, hrx, hsy⟩

namespace Witness

/-- A new client and a chip with 2 KiB buffers. -/
example : let r := process false 1 worldBus rng 7 (Thm.tcpWorld 0 [], setup.client X)
    r.1 = .ok (.callAfter 10) ∧ Thm.Connecting (Thm.tcpWorld 0 []).chip r.2.1.chip 3 (setup.client X).srcPort (setup.client X).dst 0xFF := by
  intro r
  have := (C96_tls false 1 rng 7 (Thm.tcpWorld 0 []) (setup.client X) rfl (by decide) (by show Spec.Mqtt.quiet 0 = true; decide) (by decide +kernel) nofun
    (by decide +kernel) (by decide +kernel)).resolve_left (fun h => absurd h.1 (by decide))
  exact ⟨this.1, this.2.2.1⟩

end Witness

end Verif.Tls

import Verif.Thm.Connect
import Verif.Thm.TlsWaits
/-!
# C99: the TLS client tries again
-/
namespace Verif.Tls
open Verif Hl
open _root_.Verif.Spec (World worldBus TxState RxState Queue Chip Mem EnvStep)

variable {x : Crypto}

/-- Nothing happens to the socket by itself: no CON, DISCON or TIMEOUT interrupt is pending or will be raised and its status does not change; its
transmit buffer has one of the sizes of the chip. -/
structure Alone (k : Nat) (w : World) : Prop where
  peace : Peace k w
  steady : Steady k w
  txDvd : 65536 % w.chip.txSize k = 0
  txLt : w.chip.txSize k < 65536

/-- The same after some accesses of the driver, which did not touch the interrupt mask of the sockets. -/
structure StillAlone (k : Nat) (w w' : World) : Prop where
  alone : Alone k w → Alone k w'
  simr : w'.chip.mem 0 0x18 = w.chip.mem 0 0x18

theorem StillAlone.trans {k : Nat} {w w' w'' : World} (h : StillAlone k w w') (h' : StillAlone k w' w'') : StillAlone k w w'' :=
  ⟨fun a => h'.alone (h.alone a), h'.simr.trans h.simr⟩

theorem StillAlone.tick (k : Nat) (w : World) : StillAlone k w w.tick :=
  ⟨fun a => ⟨a.peace.tick, a.steady.tick.1, by rw [tick_txSize]; exact a.txDvd, by rw [tick_txSize]; exact a.txLt⟩, tick_mem0 w 0x18⟩

theorem StillAlone.setIr {sn : Sn} {v : UInt8} {w w' : World} (e : worldBus.setSnIr sn v w = (.ok (), w')) : StillAlone sn.idx w w' := by
  rw [run_setSnIr] at e
  injection e with _ e
  subst e
  refine (StillAlone.tick sn.idx w).trans ⟨fun a => ⟨a.peace.setIr _, a.steady, ?_, ?_⟩, Thm.store_mem0 w.tick.chip.mem sn.idx 2 (w.tick.chip.mem (4 * sn.idx + 1) 2 &&& ~~~v)⟩
  · have := a.txDvd
    simpa [Chip.txSize, Mem.store] using this
  · have := a.txLt
    simpa [Chip.txSize, Mem.store] using this

theorem disconnect_ir (c : Chip) (k : Nat) : (c.command k 0x08).mem (4 * k + 1) 2 = c.mem (4 * k + 1) 2 := by
  unfold Chip.command Chip.setStatus Mem.store
  rw [if_neg (by decide), if_neg (by decide), if_neg (by decide), if_pos rfl]
  split
  · simp
  · split
    · simp
    · rfl

theorem disconnect_mem0 (c : Chip) (k i : Nat) : (c.command k 0x08).mem 0 i = c.mem 0 i := by
  unfold Chip.command Chip.setStatus Mem.store
  rw [if_neg (by decide), if_neg (by decide), if_neg (by decide), if_pos rfl]
  split
  · simp
  · split
    · simp
    · rfl

theorem disconnect_status (c : Chip) (k : Nat) (h : c.status k = 0x17) : (c.command k 0x08).status k = 0x18 := by
  unfold Chip.command
  rw [if_neg (by decide), if_neg (by decide), if_neg (by decide), if_pos rfl, if_pos h]
  simp [Chip.setStatus, Chip.status, Mem.store]

theorem StillAlone.disconnect (k : Nat) (w : World) : StillAlone k w { w with chip := w.chip.command k 0x08 } := by
  have ht : (w.chip.command k 0x08).txSize k = w.chip.txSize k := by
    unfold Chip.txSize
    rw [command_config w.chip k 0x1F 0x08 (.inr (.inl (by omega)))]
  refine ⟨fun a => ⟨⟨?_, a.peace.later⟩, a.steady, ?_, ?_⟩, disconnect_mem0 _ _ _⟩
  · exact (congrArg Spec.Mqtt.quiet (disconnect_ir w.chip k)).trans a.peace.now
  · show 65536 % (w.chip.command k 0x08).txSize k = 0
    rw [ht]; exact a.txDvd
  · show (w.chip.command k 0x08).txSize k < 65536
    rw [ht]; exact a.txLt

/-- A call in a state without records, up to the state machine. -/
theorem process_alone (dbg : Bool) (fuel : Nat) (rng : Rng x) (secs : UInt32) (w : World) (c : Client x) (h : Alone c.sn.idx w)
    (hst : c.state ≠ .waitAlertSendOk) :
    ∃ w1, process dbg fuel worldBus rng secs (w, c) = onState dbg fuel worldBus secs (w1, c) ∧ StillAlone c.sn.idx w w1 := by
  obtain ⟨w1, e, hw⟩ := process_onState dbg fuel rng secs w c h.peace.tick.now hst
  refine ⟨w1, e, ?_⟩
  rcases hw with rfl | e
  · exact .tick _ _
  · exact (StillAlone.tick _ _).trans (.setIr e)

/-- The call that disconnects. -/
theorem process_sendDiscon (fuel : Nat) (rng : Rng x) (secs : UInt32) (w : World) (c : Client x) (h : Alone c.sn.idx w) (hc : c.state = .sendDiscon) :
    ∃ w', process false fuel worldBus rng secs (w, c) = (.ok (.callAfter 10), (w', { c with state := .waitDiscon, timeout := some secs })) ∧
      StillAlone c.sn.idx w w' := by
  obtain ⟨w1, e, h1⟩ := process_alone false fuel rng secs w c h (by rw [hc]; simp)
  have e2 : tcpDisconnect false worldBus c.sn w1 = (.ok (), { w1.tick with chip := w1.tick.chip.command c.sn.idx 0x08 }) := by
    unfold tcpDisconnect debugAssert
    rw [if_neg (by decide)]
    exact run_setSnCr c.sn .disconnect w1
  refine ⟨{ w1.tick with chip := w1.tick.chip.command c.sn.idx 0x08 }, ?_, h1.trans ((StillAlone.tick _ _).trans (StillAlone.disconnect _ _))⟩
  rw [e]
  unfold onState
  rw [X.bind_ok (getC_run (w1, c)), hc]
  dsimp only
  rw [X.bind_ok (orFatal_ok (onBus_ok' e2 c))]
  rfl

/-- A client that cannot receive checks its timeout. -/
theorem checkTimeout_run (dbg : Bool) (secs : UInt32) (w : World) (c : Client x) (t0 : UInt32) (ht : c.timeout = some t0) (hle : t0.toNat ≤ secs.toNat) :
    checkTimeout dbg secs (w, c) =
      if secs.toNat ≤ t0.toNat + 10 then (.ok (.callAfter (UInt32.ofNat (10 - (secs.toNat - t0.toNat)))), (w, c))
      else (.error (.err (.stateTimeout c.state)), (w, if c.state = .waitDiscon then c.reset else c.setState .sendDiscon)) := by
  unfold checkTimeout Client.elapsedSecs
  rw [X.bind_ok (getC_run (w, c))]
  dsimp only
  rw [ht]
  dsimp only
  rw [if_neg (by rw [UInt32.lt_iff_toNat_lt]; omega)]
  have hsub : (secs - t0).toNat = secs.toNat - t0.toNat := by
    rw [UInt32.toNat_sub_of_le]
    exact UInt32.le_iff_toNat_le.mpr hle
  have hcip : (ofCipher (.ok (some (secs - t0))) : X TErr (World × Client x) _) = pure (some (secs - t0)) := rfl
  rw [hcip, pure_bind]
  dsimp only
  by_cases hgt : secs.toNat ≤ t0.toNat + 10
  · rw [if_neg (by rw [GT.gt, UInt32.lt_iff_toNat_lt, hsub]; show ¬ 10 < _; omega), if_pos hgt]
    show (Except.ok (TEvent.callAfter (10 - (secs - t0))), _) = _
    congr 3
    apply UInt32.toNat_inj.mp
    rw [UInt32.toNat_sub_of_le]
    · rw [hsub, UInt32.toNat_ofNat_of_lt' (by show _ < 4294967296; omega)]; rfl
    · rw [UInt32.le_iff_toNat_le, hsub]; show _ ≤ 10; omega
  · rw [if_pos (by rw [GT.gt, UInt32.lt_iff_toNat_lt, hsub]; show 10 < _; omega), if_neg hgt]
    rfl

/-- Waiting for the end of the disconnection. -/
theorem process_waitDiscon (dbg : Bool) (fuel : Nat) (rng : Rng x) (secs t0 : UInt32) (w : World) (c : Client x) (h : Alone c.sn.idx w) (hc : c.state = .waitDiscon)
    (ht : c.timeout = some t0) (hle : t0.toNat ≤ secs.toNat) :
    ∃ w', process dbg fuel worldBus rng secs (w, c) =
      (if secs.toNat ≤ t0.toNat + 10 then (.ok (.callAfter (UInt32.ofNat (10 - (secs.toNat - t0.toNat)))), (w', c))
      else (.error (.err (.stateTimeout .waitDiscon)), (w', c.reset))) ∧ StillAlone c.sn.idx w w' := by
  obtain ⟨w1, e, h1⟩ := process_alone dbg fuel rng secs w c h (by rw [hc]; simp)
  refine ⟨w1, ?_, h1⟩
  have e2 : onState dbg fuel worldBus secs (w1, c) = checkTimeout dbg secs (w1, c) := by
    unfold onState
    rw [X.bind_ok (getC_run (w1, c)), hc]
    dsimp only
    unfold receiveRecords
    rw [X.bind_ok (getC_run (w1, c)), if_pos (.inr hc)]
  rw [e, e2, checkTimeout_run dbg secs w1 c t0 ht hle, if_pos hc, hc]

/-- Waiting until an alert is sent. -/
theorem process_waitAlert (dbg : Bool) (fuel : Nat) (rng : Rng x) (secs t0 : UInt32) (w : World) (c : Client x) (h : Alone c.sn.idx w)
    (hc : c.state = .waitAlertSendOk) (ht : c.timeout = some t0) (hle : t0.toNat ≤ secs.toNat) :
    ∃ w', StillAlone c.sn.idx w w' ∧ (process dbg fuel worldBus rng secs (w, c) = (.ok (.callAfter 10), (w', c.setStateSendDiscon secs)) ∨
      process dbg fuel worldBus rng secs (w, c) =
      (if secs.toNat ≤ t0.toNat + 10 then (.ok (.callAfter (UInt32.ofNat (10 - (secs.toNat - t0.toNat)))), (w', c))
      else (.error (.err (.stateTimeout .waitAlertSendOk)), (w', c.setState .sendDiscon)))) := by
  have e2 : ∀ w1, onState dbg fuel worldBus secs (w1, c) = checkTimeout dbg secs (w1, c) := by
    intro w1
    unfold onState
    rw [X.bind_ok (getC_run (w1, c)), hc]
    dsimp only
    unfold receiveRecords
    rw [X.bind_ok (getC_run (w1, c)), if_pos (.inl hc)]
  have fin : ∀ w1, onState dbg fuel worldBus secs (w1, c) =
      (if secs.toNat ≤ t0.toNat + 10 then (.ok (.callAfter (UInt32.ofNat (10 - (secs.toNat - t0.toNat)))), (w1, c))
      else (.error (.err (.stateTimeout .waitAlertSendOk)), (w1, c.setState .sendDiscon))) := by
    intro w1
    rw [e2, checkTimeout_run dbg secs w1 c t0 ht hle, hc, if_neg (show ¬ TState.waitAlertSendOk = .waitDiscon by simp)]
  obtain ⟨h1, h2, h3⟩ := ir_quiet _ h.peace.tick.now
  unfold process
  rw [X.bind_ok (getC_run (w, c)), X.bind_ok (X.attempt_ok (onBus_ok' (Mqtt.run_snIr c.sn w) c))]
  dsimp only
  by_cases hany : (⟨w.tick.chip.mem (4 * c.sn.idx + 1) 2⟩ : SocketInterrupt).anyRaised = true
  · rw [if_pos hany]
    unfold onInterrupts
    rw [X.bind_ok (getC_run (w.tick, c)), X.bind_ok (orFatal_ok (onBus_ok' (run_setSnIr c.sn _ w.tick) c)), if_neg (by rw [h1]; decide)]
    unfold onInterrupt
    rw [X.bind_ok (getC_run _), if_neg (by rw [h2]; decide), if_neg (by rw [h3]; decide)]
    refine ⟨_, (StillAlone.tick _ w).trans (.setIr (run_setSnIr c.sn (w.tick.chip.mem (4 * c.sn.idx + 1) 2) w.tick)), ?_⟩
    by_cases hs : (⟨w.tick.chip.mem (4 * c.sn.idx + 1) 2⟩ : SocketInterrupt).sendokRaised = true
    · left
      rw [if_pos ⟨hs, hc⟩]
      rfl
    · right
      rw [if_neg (fun g => hs g.1)]
      exact fin _
  · rw [if_neg hany]
    exact ⟨w.tick, .tick _ _, .inr (fin _)⟩

/-- Calls of `process` at the given times: their results, and the chip and the client after the last. -/
def callsAt (fuel : Nat) (rng : Rng x) : List UInt32 → World × Client x → List (Except (Fail TErr) TEvent) × (World × Client x)
  | [], s => ([], s)
  | t :: ts, s =>
    let r := process false fuel worldBus rng t s
    let q := callsAt fuel rng ts r.2
    (r.1 :: q.1, q.2)

theorem callsAt_cons {fuel : Nat} {rng : Rng x} {t : UInt32} {s s' : World × Client x} {res : Except (Fail TErr) TEvent} (ts : List UInt32)
    (h : process false fuel worldBus rng t s = (res, s')) :
    callsAt fuel rng (t :: ts) s = (res :: (callsAt fuel rng ts s').1, (callsAt fuel rng ts s').2) := by
  show ((process false fuel worldBus rng t s).1 :: (callsAt fuel rng ts (process false fuel worldBus rng t s).2).1,
    (callsAt fuel rng ts (process false fuel worldBus rng t s).2).2) = _
  rw [h]

/-- The client is connecting again: it has no keys, and its socket tries to connect to the server. -/
structure Retries (secs : UInt32) (w : World) (c : Client x) (w' : World) (c' : Client x) : Prop where
  client : c' = { c.resetKeys with state := .waitConInt, timeout := some secs }
  socket : Thm.Connecting w.chip w'.chip c.sn.toU8.toNat c.srcPort c.dst 0xFF
  buffer : w'.chip.rxSize c.sn.toU8.toNat = c.rx.n

/-- C99, a client that has given up its connection: the next call disconnects, after more than ten seconds the end of the wait for the other side is
reported, and the call after that connects again. -/
theorem C99_disconnects_and_retries (fuel : Nat) (rng : Rng x) (s1 s2 s3 : UInt32) (w : World) (c : Client x) (hc : c.state = .sendDiscon) (hf : 1 ≤ fuel)
    (ha : Alone c.sn.toU8.toNat w) (hn : c.rx.n ∈ [1024, 2048, 4096, 8192, 16384]) (h12 : s1.toNat + 10 < s2.toNat) :
    let r := callsAt fuel rng [s1, s2, s3] (w, c)
    r.1 = [.ok (.callAfter 10), .error (.err (.stateTimeout .waitDiscon)), .ok (.callAfter 10)] ∧ Retries s3 w c r.2.1 r.2.2 := by
  intro r
  obtain ⟨w1, e1, a1⟩ := process_sendDiscon fuel rng s1 w c ha hc
  obtain ⟨w2, e2, a2⟩ := process_waitDiscon false fuel rng s2 s1 w1 { c with state := .waitDiscon, timeout := some s1 } (a1.alone ha) rfl rfl (by omega)
  rw [if_neg (by omega)] at e2
  have ha2 := a2.alone (a1.alone ha)
  have e3 := (C96_tls false fuel rng s3 w2 (Client.reset { c with state := .waitDiscon, timeout := some s1 }) rfl hf ha2.peace.tick.now hn ha2.steady ha2.txDvd
    ha2.txLt).resolve_left (fun h => absurd h.1 (by decide))
  rcases e4 : process false fuel worldBus rng s3 (w2, Client.reset { c with state := .waitDiscon, timeout := some s1 }) with ⟨res, w3, c3⟩
  rw [e4] at e3
  have hr : r = ([.ok (.callAfter 10), .error (.err (.stateTimeout .waitDiscon)), res], (w3, c3)) := by
    show callsAt fuel rng [s1, s2, s3] (w, c) = _
    rw [callsAt_cons _ e1, callsAt_cons _ e2, callsAt_cons _ e4]
    rfl
  rw [hr]
  have hs := (a1.trans a2).simr
  refine ⟨?_, e3.2.1, ?_, e3.2.2.2.1⟩
  · rw [← e3.1]
  · have := e3.2.2.1
    exact ⟨this.regs, this.status, this.mask, hs ▸ this.enabled, this.rx, this.tx, this.free⟩

/-- C99, a silent server: a client that waits in the handshake (or for the connection) and receives nothing but perhaps a beginning of a record reports the
timeout after more than ten seconds, disconnects, and connects again. -/
theorem C99_silent_server (fuel : Nat) (rng : Rng x) (s0 s1 s2 s3 t0 : UInt32) (w : World) (c : Client x) (p : Nat) (unread : Bytes)
    (hl : Listens w c p unread) (hc : c.state ≠ .sendFinished) (ht : c.timeout = some t0) (hf : 1 ≤ fuel)
    (ha : Alone c.sn.toU8.toNat w) (hst : Still c.sn.toU8.toNat w) (hn : c.rx.n ∈ [1024, 2048, 4096, 8192, 16384]) (rest : Bytes) (hrest : rest ≠ [])
    (hr : IsRecord ((w.chip.received c.sn.toU8.toNat).drop p ++ rest))
    (hlim : ((w.chip.received c.sn.toU8.toNat).drop p ++ rest).length ≤ 5 + c.recordSizeLimit.toNat)
    (h0 : t0.toNat + 10 < s0.toNat) (h12 : s1.toNat + 10 < s2.toNat) :
    let r := callsAt fuel rng [s0, s1, s2, s3] (w, c)
    r.1 = [.error (.err (.stateTimeout c.state)), .ok (.callAfter 10), .error (.err (.stateTimeout .waitDiscon)), .ok (.callAfter 10)] ∧
    Retries s3 w c r.2.1 r.2.2 := by
  intro r
  have h := (waits_run false fuel rng s0 w c p unread hl hc ha.peace.tick.now hst rest hrest hr hlim
    (by intro t h; rw [ht] at h; cases h; omega)).resolve_left (fun h => absurd h.1 (by decide))
  rcases e : process false fuel worldBus rng s0 (w, c) with ⟨res, w1, c1⟩
  rw [e] at h
  obtain ⟨hw, -, -, hrx, htx, hp, hs, hm⟩ := h
  unfold WaitsOrGivesUp at hw
  rw [ht] at hw
  dsimp only at hw
  rw [if_neg (by omega)] at hw
  obtain ⟨rfl, rfl⟩ := hw
  have ha1 : Alone c.sn.idx w1 := ⟨hp ha.peace, fun es he => ha.steady es (hs.subset he), htx.size_dvd, htx.size_lt⟩
  have h3 := C99_disconnects_and_retries fuel rng s1 s2 s3 w1 { c with state := .sendDiscon, timeout := none } rfl hf ha1 hn h12
  have hr : r = _ := callsAt_cons [s1, s2, s3] e
  rw [hr]
  refine ⟨by dsimp only; rw [h3.1], h3.2.client, ?_, h3.2.buffer⟩
  have := h3.2.socket
  exact ⟨this.regs, this.status, this.mask, hm ▸ this.enabled, this.rx, this.tx, this.free⟩

/-- C99, after an abort: a client that has sent an alert disconnects when the alert is sent, or after more than ten seconds, and connects again. -/
theorem C99_after_abort (fuel : Nat) (rng : Rng x) (s0 s1 s2 s3 t0 : UInt32) (w : World) (c : Client x) (hc : c.state = .waitAlertSendOk)
    (ht : c.timeout = some t0) (hf : 1 ≤ fuel) (ha : Alone c.sn.toU8.toNat w) (hn : c.rx.n ∈ [1024, 2048, 4096, 8192, 16384])
    (h0 : t0.toNat + 10 < s0.toNat) (h12 : s1.toNat + 10 < s2.toNat) :
    let r := callsAt fuel rng [s0, s1, s2, s3] (w, c)
    (r.1.head? = some (.ok (.callAfter 10)) ∨ r.1.head? = some (.error (.err (.stateTimeout .waitAlertSendOk)))) ∧
    r.1.tail = [.ok (.callAfter 10), .error (.err (.stateTimeout .waitDiscon)), .ok (.callAfter 10)] ∧ Retries s3 w c r.2.1 r.2.2 := by
  intro r
  obtain ⟨w1, a1, e⟩ := process_waitAlert false fuel rng s0 t0 w c ha hc ht (by omega)
  rw [if_neg (by omega)] at e
  have fin : ∀ res c1, process false fuel worldBus rng s0 (w, c) = (res, (w1, c1)) → c1.state = .sendDiscon → c1.sn = c.sn → c1.rx = c.rx →
      c1.srcPort = c.srcPort → c1.dst = c.dst →
      ({ c1.resetKeys with state := .waitConInt, timeout := some s3 } : Client x) = { c.resetKeys with state := .waitConInt, timeout := some s3 } →
      r.1.head? = some res ∧
      r.1.tail = [.ok (.callAfter 10), .error (.err (.stateTimeout .waitDiscon)), .ok (.callAfter 10)] ∧ Retries s3 w c r.2.1 r.2.2 := by
    intro res c1 e g1 g2 g3 g4 g5 g6
    have h3 := C99_disconnects_and_retries fuel rng s1 s2 s3 w1 c1 g1 hf (g2 ▸ a1.alone ha) (g3 ▸ hn) h12
    have hr : r = _ := callsAt_cons [s1, s2, s3] e
    rw [hr]
    refine ⟨rfl, h3.1, h3.2.client.trans g6, ?_, ?_⟩
    · have := h3.2.socket
      rw [g2, g4, g5] at this
      exact ⟨this.regs, this.status, this.mask, a1.simr ▸ this.enabled, this.rx, this.tx, this.free⟩
    · have := h3.2.buffer
      rw [g2, g3] at this
      exact this
  rcases e with e | e
  · obtain ⟨h1, h2, h3⟩ := fin _ _ e rfl rfl rfl rfl rfl rfl
    exact ⟨.inl h1, h2, h3⟩
  · obtain ⟨h1, h2, h3⟩ := fin _ _ e rfl rfl rfl rfl rfl rfl
    exact ⟨.inr h1, h2, h3⟩

/-- No interrupt that matters will be raised for the socket. -/
def NoMore (k : Nat) (w : World) : Prop := ∀ es ∈ w.sched, ∀ bits, EnvStep.raise k bits ∈ es → Spec.Mqtt.quiet bits = true

theorem or_and_eleven (a b : UInt8) (hb : b &&& 11 = 0) : (a ||| b) &&& 11 = a &&& 11 := by
  have h : (a ||| b) &&& 11 = (a &&& 11) ||| (b &&& 11) := by
    apply UInt8.toNat_inj.mp
    simp only [UInt8.toNat_and, UInt8.toNat_or]
    exact Nat.and_or_distrib_right ..
  rw [h, hb, UInt8.or_zero]

theorem envStep_ir_bits (c : Chip) (e : EnvStep) (k : Nat) (he : ∀ bits, e = .raise k bits → Spec.Mqtt.quiet bits = true) :
    (c.envStep e).mem (4 * k + 1) 2 &&& 11 = c.mem (4 * k + 1) 2 &&& 11 := by
  cases e with
  | arrive j bs =>
    unfold Chip.envStep
    dsimp only
    split
    · dsimp only
      rw [ringWrite_other _ _ _ _ _ _ _ (by omega), setReg_ir _ _ _ _ _ (by omega), setReg_ir _ _ _ _ _ (by omega)]
    · rfl
  | status j s =>
    unfold Chip.envStep Chip.setStatus Mem.store
    dsimp only
    rw [if_neg (by omega)]
  | free j n =>
    unfold Chip.envStep
    rw [setReg_ir _ _ _ _ _ (by omega)]
  | raise j bits =>
    unfold Chip.envStep Mem.store
    dsimp only
    split
    · rename_i h
      have : j = k := by omega
      subst this
      exact or_and_eleven _ _ ((quiet_iff bits).mp (he bits rfl))
    · rfl

theorem NoMore.tick {k : Nat} {w : World} (h : NoMore k w) :
    NoMore k w.tick ∧ w.tick.chip.mem (4 * k + 1) 2 &&& 11 = w.chip.mem (4 * k + 1) 2 &&& 11 := by
  unfold World.tick
  split
  · exact ⟨h, rfl⟩
  · rename_i es rest hs
    have hl := h
    unfold NoMore at hl
    rw [hs] at hl
    refine ⟨fun e he => hl e (List.mem_cons_of_mem _ he), ?_⟩
    have key : ∀ (es : List EnvStep) (c : Chip), (∀ bits, EnvStep.raise k bits ∈ es → Spec.Mqtt.quiet bits = true) →
        (es.foldl Chip.envStep c).mem (4 * k + 1) 2 &&& 11 = c.mem (4 * k + 1) 2 &&& 11 := by
      intro es
      induction es with
      | nil => intro c _; rfl
      | cons e es ih =>
        intro c he
        rw [List.foldl_cons, ih _ (fun bits hb => he bits (List.mem_cons_of_mem _ hb))]
        exact envStep_ir_bits c e k (fun bits hb => he bits (by rw [hb]; exact List.mem_cons_self))
    exact key es w.chip (hl es List.mem_cons_self)

theorem bits_of_eleven (x y : UInt8) (h : x &&& 11 = y &&& 11) :
    Spec.Mqtt.con x = Spec.Mqtt.con y ∧ Spec.Mqtt.discon x = Spec.Mqtt.discon y ∧ Spec.Mqtt.timeout x = Spec.Mqtt.timeout y := by
  have key : ∀ x : UInt8, Spec.Mqtt.con x = Spec.Mqtt.con (x &&& 11) ∧ Spec.Mqtt.discon x = Spec.Mqtt.discon (x &&& 11) ∧
      Spec.Mqtt.timeout x = Spec.Mqtt.timeout (x &&& 11) :=
    forall_u8 (p := fun x => Spec.Mqtt.con x = Spec.Mqtt.con (x &&& 11) ∧ Spec.Mqtt.discon x = Spec.Mqtt.discon (x &&& 11) ∧
      Spec.Mqtt.timeout x = Spec.Mqtt.timeout (x &&& 11)) (by decide +kernel)
  obtain ⟨a1, a2, a3⟩ := key x
  obtain ⟨b1, b2, b3⟩ := key y
  rw [a1, a2, a3, b1, b2, b3, h]
  exact ⟨rfl, rfl, rfl⟩

theorem cleared_quiet (a b : UInt8) (h : a &&& 11 = b &&& 11) : Spec.Mqtt.quiet (a &&& ~~~b) = true := by
  rw [quiet_iff, UInt8.and_assoc, UInt8.and_comm (~~~b), ← UInt8.and_assoc, h, UInt8.and_assoc, UInt8.and_comm 11, ← UInt8.and_assoc]
  have : ∀ b : UInt8, b &&& ~~~b = 0 := forall_u8 (p := fun b => b &&& ~~~b = 0) (by decide +kernel)
  rw [this, UInt8.zero_and]

/-- C99, after the end of the connection: when the other side has closed the connection (DISCON) or does not answer (TIMEOUT), the next call reports this
and the call after it connects again. -/
theorem C99_after_disconnection (fuel : Nat) (rng : Rng x) (s0 s1 : UInt32) (w : World) (c : Client x) (hf : 1 ≤ fuel)
    (hst : Steady c.sn.toU8.toNat w) (hnm : NoMore c.sn.toU8.toNat w) (htx1 : 65536 % w.chip.txSize c.sn.toU8.toNat = 0)
    (htx2 : w.chip.txSize c.sn.toU8.toNat < 65536) (hn : c.rx.n ∈ [1024, 2048, 4096, 8192, 16384])
    (hcon : Spec.Mqtt.con (w.chip.mem (4 * c.sn.toU8.toNat + 1) 2) = false)
    (hev : Spec.Mqtt.discon (w.chip.mem (4 * c.sn.toU8.toNat + 1) 2) = true ∧ c.state ≠ .waitDiscon ∨
      Spec.Mqtt.discon (w.chip.mem (4 * c.sn.toU8.toNat + 1) 2) = false ∧ Spec.Mqtt.timeout (w.chip.mem (4 * c.sn.toU8.toNat + 1) 2) = true) :
    let r := callsAt fuel rng [s0, s1] (w, c)
    r.1 = [if Spec.Mqtt.discon (w.chip.mem (4 * c.sn.toU8.toNat + 1) 2) then .ok .disconnect else .error (.err .tcpTimeout), .ok (.callAfter 10)] ∧
    Retries s1 w c r.2.1 r.2.2 := by
  intro r
  obtain ⟨q1, q2⟩ := hnm.tick
  obtain ⟨q3, q4⟩ := q1.tick
  obtain ⟨b1, b2, b3⟩ := Thm.ir_bits (w.tick.chip.mem (4 * c.sn.idx + 1) 2)
  obtain ⟨d1, d2, d3⟩ := bits_of_eleven _ _ q2
  rw [show c.sn.toU8.toNat = c.sn.idx from rfl] at *
  rw [d1] at b2
  rw [d2] at b1
  rw [d3] at b3
  generalize hw1 : ({ w.tick.tick with chip := { w.tick.tick.chip with mem := w.tick.tick.chip.mem.store (4 * c.sn.idx + 1) 2 (w.tick.tick.chip.mem (4 * c.sn.idx + 1) 2 &&& ~~~w.tick.chip.mem (4 * c.sn.idx + 1) 2) } } : World) = w1
  have ha : Alone c.sn.idx w1 := by
    subst hw1
    refine ⟨⟨?_, q3⟩, hst.tick.1.tick.1, ?_, ?_⟩
    · have := cleared_quiet _ _ q4
      simpa [Mem.store] using this
    · have : 65536 % w.tick.tick.chip.txSize c.sn.idx = 0 := by rw [tick_txSize, tick_txSize]; exact htx1
      simpa [Chip.txSize, Mem.store] using this
    · have : w.tick.tick.chip.txSize c.sn.idx < 65536 := by rw [tick_txSize, tick_txSize]; exact htx2
      simpa [Chip.txSize, Mem.store] using this
  have hm : w1.chip.mem 0 0x18 = w.chip.mem 0 0x18 := by
    subst hw1
    exact (Thm.store_mem0 w.tick.tick.chip.mem c.sn.idx 2
      (w.tick.tick.chip.mem (4 * c.sn.idx + 1) 2 &&& ~~~w.tick.chip.mem (4 * c.sn.idx + 1) 2)).trans ((tick_mem0 w.tick 0x18).trans (tick_mem0 w 0x18))
  have e : process false fuel worldBus rng s0 (w, c) = (if Spec.Mqtt.discon (w.chip.mem (4 * c.sn.idx + 1) 2) then .ok .disconnect else .error (.err .tcpTimeout), (w1, c.reset)) := by
    have hany : (⟨w.tick.chip.mem (4 * c.sn.idx + 1) 2⟩ : SocketInterrupt).anyRaised = true := by
      have key : ∀ y, (⟨y⟩ : SocketInterrupt).disconRaised = true ∨ (⟨y⟩ : SocketInterrupt).timeoutRaised = true → (⟨y⟩ : SocketInterrupt).anyRaised = true :=
        forall_u8 (p := fun y => (⟨y⟩ : SocketInterrupt).disconRaised = true ∨ (⟨y⟩ : SocketInterrupt).timeoutRaised = true → (⟨y⟩ : SocketInterrupt).anyRaised = true)
          (by decide +kernel)
      apply key
      rcases hev with h | h
      · exact .inl (b1.trans h.1)
      · exact .inr (b3.trans h.2)
    unfold process
    rw [X.bind_ok (getC_run (w, c)), X.bind_ok (X.attempt_ok (onBus_ok' (Mqtt.run_snIr c.sn w) c))]
    dsimp only
    rw [if_pos hany]
    unfold onInterrupts
    have e2 : worldBus.setSnIr c.sn (w.tick.chip.mem (4 * c.sn.idx + 1) 2) w.tick = (.ok (), w1) := by
      rw [← hw1]
      exact run_setSnIr c.sn _ w.tick
    rw [X.bind_ok (getC_run (w.tick, c)), X.bind_ok (orFatal_ok (onBus_ok' e2 c)), if_neg (by rw [b2, hcon]; decide)]
    unfold onInterrupt
    rw [X.bind_ok (getC_run _)]
    rcases hev with ⟨h1, h2⟩ | ⟨h1, h2⟩
    · rw [if_pos (b1.trans h1), if_pos h2, h1]
      rfl
    · rw [if_neg (by rw [b1, h1]; decide), if_pos (b3.trans h2), h1]
      rfl
  have e3 := (C96_tls false fuel rng s1 w1 c.reset rfl hf ha.peace.tick.now hn ha.steady ha.txDvd ha.txLt).resolve_left (fun h => absurd h.1 (by decide))
  rcases e4 : process false fuel worldBus rng s1 (w1, c.reset) with ⟨res, w3, c3⟩
  rw [e4] at e3
  have hr : r = ([if Spec.Mqtt.discon (w.chip.mem (4 * c.sn.idx + 1) 2) then .ok .disconnect else .error (.err .tcpTimeout), res], (w3, c3)) := by
    show callsAt fuel rng [s0, s1] (w, c) = _
    rw [callsAt_cons _ e, callsAt_cons _ e4]
    rfl
  rw [hr]
  refine ⟨?_, e3.2.1, ?_, e3.2.2.2.1⟩
  · rw [← e3.1]
  · have := e3.2.2.1
    exact ⟨this.regs, this.status, this.mask, hm ▸ this.enabled, this.rx, this.tx, this.free⟩

/-- C99, the disconnection that the client waits for (`WaitDiscon`) is reported as unexpected and does not end the wait: the client is as before, so that it
connects again only after its ten seconds (`C99_disconnects_and_retries`). -/
theorem C99_awaited_disconnection (dbg : Bool) (fuel : Nat) (rng : Rng x) (secs : UInt32) (w : World) (c : Client x) (hc : c.state = .waitDiscon)
    (hcon : Spec.Mqtt.con (w.tick.chip.mem (4 * c.sn.toU8.toNat + 1) 2) = false)
    (hdis : Spec.Mqtt.discon (w.tick.chip.mem (4 * c.sn.toU8.toNat + 1) 2) = true) :
    let r := process dbg fuel worldBus rng secs (w, c)
    r.1 = .error (.err .unexpectedDisconnect) ∧ r.2.2 = c := by
  obtain ⟨b1, b2, -⟩ := Thm.ir_bits (w.tick.chip.mem (4 * c.sn.idx + 1) 2)
  have hany : (⟨w.tick.chip.mem (4 * c.sn.idx + 1) 2⟩ : SocketInterrupt).anyRaised = true :=
    forall_u8 (p := fun y => (⟨y⟩ : SocketInterrupt).disconRaised = true → (⟨y⟩ : SocketInterrupt).anyRaised = true) (by decide +kernel) _ (b1.trans hdis)
  have e : ∃ w1, process dbg fuel worldBus rng secs (w, c) = (.error (.err .unexpectedDisconnect), (w1, c)) := by
    unfold process
    rw [X.bind_ok (getC_run (w, c)), X.bind_ok (X.attempt_ok (onBus_ok' (Mqtt.run_snIr c.sn w) c))]
    dsimp only
    rw [if_pos hany]
    unfold onInterrupts
    rw [X.bind_ok (getC_run (w.tick, c)), X.bind_ok (orFatal_ok (onBus_ok' (run_setSnIr c.sn _ w.tick) c)), if_neg (by rw [b2]; exact fun h => absurd (hcon.symm.trans h) (by decide))]
    unfold onInterrupt
    rw [X.bind_ok (getC_run _), if_pos (b1.trans hdis), if_neg (fun h => h hc)]
    exact ⟨_, rfl⟩
  obtain ⟨w1, e⟩ := e
  intro r
  have hr : r = _ := e
  rw [hr]
  exact ⟨rfl, rfl⟩

namespace Witness

theorem alone (data : Bytes) : Alone 3 (Thm.tcpWorld 0 data) := ⟨peace data, nofun, by show 65536 % 2048 = 0; decide, by show 2048 < 65536; decide⟩

/-- Seven bytes of the ServerHello arrive and no more. -/
example : let r := callsAt 3 rng [11, 11, 22, 23] (Thm.tcpWorld 0 [22, 3, 3, 0, 90, 2, 0], c2)
    r.1 = [.error (.err (.stateTimeout .waitServerHello)), .ok (.callAfter 10), .error (.err (.stateTimeout .waitDiscon)), .ok (.callAfter 10)] ∧
    r.2.1.chip.status c2.sn.toU8.toNat = 0x15 := by
  have h := C99_silent_server 3 rng 11 11 22 23 0 _ c2 0 [] (listens2 _ (by decide)) (by decide) rfl (by decide) (alone _) (still _) (by decide +kernel)
    (List.replicate 88 7) (by simp) isRecord_part (by decide +kernel) (by decide) (by decide)
  rw [show c2.state = .waitServerHello by decide +kernel] at h
  exact ⟨h.1, h.2.socket.status⟩

/-- The client of C98 after its abort. -/
example : let r := callsAt 3 rng [11, 11, 22, 23] (Thm.tcpWorld 0 [], { c5 with state := .waitAlertSendOk, timeout := some 0 })
    r.2.2.state = .waitConInt ∧ r.2.1.chip.status c5.sn.toU8.toNat = 0x15 := by
  have h := (C99_after_abort 3 rng 11 11 22 23 0 (Thm.tcpWorld 0 []) { c5 with state := .waitAlertSendOk, timeout := some 0 } rfl rfl (by decide) (alone _) (by decide +kernel)
    (by decide) (by decide)).2.2
  exact ⟨congrArg Client.state h.client, h.socket.status⟩

/-- The server closes an established connection: DISCON is pending. -/
def wDiscon : World := { Thm.tcpWorld 0 [] with chip := (Thm.tcpWorld 0 []).chip.envStep (.raise 3 2) }

theorem wDiscon_ir : wDiscon.chip.mem (4 * c5.sn.toU8.toNat + 1) 2 = 2 := by decide +kernel

example : (callsAt 3 rng [5, 6] (wDiscon, c5)).1 = [.ok .disconnect, .ok (.callAfter 10)] := by
  have h := (C99_after_disconnection 3 rng 5 6 wDiscon c5 (by decide) nofun nofun (by decide +kernel) (by decide +kernel) (by decide +kernel)
    (by rw [wDiscon_ir]; decide) (.inl ⟨by rw [wDiscon_ir]; decide, by decide⟩)).1
  rw [wDiscon_ir] at h
  exact h

example : (process false 3 worldBus rng 5 (wDiscon, { c5 with state := .waitDiscon, timeout := some 1 })).1 = .error (.err .unexpectedDisconnect) :=
  (C99_awaited_disconnection false 3 rng 5 wDiscon { c5 with state := .waitDiscon, timeout := some 1 } rfl (by decide +kernel) (by decide +kernel)).1

end Witness

end Verif.Tls
